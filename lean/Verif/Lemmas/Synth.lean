import Verif.Lemmas.Serve
import Verif.Props.Base32
/-
Synthesised names and the addresses in them.
-/
namespace Verif.Resource
open Verif.Bio Verif.DnsName Verif.Dns Verif.Label Verif.Spec.DnsName Verif.Spec.Resource

theorem value_lower (c : UInt8) : Base32.value true Base32.tableHex (Spec.Base32.lower c) = Base32.value true Base32.tableHex c := by
  have : ∀ i : Fin 256, Base32.value true Base32.tableHex (Spec.Base32.lower (UInt8.ofNat i.val)) = Base32.value true Base32.tableHex (UInt8.ofNat i.val) := by decide +kernel
  have h := this ⟨c.toNat, c.toNat_lt⟩
  simpa using h

/-- Case does not matter. -/
theorem decLoop_lower (s : Bytes) : ∀ (mode left : Nat),
    Base32.decLoop true Base32.tableHex false mode left (s.map Spec.Base32.lower) = Base32.decLoop true Base32.tableHex false mode left s := by
  induction s with
  | nil => intro _ _; rfl
  | cons c s ih =>
    intro mode left
    rw [List.map_cons, Base32.decLoop, Base32.decLoop, value_lower]
    cases hv : Base32.value true Base32.tableHex c with
    | ub => rfl
    | err e => rfl
    | ok v =>
      simp only [Out.bind, Bool.false_and, Bool.false_eq_true, if_false]
      split
      · rfl
      · rw [ih]

theorem decode_lower {ip t : Bytes} (h : t.map Spec.Base32.lower = Spec.Base32.text Base32.charsetHex ip false) : Base32.decode2 true Base32.tableHex t false = .ok ip := by
  have := Base32.decode_text Base32.codecHex ip false
  rw [← h] at this
  unfold Base32.decode2 at this ⊢
  rw [decLoop_lower] at this
  exact this

theorem stores_le (s : Bytes) : ∃ r, stores s = r ∧ r ≠ .ub ∧ ∀ n, r = .ok n → n ≤ s.length * 5 / 8 := by
  refine ⟨_, rfl, ?_, ?_⟩
  · unfold stores
    cases h : Base32.decLoop true Base32.tableHex false 0 0 (s.takeWhile fun c => (Base32.value true Base32.tableHex c) != .ok (-1)) with
    | ub => exact absurd h (Base32.decLoop_total Base32.codecHex _ _ _ _)
    | err e => simp [Out.bind]
    | ok d => simp [Out.bind]
  · intro n hn
    unfold stores at hn
    cases h : Base32.decLoop true Base32.tableHex false 0 0 (s.takeWhile fun c => (Base32.value true Base32.tableHex c) != .ok (-1)) with
    | ub => rw [h] at hn; cases hn
    | err e => rw [h] at hn; cases hn
    | ok d =>
      rw [h] at hn
      simp only [Out.bind, Out.ok.injEq] at hn
      have hd : Base32.decode2 true Base32.tableHex (s.takeWhile fun c => (Base32.value true Base32.tableHex c) != .ok (-1)) false = .ok d.out := by
        unfold Base32.decode2
        rw [h]
        simp [Out.bind]
      obtain ⟨_, _, _, _, _, _, hl⟩ := Props.Base32.C42_loose_hex_partial _ _ hd
      have := (List.takeWhile_sublist (l := s) fun c => (Base32.value true Base32.tableHex c) != .ok (-1)).length_le
      omega

theorem stores_ok (s : Bytes) : ∃ n, stores s = .ok n := by
  have key : ∀ (s : Bytes) (mode left : Nat), ∃ d, Base32.decLoop true Base32.tableHex false mode left (s.takeWhile fun c => (Base32.value true Base32.tableHex c) != .ok (-1)) = .ok d := by
    intro s
    induction s with
    | nil => intro mode left; exact ⟨_, rfl⟩
    | cons c s ih =>
      intro mode left
      rw [List.takeWhile_cons]
      split
      · rename_i hc
        rw [Base32.decLoop]
        cases hv : Base32.value true Base32.tableHex c with
        | ub =>
          exfalso
          have := Base32.decLoop_total Base32.codecHex false [c] 0 0
          rw [Base32.decLoop, hv] at this
          exact this rfl
        | err e =>
          exfalso
          unfold Base32.value at hv
          split at hv
          · cases hv
          · split at hv <;> cases hv
        | ok v =>
          rw [hv] at hc
          simp only [Out.bind]
          rw [if_neg (by rintro rfl; simp at hc)]
          obtain ⟨d, hd⟩ := ih (Base32.decStep mode left v.toNat).2.2 (Base32.decStep mode left v.toNat).2.1
          rw [hd]
          exact ⟨_, rfl⟩
      · exact ⟨_, rfl⟩
  obtain ⟨d, hd⟩ := key s 0 0
  unfold stores
  rw [hd]
  exact ⟨_, rfl⟩

/-- If all is decoded, as much is stored. -/
theorem stores_all {s ip : Bytes} (h : Base32.decode2 true Base32.tableHex s false = .ok ip) : stores s = .ok ip.length := by
  have ok : ∀ (s : Bytes) (mode left : Nat) (d : Base32.Dec), Base32.decLoop true Base32.tableHex false mode left s = .ok d →
      (s.takeWhile fun c => (Base32.value true Base32.tableHex c) != .ok (-1)) = s := by
    intro s
    induction s with
    | nil => intros; rfl
    | cons c s ih =>
      intro mode left d h
      rw [Base32.decLoop] at h
      cases hv : Base32.value true Base32.tableHex c with
      | ub => rw [hv] at h; cases h
      | err e => rw [hv] at h; cases h
      | ok v =>
        rw [hv] at h
        simp only [Out.bind, Bool.false_and, Bool.false_eq_true, if_false] at h
        split at h
        · cases h
        · rename_i hne
          cases hr : Base32.decLoop true Base32.tableHex false (Base32.decStep mode left v.toNat).2.2 (Base32.decStep mode left v.toNat).2.1 s with
          | ub => rw [hr] at h; cases h
          | err e => rw [hr] at h; cases h
          | ok d' =>
            rw [List.takeWhile_cons, ih _ _ _ hr, hv]
            simp [hne]
  unfold Base32.decode2 at h
  unfold stores
  cases hd : Base32.decLoop true Base32.tableHex false 0 0 s with
  | ub => rw [hd] at h; cases h
  | err e => rw [hd] at h; cases h
  | ok d =>
    rw [hd] at h
    simp only [Out.bind, Bool.false_and, Bool.false_eq_true, if_false, Out.ok.injEq] at h
    rw [ok s 0 0 d hd, hd]
    simp only [Out.bind, h]

/-- The first label of a name. -/
theorem labelGet_first {l : Bytes} {ls : List Bytes} (h : OkName (l :: ls)) : labelGet (text (l :: ls)) 0 = .ok l := by
  have hi : index (l :: ls).length 0 = 0 := by unfold index; split <;> omega
  rw [labelGet_text h (by rw [hi]; omega), hi]
  rfl

theorem pointer_spec {t ip : Bytes} (h : t.map Spec.Base32.lower = Spec.Base32.text Base32.charsetHex ip false) (hl : ip.length = 4 ∨ ip.length = 16) {ls : List Bytes}
    (hls : OkName ((0x5f :: t) :: ls)) (b : Bool) : pointerToIp b (text ((0x5f :: t) :: ls)) = .ok (some ip) := by
  have hd := decode_lower h
  have hlen : t.length = (8 * ip.length + 4) / 5 := by
    have := congrArg List.length h
    rwa [List.length_map, b32_length] at this
  unfold pointerToIp
  rw [labelGet_first hls]
  simp only [Out.bind]
  rw [if_neg (by simp; omega), List.drop_succ_cons, List.drop_zero, stores_all hd]
  simp only
  rw [if_neg (by omega), hd]
  simp only
  rw [if_neg (by omega), if_pos hl]

end Verif.Resource
