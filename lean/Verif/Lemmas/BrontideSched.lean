import Verif.Lemmas.BrontideNet
/-
Helper lemmas: the schedule of keys and nonces, streams once bad, runs that are defined.
-/
namespace Verif.Brontide
open Verif.Spec.Brontide
variable {σ : Type}

theorem at_key {P : Prim} {l : Line} {i : Nat} {cs : CS} (h : At P l i cs) : cs.key = keyAt P l i ∧ cs.iv = ivAt i := by
  unfold At at h
  exact ⟨by simp [h, keyAt], by simp [h, ivAt]⟩

theorem ivOf_inj {a b : Nat} (ha : a < 2 ^ 32) (hb : b < 2 ^ 32) (h : ivOf a = ivOf b) : a = b := by
  unfold ivOf at h
  have h1 := List.append_inj_left' h rfl
  have h2 := List.append_cancel_left h1
  have h3 := congrArg leNat h2
  rw [leNat_leBytes, leNat_leBytes, Nat.mod_eq_of_lt (by omega), Nat.mod_eq_of_lt (by omega)] at h3
  exact h3

theorem schedule_nodup (P : Prim) (l : Line) (n : Nat)
    (hk : ∀ a b, a < b → b * 1000 < n → (epoch P l a).key ≠ (epoch P l b).key) :
    ((List.range n).map fun i => (keyAt P l i, ivAt i)).Nodup := by
  unfold List.Nodup
  rw [List.pairwise_map]
  refine List.Pairwise.imp_of_mem ?_ (List.pairwise_lt_range (n := n))
  intro a b ha hb hab he
  rw [List.mem_range] at ha hb
  rw [Prod.mk.injEq] at he
  obtain ⟨h1, h2⟩ := he
  by_cases hq : a / 1000 = b / 1000
  · have := ivOf_inj (a := a % 1000) (b := b % 1000) (by omega) (by omega) h2
    omega
  · exact hk (a / 1000) (b / 1000) (by omega) (by omega) h1

theorem opened_prefix {s t : Bytes} {k : Nat} (h : k + 16 ≤ s.length) :
    (s ++ t).take k = s.take k ∧ ((s ++ t).drop k).take 16 = (s.drop k).take 16 := by
  refine ⟨List.take_append_of_le_length (by omega), ?_⟩
  rw [List.drop_append, show k - s.length = 0 by omega, List.drop_zero,
    List.take_append_of_le_length (by rw [List.length_drop]; omega)]

theorem drop_app {s t : Bytes} {k : Nat} (h : k ≤ s.length) : (s ++ t).drop k = s.drop k ++ t := by
  rw [List.drop_append, show k - s.length = 0 by omega, List.drop_zero]

theorem plain_append (P : Prim) (l : Line) (i : Nat) (s t : Bytes) :
    (plain P l i s).1 <+: (plain P l i (s ++ t)).1 ∧
    ((plain P l i s).2 = false → plain P l i (s ++ t) = plain P l i s) := by
  suffices H : ∀ (k : Nat) (s : Bytes) (i : Nat), s.length ≤ k →
      (plain P l i s).1 <+: (plain P l i (s ++ t)).1 ∧
      ((plain P l i s).2 = false → plain P l i (s ++ t) = plain P l i s) from H _ s i (Nat.le_refl _)
  intro k
  induction k with
  | zero =>
    intro s i hk
    unfold plain
    rw [dif_pos (show s.length < 20 by omega)]
    exact ⟨List.nil_prefix, (fun h => by cases h)⟩
  | succ k ih =>
    intro s i hk
    unfold plain
    by_cases h : s.length < 20
    · rw [dif_pos h]; exact ⟨List.nil_prefix, (fun h => by cases h)⟩
    rw [dif_neg h, dif_neg (by rw [List.length_append]; omega)]
    rw [(opened_prefix (t := t) (k := 4) (by omega)).1, (opened_prefix (t := t) (k := 4) (by omega)).2]
    cases opened P l i (s.take 4) ((s.drop 4).take 16) with
    | none => exact ⟨List.prefix_rfl, fun _ => rfl⟩
    | some x =>
      dsimp only
      by_cases hz : leNat x > maxSize
      · rw [if_pos hz, if_pos hz]; exact ⟨List.prefix_rfl, fun _ => rfl⟩
      rw [if_neg hz, if_neg hz]
      rw [drop_app (t := t) (k := 20) (by omega)]
      by_cases h2 : (s.drop 20).length < leNat x + 16
      · rw [if_pos h2]; exact ⟨List.nil_prefix, (fun h => by cases h)⟩
      rw [if_neg h2, if_neg (by rw [List.length_append]; omega)]
      rw [(opened_prefix (t := t) (s := s.drop 20) (k := leNat x) (by omega)).1,
        (opened_prefix (t := t) (s := s.drop 20) (k := leNat x) (by omega)).2]
      cases opened P l (i + 1) ((s.drop 20).take (leNat x)) (((s.drop 20).drop (leNat x)).take 16) with
      | none => exact ⟨List.prefix_rfl, fun _ => rfl⟩
      | some m =>
        dsimp only
        rw [drop_app (t := t) (s := s.drop 20) (k := leNat x + 16) (by omega)]
        have := ih ((s.drop 20).drop (leNat x + 16)) (i + 2) (by simp only [List.length_drop]; omega)
        refine ⟨(List.cons_prefix_cons).2 ⟨rfl, this.1⟩, fun hf => ?_⟩
        rw [this.2 hf]

theorem run_reads {P : Prim} {E : Env σ} : ∀ (a : List Bytes) (m : M σ), run P E (a.map .read) m = feedAll P E a m := by
  intro a
  induction a with
  | nil => intro m; rfl
  | cons d a ih =>
    intro m
    show (step P E m (.read d)).bind _ = (feed P E m d).bind _
    have : step P E m (.read d) = feed P E m d := rfl
    rw [this]
    cases feed P E m d with
    | ok m' => exact ih m'
    | err e => rfl
    | ub => rfl

theorem okI_prefix {P : Prim} {s e : KeyPair} {x y : Bytes} (h : OkI P s e (x ++ y)) : OkI P s e x := by
  intro h1
  obtain ⟨re, k1, k2⟩ := h (by rw [List.length_append]; omega)
  rw [List.take_append_of_le_length (by omega)] at k1
  exact ⟨re, k1, k2⟩

theorem runI_def {P : Prim} {E : Env σ} {s e : KeyPair} {n : Noise × Bytes} (hs : P.pubOf s.priv = some s.pub) :
    ∀ (os : List (Op σ)) {x : Bytes} {m : M σ}, InvI P s e n x m → OkI P s e (x ++ arrived os) → ∃ m', run P E os m = .ok m' := by
  intro os
  induction os with
  | nil => intro x m _ _; exact ⟨m, rfl⟩
  | cons o os ih =>
    intro x m h hd
    rw [arrived_cons, ← List.append_assoc] at hd
    obtain ⟨m1, h1⟩ := stepI_def (E := E) hs h (okI_prefix hd)
    obtain ⟨m', h2⟩ := ih (step_invI hs h h1) hd
    refine ⟨m', ?_⟩
    unfold run
    rw [h1]
    exact h2

theorem loop_two_undef {P : Prim} {E : Env σ} {m : M σ} {s e : KeyPair} {n : Noise} {d : Bytes}
    (hw : Waits2 m.b s e n []) (hd : 80 ≤ d.length) (hF : P.fromHash (d.take 64) = none) :
    readLoop P E (d.length + 1) m [] d = .ub := by
  unfold readLoop
  rw [hw.need, if_pos (by simpa using hd), if_neg (by simp)]
  dsimp only
  rw [two_undef (s := s) (e := e) (n := n)]
  · rfl
  · exact ⟨hw.state, hw.init, sym_edit hw.sym rfl rfl rfl, hw.eph, hw.stat, hw.send, hw.recv, hw.size, hw.need⟩
  · simp only [List.nil_append, List.length_nil, Nat.sub_zero, List.take_take]
    exact hF

end Verif.Brontide
