import Verif.Lemmas.DnsTrunc
import Verif.Props.DnsName
/-
Reading of any packet: nothing is read outside it, and what the questions can hold.
-/
namespace Verif.Dns
open Verif.Bio Verif.DnsName Verif.Spec.DnsName Verif.Spec.Dns

theorem readTxts_ne_ub : ∀ (fuel : Nat) (s : Bytes) (acc : List Bytes), s.length ≤ fuel → readTxts fuel s acc ≠ .ub := by
  intro fuel
  induction fuel with
  | zero =>
    intro s acc h
    rw [readTxts, if_neg (by omega)]
    simp
  | succ n ih =>
    intro s acc h
    rw [readTxts]
    split
    · refine Out.bind_ne_ub (by simp) fun a ha => ?_
      refine Out.bind_ne_ub (by simp) fun b hb => ?_
      refine ih _ _ ?_
      have h1 := (readU8_eq_ok (v := a.1) (r := a.2)).1 ha
      have h2 := (readBytes_eq_ok (b := b.1) (r := b.2)).1 hb
      have e1 := congrArg List.length h1.1
      have e2 := congrArg List.length h2.1
      simp only [List.length_append, leBytes, List.length_cons, List.length_nil] at e1 e2
      omega
    · simp

theorem readField_ne_ub (msg : Option Bytes) (f : Field) (s : Bytes) : readField msg f s ≠ .ub := by
  cases f <;> simp only [readField]
  case txts => exact Out.bind_ne_ub (readTxts_ne_ub _ _ _ (Nat.le_refl _)) fun _ _ => by simp
  case name => exact Out.bind_ne_ub (parse_ne_ub _ _) fun _ _ => by simp
  case data8 => exact Out.bind_ne_ub (by simp) fun _ _ => Out.bind_ne_ub (by simp) fun _ _ => by simp
  all_goals exact Out.bind_ne_ub (by simp) fun _ _ => by simp

theorem readFields_ne_ub (msg : Option Bytes) (fs : List Field) (s : Bytes) : readFields msg fs s ≠ .ub := by
  induction fs generalizing s with
  | nil => simp [readFields]
  | cons f fs ih =>
    rw [readFields]
    exact Out.bind_ne_ub (readField_ne_ub _ _ _) fun _ _ => Out.bind_ne_ub (ih _) fun _ _ => by simp

theorem readQs_ne_ub (msg : Option Bytes) (s : Bytes) : readQs msg s ≠ .ub := by
  unfold readQs
  exact Out.bind_ne_ub (parse_ne_ub _ _) fun _ _ => Out.bind_ne_ub (by simp) fun _ _ => Out.bind_ne_ub (by simp) fun _ _ => by simp

theorem readRr_ne_ub (msg : Option Bytes) (s : Bytes) : readRr msg s ≠ .ub := by
  unfold readRr
  refine Out.bind_ne_ub (parse_ne_ub _ _) fun _ _ => Out.bind_ne_ub (by simp) fun _ _ => Out.bind_ne_ub (by simp) fun _ _ =>
    Out.bind_ne_ub (by simp) fun _ _ => Out.bind_ne_ub (by simp) fun k _ => ?_
  split
  · simp
  · rw [memSlice_ok (by omega)]
    exact Out.bind_ne_ub (by simp) fun _ _ => Out.bind_ne_ub (readFields_ne_ub _ _ _) fun _ _ => by simp

theorem readSection_ne_ub {α : Type} {one : Bytes → Rd α} (h : ∀ s, one s ≠ .ub) : ∀ (n : Nat) (s : Bytes) (acc : List α), readSection one n s acc ≠ .ub := by
  intro n
  induction n with
  | zero => intro s acc; simp [readSection]
  | succ n ih =>
    intro s acc
    rw [readSection]
    split
    · simp
    · exact Out.bind_ne_ub (h _) fun _ _ => ih _ _

theorem readExtra_ne_ub {one : Bytes → Rd Rr} (h : ∀ s, one s ≠ .ub) : ∀ (n : Nat) (s : Bytes) (e : Extra), readExtra one n s e ≠ .ub := by
  intro n
  induction n with
  | zero => intro s acc; simp [readExtra]
  | succ n ih =>
    intro s acc
    rw [readExtra]
    split
    · simp
    · exact Out.bind_ne_ub (h _) fun _ _ => ih _ _

theorem decode_ne_ub (b : Bytes) : decode b ≠ .ub := by
  unfold decode
  exact Out.bind_ne_ub (by simp) fun _ _ => Out.bind_ne_ub (by simp) fun _ _ => Out.bind_ne_ub (by simp) fun _ _ =>
    Out.bind_ne_ub (by simp) fun _ _ => Out.bind_ne_ub (by simp) fun _ _ => Out.bind_ne_ub (by simp) fun _ _ =>
    Out.bind_ne_ub (readSection_ne_ub (readQs_ne_ub _) _ _ _) fun _ _ => Out.bind_ne_ub (readSection_ne_ub (readRr_ne_ub _) _ _ _) fun _ _ =>
    Out.bind_ne_ub (readSection_ne_ub (readRr_ne_ub _) _ _ _) fun _ _ => Out.bind_ne_ub (readExtra_ne_ub (readRr_ne_ub _) _ _ _) fun _ _ => by simp

theorem decodeRr_ne_ub (b : Bytes) : decodeRr b ≠ .ub := by
  unfold decodeRr
  exact Out.bind_ne_ub (readRr_ne_ub _ _) fun _ _ => by simp

/-! ### What is read -/

theorem readTxts_ok : ∀ (fuel : Nat) (s : Bytes) (acc : List Bytes) (r : List Bytes × Bytes), readTxts fuel s acc = .ok r →
    acc.length ≤ 255 → (∀ b ∈ acc, b.length ≤ 255) → r.1.length ≤ 255 ∧ ∀ b ∈ r.1, b.length ≤ 255 := by
  intro fuel
  induction fuel with
  | zero =>
    intro s acc r h h1 h2
    rw [readTxts] at h
    split at h
    · cases h
    · rw [← Out.ok.inj h]; exact ⟨h1, h2⟩
  | succ n ih =>
    intro s acc r h h1 h2
    rw [readTxts] at h
    split at h
    · obtain ⟨a, ha, h⟩ := Out.bind_eq_ok.1 h
      obtain ⟨b, hb, h⟩ := Out.bind_eq_ok.1 h
      have e1 := (readU8_eq_ok (v := a.1) (r := a.2)).1 ha
      have e2 := (readBytes_eq_ok (b := b.1) (r := b.2)).1 hb
      refine ih _ _ _ h ?_ ?_
      · split
        · exact h1
        · simp; omega
      · split
        · exact h2
        · intro x hx
          rcases List.mem_append.1 hx with hx | hx
          · exact h2 x hx
          · rw [List.mem_singleton.1 hx]; omega
    · rw [← Out.ok.inj h]; exact ⟨h1, h2⟩

theorem readU32be_lt {s : Bytes} {r : Nat × Bytes} (h : readU32be s = .ok r) : r.1 < 4294967296 := by
  have := readU32be_eq_ok.1 h
  omega

theorem readU16be_lt {s : Bytes} {r : Nat × Bytes} (h : readU16be s = .ok r) : r.1 < 65536 := (u16_drop h).2.2.2

theorem readField_ok {msg : Option Bytes} {f : Field} {s : Bytes} {r : Val × Bytes} (h : readField msg f s = .ok r) : ReadVal f r.1 := by
  cases f <;> simp only [readField] at h
  case u8 =>
    obtain ⟨a, ha, h⟩ := Out.bind_eq_ok.1 h
    rw [← Out.ok.inj h]
    exact ((readU8_eq_ok (v := a.1) (r := a.2)).1 ha).2
  case u16 =>
    obtain ⟨a, ha, h⟩ := Out.bind_eq_ok.1 h
    rw [← Out.ok.inj h]
    exact readU16be_lt ha
  case u32 =>
    obtain ⟨a, ha, h⟩ := Out.bind_eq_ok.1 h
    rw [← Out.ok.inj h]
    exact readU32be_lt ha
  case name =>
    obtain ⟨a, ha, h⟩ := Out.bind_eq_ok.1 h
    rw [← Out.ok.inj h]
    exact (Verif.Props.DnsName.C21_result _ _ _ _ ha).1
  case fixed =>
    obtain ⟨a, ha, h⟩ := Out.bind_eq_ok.1 h
    rw [← Out.ok.inj h]
    exact ((readBytes_eq_ok (b := a.1) (r := a.2)).1 ha).2
  case rest =>
    obtain ⟨a, ha, h⟩ := Out.bind_eq_ok.1 h
    rw [← Out.ok.inj h]
    trivial
  case txts =>
    obtain ⟨a, ha, h⟩ := Out.bind_eq_ok.1 h
    rw [← Out.ok.inj h]
    exact readTxts_ok _ _ _ _ ha (by simp) (by simp)
  case data8 =>
    obtain ⟨a, ha, h⟩ := Out.bind_eq_ok.1 h
    obtain ⟨b, hb, h⟩ := Out.bind_eq_ok.1 h
    rw [← Out.ok.inj h]
    have e1 := (readU8_eq_ok (v := a.1) (r := a.2)).1 ha
    have e2 := (readBytes_eq_ok (b := b.1) (r := b.2)).1 hb
    show b.1.length ≤ 255
    omega

theorem readFields_ok {msg : Option Bytes} {fs : List Field} {s : Bytes} {r : List Val × Bytes} (h : readFields msg fs s = .ok r) : ReadVals fs r.1 := by
  induction fs generalizing s r with
  | nil => rw [readFields] at h; rw [← Out.ok.inj h]; trivial
  | cons f fs ih =>
    rw [readFields] at h
    obtain ⟨a, ha, h⟩ := Out.bind_eq_ok.1 h
    obtain ⟨b, hb, h⟩ := Out.bind_eq_ok.1 h
    rw [← Out.ok.inj h]
    exact ⟨readField_ok ha, ih hb⟩

theorem readQs_ok {msg : Option Bytes} {s : Bytes} {r : Qs × Bytes} (h : readQs msg s = .ok r) : FirstQs r.1 := by
  unfold readQs at h
  obtain ⟨a, ha, h⟩ := Out.bind_eq_ok.1 h
  obtain ⟨b, hb, h⟩ := Out.bind_eq_ok.1 h
  obtain ⟨c, hc, h⟩ := Out.bind_eq_ok.1 h
  rw [← Out.ok.inj h]
  exact ⟨(Verif.Props.DnsName.C21_result _ _ _ _ ha).1, readU16be_lt hb, readU16be_lt hc⟩

theorem readRr_ok {msg : Option Bytes} {s : Bytes} {r : Rr × Bytes} (h : readRr msg s = .ok r) : ReadRr r.1 := by
  unfold readRr at h
  obtain ⟨a, ha, h⟩ := Out.bind_eq_ok.1 h
  obtain ⟨b, hb, h⟩ := Out.bind_eq_ok.1 h
  obtain ⟨c, hc, h⟩ := Out.bind_eq_ok.1 h
  obtain ⟨d, hd, h⟩ := Out.bind_eq_ok.1 h
  obtain ⟨e, he, h⟩ := Out.bind_eq_ok.1 h
  split at h
  · cases h
  · obtain ⟨w, hw, h⟩ := Out.bind_eq_ok.1 h
    obtain ⟨v, hv, h⟩ := Out.bind_eq_ok.1 h
    rw [← Out.ok.inj h]
    exact ⟨(Verif.Props.DnsName.C21_result _ _ _ _ ha).1, readU16be_lt hb, readU16be_lt hc, readU32be_lt hd, _, rfl, readFields_ok hv⟩

theorem readSection_ok {α : Type} {one : Bytes → Rd α} {P : α → Prop} (hP : ∀ s r, one s = .ok r → P r.1) : ∀ (n : Nat) (s : Bytes) (acc : List α) (r : List α × Bytes),
    readSection one n s acc = .ok r → acc.length ≤ 255 → (∀ x ∈ acc, P x) → r.1.length ≤ 255 ∧ ∀ x ∈ r.1, P x := by
  intro n
  induction n with
  | zero => intro s acc r h h1 h2; rw [readSection] at h; rw [← Out.ok.inj h]; exact ⟨h1, h2⟩
  | succ n ih =>
    intro s acc r h h1 h2
    rw [readSection] at h
    split at h
    · rw [← Out.ok.inj h]; exact ⟨h1, h2⟩
    · obtain ⟨a, ha, h⟩ := Out.bind_eq_ok.1 h
      refine ih _ _ _ h ?_ ?_
      · unfold push; split
        · exact h1
        · simp; omega
      · unfold push; split
        · exact h2
        · intro x hx
          rcases List.mem_append.1 hx with hx | hx
          · exact h2 x hx
          · rw [List.mem_singleton.1 hx]; exact hP _ _ ha

theorem readExtra_ok {msg : Option Bytes} : ∀ (n : Nat) (s : Bytes) (e : Extra) (r : Extra × Bytes),
    readExtra (readRr msg) n s e = .ok r → e.ar.length ≤ 255 → (∀ x ∈ e.ar, ReadRr x ∧ x.type ≠ 41) → ReadEdns e.edns →
      r.1.ar.length ≤ 255 ∧ (∀ x ∈ r.1.ar, ReadRr x ∧ x.type ≠ 41) ∧ ReadEdns r.1.edns := by
  intro n
  induction n with
  | zero => intro s acc r h h1 h2 h3; rw [readExtra] at h; rw [← Out.ok.inj h]; exact ⟨h1, h2, h3⟩
  | succ n ih =>
    intro s acc r h h1 h2 h3
    rw [readExtra] at h
    split at h
    · rw [← Out.ok.inj h]; exact ⟨h1, h2, h3⟩
    · obtain ⟨a, ha, h⟩ := Out.bind_eq_ok.1 h
      have hr := readRr_ok ha
      unfold addExtra at h
      split at h
      · refine ih _ _ _ h h1 h2 (.inr ⟨rfl, ?_, ?_, hr.cls, ?_⟩) <;> dsimp only <;> omega
      · rename_i ht
        refine ih _ _ _ h ?_ ?_ h3
        · dsimp only; unfold push; split
          · exact h1
          · simp; omega
        · dsimp only; unfold push; split
          · exact h2
          · intro x hx
            rcases List.mem_append.1 hx with hx | hx
            · exact h2 x hx
            · rw [List.mem_singleton.1 hx]; exact ⟨hr, ht⟩

theorem decode_ok {b : Bytes} {m : Msg} (h : decode b = .ok m) : ReadMsg m := by
  unfold decode at h
  obtain ⟨a, ha, h⟩ := Out.bind_eq_ok.1 h
  obtain ⟨f, hf, h⟩ := Out.bind_eq_ok.1 h
  obtain ⟨c1, -, h⟩ := Out.bind_eq_ok.1 h
  obtain ⟨c2, -, h⟩ := Out.bind_eq_ok.1 h
  obtain ⟨c3, -, h⟩ := Out.bind_eq_ok.1 h
  obtain ⟨c4, -, h⟩ := Out.bind_eq_ok.1 h
  obtain ⟨s1, h1, h⟩ := Out.bind_eq_ok.1 h
  obtain ⟨s2, h2, h⟩ := Out.bind_eq_ok.1 h
  obtain ⟨s3, h3, h⟩ := Out.bind_eq_ok.1 h
  obtain ⟨s4, h4, h⟩ := Out.bind_eq_ok.1 h
  rw [← Out.ok.inj h]
  have e4 := readExtra_ok _ _ _ _ h4 (by simp) (by simp) (.inl rfl)
  exact ⟨readU16be_lt ha, readU16be_lt hf, rfl, readSection_ok (P := FirstQs) (fun _ _ => readQs_ok) _ _ _ _ h1 (by simp) (by simp),
    readSection_ok (P := ReadRr) (fun _ _ => readRr_ok) _ _ _ _ h2 (by simp) (by simp),
    readSection_ok (P := ReadRr) (fun _ _ => readRr_ok) _ _ _ _ h3 (by simp) (by simp), ⟨e4.1, e4.2.1⟩, e4.2.2⟩

end Verif.Dns
