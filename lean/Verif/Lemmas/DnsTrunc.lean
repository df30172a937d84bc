import Verif.Lemmas.DnsRoom
import Verif.Props.DnsName
/-
Truncation.
-/
namespace Verif.Dns
open Verif.Bio Verif.DnsName Verif.Spec.DnsName Verif.Spec.Dns

/-- Skipping in a row. -/
inductive Skips (msg : Bytes) : List Bool → Bytes → Bytes → Prop
  | nil {s : Bytes} : Skips msg [] s s
  | cons {q : Bool} {l : List Bool} {s s1 s2 : Bytes} (h : skip msg q s = .ok s1) (hr : Skips msg l s1 s2) : Skips msg (q :: l) s s2

theorem Skips.append {msg : Bytes} {a b : List Bool} {s s1 s2 : Bytes} (h : Skips msg a s s1) (h' : Skips msg b s1 s2) : Skips msg (a ++ b) s s2 := by
  induction h with
  | nil => exact h'
  | cons h _ ih => exact .cons h (ih h')

theorem Skips.split {msg : Bytes} {a b : List Bool} {s s2 : Bytes} (h : Skips msg (a ++ b) s s2) : ∃ s1, Skips msg a s s1 ∧ Skips msg b s1 s2 := by
  induction a generalizing s with
  | nil => exact ⟨s, .nil, h⟩
  | cons i a ih =>
    cases h with
    | cons h hr =>
      obtain ⟨s1, h1, h2⟩ := ih hr
      exact ⟨s1, .cons h h1, h2⟩

theorem Skips.unique {msg : Bytes} {a : List Bool} {s s1 s2 : Bytes} (h : Skips msg a s s1) (h' : Skips msg a s s2) : s1 = s2 := by
  induction h with
  | nil => cases h'; rfl
  | cons h _ ih =>
    cases h' with
    | cons g gr => rw [h] at g; cases g; exact ih gr

theorem skip_ne_ub (msg : Bytes) (q : Bool) (s : Bytes) : skip msg q s ≠ .ub := by
  unfold skip
  cases hp : parse (some msg) s with
  | ub => exact absurd hp (parse_ne_ub _ _)
  | err e => simp [Out.bind]
  | ok n =>
    simp only [Out.bind]
    split
    · split <;> simp
    · split
      · simp
      · cases hr : readU16be (n.2.drop 8) with
        | ub => exact absurd hr (readU16be_ne_ub _)
        | err e => simp
        | ok k => dsimp only; split <;> simp

theorem u16_drop {s : Bytes} {r : Nat × Bytes} (h : readU16be s = .ok r) : r.2 = s.drop 2 ∧ 2 ≤ s.length ∧ s = writeU16be r.1 ++ r.2 ∧ r.1 < 65536 := by
  obtain ⟨v, r⟩ := r
  obtain ⟨rfl, hv⟩ := readU16be_eq_ok.1 h
  refine ⟨?_, by rw [List.length_append, beBytes_length]; omega, rfl, hv⟩
  rw [List.drop_left' (beBytes_length 2 v)]

theorem u32_drop {s : Bytes} {r : Nat × Bytes} (h : readU32be s = .ok r) : r.2 = s.drop 4 ∧ 4 ≤ s.length := by
  obtain ⟨v, r⟩ := r
  obtain ⟨rfl, hv⟩ := readU32be_eq_ok.1 h
  refine ⟨?_, by rw [List.length_append, beBytes_length]; omega⟩
  rw [List.drop_left' (beBytes_length 4 v)]

/-- What is read as a question or record is skipped as one. -/
theorem skip_item {msg : Bytes} {i : Item} {s s' : Bytes} (h : readItem (some msg) i s s') : skip msg i.isLeft s = .ok s' := by
  cases i with
  | inl q =>
    simp only [readItem, readQs] at h
    obtain ⟨n, hn, h⟩ := Out.bind_eq_ok.1 h
    obtain ⟨t, ht, h⟩ := Out.bind_eq_ok.1 h
    obtain ⟨c, hc, h⟩ := Out.bind_eq_ok.1 h
    cases h
    obtain ⟨t1, t2, -⟩ := u16_drop ht
    obtain ⟨c1, c2, -⟩ := u16_drop hc
    rw [t1] at c1 c2
    rw [List.length_drop] at c2
    simp only [skip, hn, Out.bind, Sum.isLeft_inl, if_true]
    rw [if_neg (by omega), c1, List.drop_drop]
  | inr r =>
    simp only [readItem, readRr] at h
    obtain ⟨n, hn, h⟩ := Out.bind_eq_ok.1 h
    obtain ⟨t, ht, h⟩ := Out.bind_eq_ok.1 h
    obtain ⟨c, hc, h⟩ := Out.bind_eq_ok.1 h
    obtain ⟨l, hl, h⟩ := Out.bind_eq_ok.1 h
    obtain ⟨k, hk, h⟩ := Out.bind_eq_ok.1 h
    obtain ⟨t1, t2, -⟩ := u16_drop ht
    obtain ⟨c1, c2, -⟩ := u16_drop hc
    obtain ⟨l1, l2⟩ := u32_drop hl
    rw [t1] at c1 c2
    rw [c1, List.drop_drop] at l1 l2
    rw [List.length_drop] at c2 l2
    rw [List.drop_drop] at l1
    by_cases hlt : k.2.length < k.1
    · rw [if_pos hlt] at h; cases h
    rw [if_neg hlt] at h
    obtain ⟨w, hw, h⟩ := Out.bind_eq_ok.1 h
    obtain ⟨v, hv, h⟩ := Out.bind_eq_ok.1 h
    cases h
    simp only [skip, hn, Out.bind, Sum.isLeft_inr, Bool.false_eq_true, if_false]
    rw [if_neg (by omega)]
    rw [l1] at hk
    simp only [show 2 + 2 + 4 = 8 from rfl] at hk
    rw [hk]
    dsimp only
    rw [if_neg hlt]

theorem Reads.skips {msg : Bytes} {l : List Item} {s s' : Bytes} (h : Reads (some msg) l s s') : Skips msg (l.map Sum.isLeft) s s' := by
  induction h with
  | nil => exact .nil
  | cons h _ ih => exact .cons (skip_item h) ih

/-! ### Skipping and what stands where -/

theorem parse_drop {msg : Bytes} {o : Nat} {name rest : Bytes} :
    parse (some msg) (msg.drop o) = .ok (name, rest) ↔
      ∃ ls e d, Expands false msg o ls e d ∧ d ≤ 10 ∧ OkName ls ∧ name = text ls ∧ rest = msg.drop e := by
  have ht : (msg.drop o).take msg.length = msg.drop o := List.take_of_length_le (by simp)
  have := Props.DnsName.C21_meaning msg o msg.length name rest
  rw [ht] at this
  rw [this]
  constructor
  · rintro ⟨ls, e, d, h, hd, he, hl, rfl, rfl⟩
    have := h.le
    exact ⟨ls, e, d, h, hd, hl, rfl, by rw [List.drop_drop]; congr 1; omega⟩
  · rintro ⟨ls, e, d, h, hd, hl, rfl, rfl⟩
    have := h.le
    exact ⟨ls, e, d, h, hd, by omega, hl, rfl, by rw [List.drop_drop]; congr 1; omega⟩

theorem u16_cons (a b : UInt8) (r : Bytes) : readU16be (a :: b :: r) = .ok (a.toNat * 256 + b.toNat, r) := by
  unfold readU16be
  rw [if_neg (by simp), memSlice_ok (by simp)]
  simp [beNat, leNat]
  omega

theorem u16_at {msg : Bytes} {o : Nat} {r : Nat × Bytes} :
    readU16be (msg.drop o) = .ok r ↔ ∃ a b, msg[o]? = some a ∧ msg[o + 1]? = some b ∧ r = (a.toNat * 256 + b.toNat, msg.drop (o + 2)) := by
  constructor
  · intro h
    obtain ⟨h1, h2, h3, h4⟩ := u16_drop h
    rw [List.length_drop] at h2
    refine ⟨msg[o], msg[o + 1], List.getElem?_eq_getElem (by omega), List.getElem?_eq_getElem (by omega), ?_⟩
    rw [List.drop_drop] at h1
    have e : msg.drop o = msg[o] :: msg[o + 1] :: msg.drop (o + 2) := by
      rw [List.drop_eq_getElem_cons (by omega), List.drop_eq_getElem_cons (by omega)]
    rw [e] at h
    rw [u16_cons] at h
    exact (Out.ok.inj h).symm
  · rintro ⟨a, b, ha, hb, rfl⟩
    have h1 := lt_of_getElem? ha
    have h2 := lt_of_getElem? hb
    have e : msg.drop o = a :: b :: msg.drop (o + 2) := by
      rw [List.drop_eq_getElem_cons h1, List.drop_eq_getElem_cons h2]
      rw [List.getElem?_eq_getElem h1] at ha
      rw [List.getElem?_eq_getElem h2] at hb
      rw [Option.some.inj ha, Option.some.inj hb]
    rw [e, u16_cons]

theorem skip_stands {msg : Bytes} {q : Bool} {o : Nat} {s' : Bytes} :
    skip msg q (msg.drop o) = .ok s' ↔ ∃ e, Stands msg q o e ∧ s' = msg.drop e := by
  constructor
  · intro h
    obtain ⟨⟨name, rest⟩, hn, h⟩ := Out.bind_eq_ok.1 h
    obtain ⟨ls, e, d, h1, h2, h3, -, rfl⟩ := parse_drop.1 hn
    dsimp only at h
    cases q with
    | true =>
      rw [if_pos rfl] at h
      by_cases hl : (msg.drop e).length < 4
      · rw [if_pos hl] at h; cases h
      · rw [if_neg hl] at h
        cases h
        rw [List.length_drop] at hl
        exact ⟨e + 4, .question h1 h2 h3 (by omega), by rw [List.drop_drop]⟩
    | false =>
      rw [if_neg (by simp)] at h
      by_cases hl : (msg.drop e).length < 8
      · rw [if_pos hl] at h; cases h
      · rw [if_neg hl, List.drop_drop] at h
        rw [List.length_drop] at hl
        obtain ⟨k, hk, h⟩ := Out.bind_eq_ok.1 h
        obtain ⟨a, b, ha, hb, rfl⟩ := u16_at.1 hk
        dsimp only at h
        by_cases hl2 : (msg.drop (e + 8 + 2)).length < a.toNat * 256 + b.toNat
        · rw [if_pos hl2] at h; cases h
        · rw [if_neg hl2, List.drop_drop] at h
          cases h
          rw [List.length_drop] at hl2
          have := lt_of_getElem? hb
          exact ⟨_, .record h1 h2 h3 ha hb (by omega), rfl⟩
  · rintro ⟨e, h, rfl⟩
    cases h with
    | question h1 h2 h3 h4 =>
      rename_i e d ls
      simp only [skip]
      rw [parse_drop.2 ⟨_, _, _, h1, h2, h3, rfl, rfl⟩]
      simp only [Out.bind, if_true]
      rw [if_neg (by simp; omega), List.drop_drop]
    | record h1 h2 h3 ha hb he =>
      rename_i e d ls a b
      simp only [skip]
      rw [parse_drop.2 ⟨_, _, _, h1, h2, h3, rfl, rfl⟩]
      simp only [Out.bind, Bool.false_eq_true, if_false]
      rw [if_neg (by simp; omega), List.drop_drop, u16_at.2 ⟨a, b, ha, hb, rfl⟩]
      dsimp only
      rw [if_neg (by simp; omega), List.drop_drop]

theorem _root_.Verif.Spec.Dns.Stands.le {msg : Bytes} {q : Bool} {o e : Nat} (h : Stands msg q o e) : o < e ∧ e ≤ msg.length := by
  cases h with
  | question h1 _ _ h4 => have := h1.le; omega
  | record h1 _ _ _ _ h4 => have := h1.le; omega

theorem Skips.row {msg : Bytes} {l : List Bool} {o : Nat} (ho : o ≤ msg.length) {s' : Bytes} (h : Skips msg l (msg.drop o) s') :
    ∃ e, Row msg l o e ∧ e ≤ msg.length ∧ s' = msg.drop e := by
  generalize hs : msg.drop o = s at h
  induction h generalizing o with
  | nil => exact ⟨o, .nil, ho, hs.symm⟩
  | cons h _ ih =>
    subst hs
    obtain ⟨e, h1, rfl⟩ := skip_stands.1 h
    obtain ⟨f, h2, h3, h4⟩ := ih h1.le.2 rfl
    exact ⟨f, .cons h1 h2, h3, h4⟩

/-! ### The loops -/

theorem truncSection_spec {msg : Bytes} {max : Nat} {q : Bool} : ∀ {n i : Nat} {s : Bytes} {r : Nat × Bytes × Bytes},
    msg.length - s.length ≤ max → truncSection msg max q n i s = .ok r →
    ∃ k, k ≤ n ∧ r.1 = i + k ∧ Skips msg (List.replicate k q) s r.2.1 ∧ msg.length - r.2.1.length ≤ max ∧
      ((k = n ∧ r.2.2 = r.2.1) ∨ (k < n ∧ skip msg q r.2.1 = .ok r.2.2 ∧ max < msg.length - r.2.2.length))
  | 0, i, s, r, hs, h => by
    cases h
    exact ⟨0, Nat.le_refl _, rfl, .nil, hs, .inl ⟨rfl, rfl⟩⟩
  | n + 1, i, s, r, hs, h => by
    rw [truncSection] at h
    obtain ⟨s', h1, h⟩ := Out.bind_eq_ok.1 h
    by_cases hc : msg.length - s'.length > max
    · rw [if_pos hc] at h
      cases h
      exact ⟨0, by omega, rfl, .nil, hs, .inr ⟨by omega, h1, hc⟩⟩
    · rw [if_neg hc] at h
      obtain ⟨k, k1, k2, k3, k4, k5⟩ := truncSection_spec (by omega) h
      refine ⟨k + 1, by omega, by omega, ?_, k4, ?_⟩
      · rw [List.replicate_succ]; exact .cons h1 k3
      · rcases k5 with ⟨k5, k6⟩ | ⟨k5, k6⟩
        · exact .inl ⟨by omega, k6⟩
        · exact .inr ⟨by omega, k6⟩

theorem truncSection_ok {msg : Bytes} {max : Nat} {q : Bool} : ∀ {n i : Nat} {s s' : Bytes}, Skips msg (List.replicate n q) s s' →
    ∃ r, truncSection msg max q n i s = .ok r
  | 0, i, s, s', h => ⟨_, rfl⟩
  | n + 1, i, s, s', h => by
    rw [List.replicate_succ] at h
    cases h with
    | cons h1 hr =>
      rw [truncSection, h1]
      simp only [Out.bind]
      split
      · exact ⟨_, rfl⟩
      · exact truncSection_ok hr

theorem truncSection_ne_ub (msg : Bytes) (max : Nat) (q : Bool) : ∀ (n i : Nat) (s : Bytes), truncSection msg max q n i s ≠ .ub
  | 0, i, s => by simp [truncSection]
  | n + 1, i, s => by
    rw [truncSection]
    cases h : skip msg q s with
    | ub => exact absurd h (skip_ne_ub _ _ _)
    | err e => simp [Out.bind]
    | ok a =>
      simp only [Out.bind]
      split
      · simp
      · exact truncSection_ne_ub msg max q n _ _

theorem truncStep_ne_ub (msg : Bytes) (max : Nat) (q : Bool) (n : Nat) (l s : Bytes) : truncStep msg max q n l s ≠ .ub := by
  unfold truncStep
  split
  · simp
  · exact truncSection_ne_ub _ _ _ _ _ _

/-- Where the next section starts: after `last`, unless something had to be left out. -/
def At (msg : Bytes) (max : Nat) (q : Bool) (last data : Bytes) : Prop :=
  msg.length - last.length ≤ max ∧ (data = last ∨ (skip msg q last = .ok data ∧ max < msg.length - data.length))

/-- One section. -/
theorem truncStep_spec {msg : Bytes} {max : Nat} {p q : Bool} {n : Nat} {last s : Bytes} {r : Nat × Bytes × Bytes} (ha : At msg max p last s)
    (h : truncStep msg max q n last s = .ok r) :
    (s ≠ last ∧ r = (0, last, s)) ∨
    (s = last ∧ r.1 ≤ n ∧ Skips msg (List.replicate r.1 q) s r.2.1 ∧ At msg max q r.2.1 r.2.2 ∧ (r.1 = n ∧ r.2.2 = r.2.1 ∨ r.1 < n ∧ r.2.2 ≠ r.2.1)) := by
  obtain ⟨h1, h2⟩ := ha
  unfold truncStep at h
  rcases h2 with h2 | ⟨h2, h3⟩
  · subst h2
    rw [if_neg (by omega)] at h
    obtain ⟨k, k1, k2, k3, k4, k5⟩ := truncSection_spec h1 h
    rw [Nat.zero_add] at k2
    refine .inr ⟨rfl, by omega, by rw [k2]; exact k3, ⟨k4, ?_⟩, ?_⟩
    · rcases k5 with k5 | k5
      · exact .inl k5.2
      · exact .inr k5.2
    · rcases k5 with k5 | k5
      · exact .inl ⟨by omega, k5.2⟩
      · refine .inr ⟨by omega, fun e => ?_⟩
        have := k5.2.2
        rw [e] at this
        omega
  · rw [if_pos h3] at h
    refine .inl ⟨fun e => ?_, (Out.ok.inj h).symm⟩
    rw [e] at h3
    omega

/-- Which sections are whole: nothing follows one that was cut. -/
def Cut (n c : Nat × Nat × Nat × Nat) : Prop :=
  c.1 ≤ n.1 ∧ c.2.1 ≤ n.2.1 ∧ c.2.2.1 ≤ n.2.2.1 ∧ c.2.2.2 ≤ n.2.2.2 ∧
  (c.1 < n.1 → c.2.1 = 0 ∧ c.2.2.1 = 0 ∧ c.2.2.2 = 0) ∧ (c.2.1 < n.2.1 → c.2.2.1 = 0 ∧ c.2.2.2 = 0) ∧ (c.2.2.1 < n.2.2.1 → c.2.2.2 = 0)

theorem steps_spec {msg : Bytes} {max : Nat} {n0 n1 n2 n3 : Nat} {s : Bytes} (hs : msg.length - s.length ≤ max) {a b c d : Nat × Bytes × Bytes}
    (ha : truncStep msg max true n0 s s = .ok a) (hb : truncStep msg max false n1 a.2.1 a.2.2 = .ok b)
    (hc : truncStep msg max false n2 b.2.1 b.2.2 = .ok c) (hd : truncStep msg max false n3 c.2.1 c.2.2 = .ok d) :
    Cut (n0, n1, n2, n3) (a.1, b.1, c.1, d.1) ∧
    Skips msg (List.replicate a.1 true ++ (List.replicate b.1 false ++ (List.replicate c.1 false ++ List.replicate d.1 false))) s d.2.1 ∧
    msg.length - d.2.1.length ≤ max ∧
    ((a.1 = n0 ∧ b.1 = n1 ∧ c.1 = n2 ∧ d.1 = n3) ∨
      ∃ data, skip msg (decide (a.1 < n0)) d.2.1 = .ok data ∧ max < msg.length - data.length) := by
  rcases truncStep_spec (p := true) ⟨hs, .inl rfl⟩ ha with ⟨h, -⟩ | ⟨-, a1, a2, a3, a4⟩
  · exact absurd rfl h
  rcases truncStep_spec a3 hb with ⟨b1, rfl⟩ | ⟨b0, b1, b2, b3, b4⟩
  · rcases truncStep_spec a3 hc with ⟨c1, rfl⟩ | ⟨c0, -⟩
    · rcases truncStep_spec a3 hd with ⟨d1, rfl⟩ | ⟨d0, -⟩
      · have hlt : a.1 < n0 := by rcases a4 with a4 | a4; · exact absurd a4.2 b1
                                  · exact a4.1
        refine ⟨⟨a1, ?_⟩, ?_, a3.1, ?_⟩
        · simp
        · simpa using a2
        · rcases a3.2 with h | h
          · exact absurd h b1
          · exact .inr ⟨_, by rw [decide_eq_true hlt]; exact h.1, h.2⟩
      · exact absurd d0 b1
    · exact absurd c0 b1
  have ha' : a.1 = n0 := by rcases a4 with a4 | a4; · exact a4.1
                            · exact absurd b0 a4.2
  rw [b0] at b2
  rcases truncStep_spec b3 hc with ⟨c1, rfl⟩ | ⟨c0, c1, c2, c3, c4⟩
  · rcases truncStep_spec b3 hd with ⟨d1, rfl⟩ | ⟨d0, -⟩
    · have hlt : b.1 < n1 := by rcases b4 with b4 | b4; · exact absurd b4.2 c1
                                · exact b4.1
      refine ⟨⟨a1, b1, ?_⟩, ?_, b3.1, ?_⟩
      · simp; omega
      · simpa using a2.append b2
      · rcases b3.2 with h | h
        · exact absurd h c1
        · exact .inr ⟨_, by rw [decide_eq_false (by omega)]; exact h.1, h.2⟩
    · exact absurd d0 c1
  have hb' : b.1 = n1 := by rcases b4 with b4 | b4; · exact b4.1
                            · exact absurd c0 b4.2
  rw [c0] at c2
  rcases truncStep_spec c3 hd with ⟨d1, rfl⟩ | ⟨d0, d1, d2, d3, d4⟩
  · have hlt : c.1 < n2 := by rcases c4 with c4 | c4; · exact absurd c4.2 d1
                              · exact c4.1
    refine ⟨⟨a1, b1, c1, ?_⟩, ?_, c3.1, ?_⟩
    · simp; omega
    · simpa using a2.append (b2.append c2)
    · rcases c3.2 with h | h
      · exact absurd h d1
      · exact .inr ⟨_, by rw [decide_eq_false (by omega)]; exact h.1, h.2⟩
  have hc' : c.1 = n2 := by rcases c4 with c4 | c4; · exact c4.1
                            · exact absurd d0 c4.2
  rw [d0] at d2
  refine ⟨⟨a1, b1, c1, d1, ?_⟩, a2.append (b2.append (c2.append d2)), d3.1, ?_⟩
  · simp; omega
  · rcases d4 with d4 | d4
    · exact .inl ⟨ha', hb', hc', d4.1⟩
    · rcases d3.2 with h | h
      · exact absurd h d4.2
      · exact .inr ⟨_, by rw [decide_eq_false (by omega)]; exact h.1, h.2⟩

theorem skip_le {msg : Bytes} {q : Bool} {s s' : Bytes} (h : skip msg q s = .ok s') : s'.length ≤ s.length := by
  unfold skip at h
  obtain ⟨⟨n, r⟩, hn, h'⟩ := Out.bind_eq_ok.1 h
  clear h
  have h := h'
  clear h'
  obtain ⟨-, -, p, -, rfl⟩ := Props.DnsName.C21_result _ _ _ _ hn
  dsimp only at h
  split at h
  · split at h
    · cases h
    · cases h; simp; omega
  · split at h
    · cases h
    · obtain ⟨k, hk, h⟩ := Out.bind_eq_ok.1 h
      split at h
      · cases h
      · cases h
        rw [(u16_drop hk).1]
        simp; omega

theorem Skips.le {msg : Bytes} {l : List Bool} {s s' : Bytes} (h : Skips msg l s s') : s'.length ≤ s.length := by
  induction h with
  | nil => exact Nat.le_refl _
  | cons h _ ih => have := skip_le h; omega

theorem truncStep_ok {msg : Bytes} {max : Nat} {q : Bool} {n : Nat} {last s s' : Bytes} (h : Skips msg (List.replicate n q) s s') :
    ∃ r, truncStep msg max q n last s = .ok r := by
  unfold truncStep
  split
  · exact ⟨_, rfl⟩
  · exact truncSection_ok h

theorem truncStep_done {msg : Bytes} {max : Nat} (q : Bool) (n : Nat) {last s : Bytes} (h : max < msg.length - s.length) :
    truncStep msg max q n last s = .ok (0, last, s) := by
  unfold truncStep
  rw [if_pos h]

/-- After a section the place is past the limit or at its end. -/
theorem truncStep_next {msg : Bytes} {max : Nat} {q : Bool} {n : Nat} {last s s' : Bytes} {r : Nat × Bytes × Bytes} (h : Skips msg (List.replicate n q) s s')
    (hr : truncStep msg max q n last s = .ok r) : r.2.2 = s' ∨ max < msg.length - r.2.2.length := by
  unfold truncStep at hr
  by_cases hs : msg.length - s.length > max
  · rw [if_pos hs] at hr
    cases hr
    exact .inr hs
  · rw [if_neg hs] at hr
    obtain ⟨k, k1, k2, k3, k4, k5⟩ := truncSection_spec (by omega) hr
    rcases k5 with ⟨k5, k6⟩ | k5
    · subst k5
      exact .inl (by rw [k6]; exact k3.unique h)
    · exact .inr k5.2.2

theorem steps_ok {msg : Bytes} {max : Nat} {n0 n1 n2 n3 : Nat} {s s' : Bytes}
    (h : Skips msg (List.replicate n0 true ++ (List.replicate n1 false ++ (List.replicate n2 false ++ List.replicate n3 false))) s s') :
    ∃ a b c d, truncStep msg max true n0 s s = .ok a ∧ truncStep msg max false n1 a.2.1 a.2.2 = .ok b ∧
      truncStep msg max false n2 b.2.1 b.2.2 = .ok c ∧ truncStep msg max false n3 c.2.1 c.2.2 = .ok d := by
  obtain ⟨s1, h1, h⟩ := h.split
  obtain ⟨s2, h2, h⟩ := h.split
  obtain ⟨s3, h3, h4⟩ := h.split
  obtain ⟨a, ha⟩ := truncStep_ok (max := max) (last := s) h1
  refine ⟨a, ?_⟩
  rcases truncStep_next h1 ha with e | e
  · rw [← e] at h2
    obtain ⟨b, hb⟩ := truncStep_ok (max := max) (last := a.2.1) h2
    refine ⟨b, ?_⟩
    rcases truncStep_next h2 hb with e | e
    · rw [← e] at h3
      obtain ⟨c, hc⟩ := truncStep_ok (max := max) (last := b.2.1) h3
      refine ⟨c, ?_⟩
      rcases truncStep_next h3 hc with e | e
      · rw [← e] at h4
        obtain ⟨d, hd⟩ := truncStep_ok (max := max) (last := c.2.1) h4
        exact ⟨d, ha, hb, hc, hd⟩
      · exact ⟨_, ha, hb, hc, truncStep_done _ _ e⟩
    · exact ⟨_, _, ha, hb, truncStep_done _ _ e, truncStep_done _ _ e⟩
  · exact ⟨_, _, _, ha, truncStep_done _ _ e, truncStep_done _ _ e, truncStep_done _ _ e⟩

theorem isLeft_items {qd : List Qs} {an ns ar : List Rr} :
    (qd.map Sum.inl ++ (an.map Sum.inr ++ (ns.map Sum.inr ++ ar.map Sum.inr)) : List Item).map Sum.isLeft =
      List.replicate qd.length true ++ (List.replicate an.length false ++ (List.replicate ns.length false ++ List.replicate ar.length false)) := by
  simp only [List.map_append, List.map_map]
  congr 1
  · rw [List.map_eq_replicate_iff]; simp
  · congr 1
    · rw [List.map_eq_replicate_iff]; simp
    · congr 1 <;> (rw [List.map_eq_replicate_iff]; simp)

theorem okBind {α β : Type} (a : α) (f : α → Out Unit β) : (Out.ok a).bind f = f a := rfl

/-- What truncation does to a message longer than the limit. -/
theorem truncate_eq {msg : Bytes} {max : Nat} (hl : 12 ≤ msg.length) (hm : 12 ≤ max) (hlen : max < msg.length) :
    ∃ n0 n1 n2 n3, msg = msg.take 4 ++ writeU16be n0 ++ writeU16be n1 ++ writeU16be n2 ++ writeU16be n3 ++ msg.drop 12 ∧
      readU16be (msg.drop 4) = .ok (n0, msg.drop 6) ∧ readU16be (msg.drop 6) = .ok (n1, msg.drop 8) ∧
      readU16be (msg.drop 8) = .ok (n2, msg.drop 10) ∧ readU16be (msg.drop 10) = .ok (n3, msg.drop 12) ∧
      truncate msg max = ((truncStep msg max true n0 (msg.drop 12) (msg.drop 12)).bind fun a =>
        (truncStep msg max false n1 a.2.1 a.2.2).bind fun b =>
        (truncStep msg max false n2 b.2.1 b.2.2).bind fun c =>
        (truncStep msg max false n3 c.2.1 c.2.2).bind fun d =>
          .ok (((msg.take 4) ++ writeU16be a.1 ++ writeU16be b.1 ++ writeU16be c.1 ++ writeU16be d.1 ++ msg.drop 12).take (msg.length - d.2.1.length))) := by
  have hu : ∀ o, o + 2 ≤ msg.length → ∃ v, readU16be (msg.drop o) = .ok (v, msg.drop (o + 2)) ∧ msg.drop o = writeU16be v ++ msg.drop (o + 2) ∧ v < 65536 := by
    intro o ho
    have h1 := u16_at.2 ⟨msg[o], msg[o + 1], List.getElem?_eq_getElem (by omega), List.getElem?_eq_getElem (by omega), rfl⟩
    obtain ⟨-, -, h3, h4⟩ := u16_drop h1
    exact ⟨_, h1, h3, h4⟩
  obtain ⟨f, f1, -, -⟩ := hu 2 (by omega)
  obtain ⟨n0, a1, a2, a3⟩ := hu 4 (by omega)
  obtain ⟨n1, b1, b2, b3⟩ := hu 6 (by omega)
  obtain ⟨n2, c1, c2, c3⟩ := hu 8 (by omega)
  obtain ⟨n3, d1, d2, d3⟩ := hu 10 (by omega)
  refine ⟨n0, n1, n2, n3, ?_, a1, b1, c1, d1, ?_⟩
  · conv => lhs; rw [← List.take_append_drop 4 msg]
    rw [a2, b2, c2, d2]
    simp
  · unfold truncate
    rw [if_neg (by omega), if_neg (by omega), if_neg (by omega), f1]
    simp only [okBind, a1, b1, c1, d1]

/-! ### Truncation of an encoded message -/

theorem goodMsg_first {m : Msg} (h : GoodMsg m) (k : Nat) : GoodMsg (firstRecords m k) := by
  refine ⟨h.id, h.flags, h.opcode, ?_, ?_, ?_, ?_, ?_, ?_⟩
  · have := h.code; simp only [firstRecords]; omega
  · refine ⟨by have := h.qd.1; simp [firstRecords]; omega, fun q hq => h.qd.2.1 q ?_, fun q hq => h.qd.2.2 q ?_⟩
    · simp only [firstRecords, List.take_take] at hq
      exact List.take_subset_take_left _ (Nat.min_le_left _ _) hq
    · simp only [firstRecords, List.drop_take] at hq
      exact List.mem_of_mem_take hq
  · exact ⟨by have := h.an.1; simp [firstRecords]; omega, fun q hq => h.an.2 q (List.mem_of_mem_take hq)⟩
  · exact ⟨by have := h.ns.1; simp [firstRecords]; omega, fun q hq => h.ns.2 q (List.mem_of_mem_take hq)⟩
  · exact ⟨by have := h.ar.1; simp [firstRecords]; omega, fun q hq => h.ar.2 q (List.mem_of_mem_take hq)⟩
  · simp only [firstRecords, Bool.false_eq_true, if_false, true_and]
    omega

theorem items_first {m : Msg} (h : GoodMsg m) {k : Nat} (hk : k ≤ records m) : items (firstRecords m k) = (items m).take k := by
  have ho : (optRr (firstRecords m k)).toList = [] := by
    rw [← List.length_eq_zero_iff, optRr_length (goodMsg_first h k)]
    simp [firstRecords]
  have h0 : k - m.qd.length - m.an.length - m.ns.length - m.ar.length = 0 := by unfold records at hk; omega
  unfold items
  rw [ho]
  simp only [firstRecords, List.take_append, List.length_map, List.map_nil, List.append_nil, List.map_take, h0, List.take_zero]

theorem items_length {m : Msg} (h : GoodMsg m) : (items m).length = records m + if m.edns.enabled then 1 else 0 := by
  rw [← optRr_length h]
  simp [items, records]
  omega

/-- The encoding of the first records is a header and a prefix of the sections. -/
theorem encode_first {m : Msg} (h : GoodMsg m) {x : Bytes} (hx : ∀ l1 l2, items m = l1 ++ l2 → ∃ x1 x2 t2, x = x1 ++ x2 ∧
      wAll (l1.map (wItem (some ⟨sizeOf m, true⟩))) 12 [] = .ok (x1.length, x1, t2) ∧ (l2 = [] → x2 = []) ∧
      ∀ hdr : Bytes, hdr.length = 12 → ∀ suf w, w <+: suf → Reads (some (hdr ++ x1 ++ suf)) l1 (x1 ++ w) w) {k : Nat} (hk : k ≤ records m) :
    ∃ x1 x2, x = x1 ++ x2 ∧ encode (firstRecords m k) = .ok (header (firstRecords m k) ++ x1) ∧
      Skips (header m ++ x) (((items m).take k).map Sum.isLeft) x x2 := by
  obtain ⟨x1, x2, t2, e1, e2, -, e4⟩ := hx ((items m).take k) ((items m).drop k) (List.take_append_drop k _).symm
  refine ⟨x1, x2, e1, ?_, ?_⟩
  · obtain ⟨y, f1, f2⟩ := encode_items (goodMsg_first h k)
    obtain ⟨y1, y2, t3, g1, g2, g3, -⟩ := f2 _ [] (List.append_nil _).symm
    rw [g3 rfl, List.append_nil] at g1
    subst g1
    rw [items_first h hk] at g2
    have hle : sizeOf (firstRecords m k) ≤ sizeOf m := by
      rw [sizeOf_items, sizeOf_items, items_first h hk]
      conv => rhs; rw [← List.take_append_drop k (items m)]
      rw [List.map_append, List.sum_append]
      omega
    have := roomy_items _ hle g2
    rw [e2] at this
    have := Out.ok.inj this
    simp only [Prod.mk.injEq] at this
    rw [f1, this.2.1]
  · have := (e4 (header m) (header_length m) x2 x2 (List.prefix_refl _)).skips
    rwa [List.append_assoc, ← e1] at this

theorem take_of_cut {m : Msg} {c0 c1 c2 c3 : Nat} (h : Cut (m.qd.length, m.an.length, m.ns.length, m.ar.length) (c0, c1, c2, c3)) :
    (firstRecords m (c0 + c1 + c2 + c3)).qd.length = c0 ∧ (firstRecords m (c0 + c1 + c2 + c3)).an.length = c1 ∧
      (firstRecords m (c0 + c1 + c2 + c3)).ns.length = c2 ∧ (firstRecords m (c0 + c1 + c2 + c3)).ar.length = c3 := by
  simp only [Cut] at h
  simp only [firstRecords, List.length_take]
  omega

theorem isLeft_at (m : Msg) (k : Nat) (hk : k < ((items m).map Sum.isLeft).length) : ((items m).map Sum.isLeft)[k] = decide (k < m.qd.length) := by
  rw [List.getElem_map]
  unfold items
  by_cases hq : k < m.qd.length
  · rw [List.getElem_append_left (by simpa using hq)]
    simp [hq]
  · rw [List.getElem_append_right (by simpa using hq)]
    rw [decide_eq_false hq]
    have : ∀ l : List Item, (∀ i ∈ l, i.isLeft = false) → ∀ j (hj : j < l.length), (l[j]).isLeft = false := fun l hl j hj => hl _ (List.getElem_mem hj)
    apply this
    intro i hi
    simp only [List.mem_append, List.mem_map] at hi
    rcases hi with ⟨r, -, rfl⟩ | ⟨r, -, rfl⟩ | ⟨r, -, rfl⟩ | ⟨r, -, rfl⟩ <;> rfl

theorem head6_take (a b c d e f : Nat) (x : Bytes) : (head6 a b c d e f ++ x).take 4 = writeU16be a ++ writeU16be b := by
  simp only [head6, List.append_assoc]
  rw [← List.append_assoc (writeU16be a)]
  exact List.take_left' (by simp [be_length])

/-- A message longer than the limit is cut to the encoding of as many of its first records as fit. -/
theorem truncate_good {m : Msg} (h : GoodMsg m) {b : Bytes} (hb : encode m = .ok b) {max : Nat} (hm : 12 ≤ max) (hlen : max < b.length) :
    ∃ k b', k ≤ records m ∧ truncate b max = .ok b' ∧ encode (firstRecords m k) = .ok b' ∧ b'.length ≤ max ∧
      ∀ k', k < k' → k' ≤ records m → ∀ b'', encode (firstRecords m k') = .ok b'' → max < b''.length := by
  obtain ⟨x, e1, e2⟩ := encode_items h
  rw [e1] at hb
  have hbx := (Out.ok.inj hb).symm
  have hlb : b.length = 12 + x.length := by rw [hbx, List.length_append, header_length]
  have hdrop : b.drop 12 = x := by rw [hbx]; exact List.drop_left' (header_length m)
  have hq := h.qd.1
  have ha := h.an.1
  have hns := h.ns.1
  have har : (m.ar ++ (optRr m).toList).length ≤ 256 := by
    rw [List.length_append, optRr_length h]
    have := h.ar.1
    split <;> omega
  obtain ⟨n0, n1, n2, n3, hn, l0, l1, l2, l3, ht⟩ := truncate_eq (msg := b) (by omega) hm hlen
  -- the counts of the header
  have hcount : n0 = m.qd.length ∧ n1 = m.an.length ∧ n2 = m.ns.length ∧ n3 = (m.ar ++ (optRr m).toList).length := by
    have d4 : b.drop 4 = writeU16be m.qd.length ++ (writeU16be m.an.length ++ (writeU16be m.ns.length ++ (writeU16be (m.ar ++ (optRr m).toList).length ++ x))) := by
      rw [hbx, header_good h, head6]
      simp only [List.append_assoc]
      rw [← List.append_assoc (writeU16be m.id)]
      exact List.drop_left' (by simp [be_length])
    rw [d4, writeU16be, readU16be_append (by omega)] at l0
    have l0 := Out.ok.inj l0
    simp only [Prod.mk.injEq] at l0
    rw [← l0.2, writeU16be, readU16be_append (by omega)] at l1
    have l1 := Out.ok.inj l1
    simp only [Prod.mk.injEq] at l1
    rw [← l1.2, writeU16be, readU16be_append (by omega)] at l2
    have l2 := Out.ok.inj l2
    simp only [Prod.mk.injEq] at l2
    rw [← l2.2, writeU16be, readU16be_append (by omega)] at l3
    have l3 := Out.ok.inj l3
    simp only [Prod.mk.injEq] at l3
    exact ⟨l0.1.symm, l1.1.symm, l2.1.symm, l3.1.symm⟩
  obtain ⟨rfl, rfl, rfl, rfl⟩ := hcount
  -- all items can be skipped
  have hall : Skips b ((items m).map Sum.isLeft) x [] := by
    obtain ⟨x1, x2, t2, f1, -, f3, f4⟩ := e2 (items m) [] (List.append_nil _).symm
    rw [f3 rfl, List.append_nil] at f1
    subst f1
    have := (f4 (header m) (header_length m) [] [] List.nil_prefix).skips
    rwa [List.append_nil, List.append_nil, ← hbx] at this
  have hall' := hall
  rw [show items m = m.qd.map .inl ++ (m.an.map .inr ++ (m.ns.map .inr ++ (m.ar ++ (optRr m).toList).map .inr)) by simp [items], isLeft_items] at hall'
  obtain ⟨a, b', c, d, g1, g2, g3, g4⟩ := steps_ok (max := max) hall'
  obtain ⟨hcut, hsk, hfit, hnext⟩ := steps_spec (by omega) g1 g2 g3 g4
  rw [hdrop] at ht
  simp only [g1, g2, g3, g4, okBind] at ht
  -- the last one is left out
  have hcut' : Cut (m.qd.length, m.an.length, m.ns.length, m.ar.length) (a.1, b'.1, c.1, d.1) := by
    refine ⟨hcut.1, hcut.2.1, hcut.2.2.1, ?_, hcut.2.2.2.2⟩
    show d.1 ≤ m.ar.length
    refine Nat.le_of_not_lt fun hgt => ?_
    have hlt : d.1 ≤ (m.ar ++ (optRr m).toList).length := hcut.2.2.2.1
    have hfull : d.1 = (m.ar ++ (optRr m).toList).length := by
      rw [List.length_append, optRr_length h] at hlt ⊢
      cases hen : m.edns.enabled <;> simp [hen] at hlt ⊢ <;> omega
    simp only [Cut] at hcut
    have h0 : a.1 = m.qd.length := by omega
    have h1 : b'.1 = m.an.length := by omega
    have h2 : c.1 = m.ns.length := by omega
    rw [h0, h1, h2, hfull] at hsk
    rw [hsk.unique hall'] at hfit
    simp at hfit
    omega
  obtain ⟨t0, t1, t2, t3⟩ := take_of_cut hcut'
  generalize hK : a.1 + b'.1 + c.1 + d.1 = K at t0 t1 t2 t3
  have hKle : K ≤ records m := by simp only [Cut] at hcut'; unfold records; omega
  -- where the kept records end
  obtain ⟨x1, x2, hx, henc, hsk2⟩ := encode_first h e2 hKle
  rw [← hbx] at hsk2
  have hleft : ((items m).take K).map Sum.isLeft =
      List.replicate a.1 true ++ (List.replicate b'.1 false ++ (List.replicate c.1 false ++ List.replicate d.1 false)) := by
    rw [← items_first h hKle]
    have ho : (optRr (firstRecords m K)).toList = [] := by
      rw [← List.length_eq_zero_iff, optRr_length (goodMsg_first h K)]
      simp [firstRecords]
    unfold items
    rw [ho, List.map_nil, List.append_nil, isLeft_items, t0, t1, t2, t3]
  rw [hleft] at hsk2
  have hlast := hsk.unique hsk2
  have hend : b.length - d.2.1.length = 12 + x1.length := by
    rw [hlast, hlb, hx, List.length_append]; omega
  refine ⟨K, header (firstRecords m K) ++ x1, hKle, ?_, henc, ?_, ?_⟩
  · rw [ht, hend]
    congr 1
    have ho : (optRr (firstRecords m K)).toList = [] := by
      rw [← List.length_eq_zero_iff, optRr_length (goodMsg_first h K)]
      simp [firstRecords]
    rw [header_good (goodMsg_first h K), ho, List.append_nil, t0, t1, t2, t3]
    have h4 : b.take 4 = writeU16be m.id ++ writeU16be m.flags := by
      rw [hbx, header_good h]; exact head6_take ..
    rw [h4, hx]
    have hassoc : writeU16be m.id ++ writeU16be m.flags ++ writeU16be a.1 ++ writeU16be b'.1 ++ writeU16be c.1 ++ writeU16be d.1 ++ (x1 ++ x2) =
        (head6 m.id m.flags a.1 b'.1 c.1 d.1 ++ x1) ++ x2 := by simp [head6]
    rw [hassoc]
    have : (firstRecords m K).id = m.id := rfl
    exact List.take_left' (by simp [head6, be_length]; omega)
  · rw [List.length_append, header_length, ← hend]
    exact hfit
  · intro k' hk1 hk2 b'' hb''
    obtain ⟨y1, y2, hy, henc', hsk3⟩ := encode_first h e2 hk2
    rw [henc'] at hb''
    rw [← Out.ok.inj hb'', List.length_append, header_length]
    rw [← hbx] at hsk3
    have hlen' : (items m).length = records m + if m.edns.enabled then 1 else 0 := items_length h
    have hsplit : ((items m).take k').map Sum.isLeft = ((items m).take K).map Sum.isLeft ++
        decide (K < m.qd.length) :: (((items m).take k').drop (K + 1)).map Sum.isLeft := by
      have hKl : K < ((items m).take k').length := by rw [List.length_take]; omega
      have e : (items m).take k' = (items m).take K ++ (((items m).take k')[K] :: ((items m).take k').drop (K + 1)) := by
        conv => lhs; rw [← List.take_append_drop K ((items m).take k')]
        rw [List.take_take, Nat.min_eq_left (by omega), List.drop_eq_getElem_cons hKl]
      rw [e, List.map_append, List.map_cons]
      congr 2
      · rw [List.getElem_take]
        have := isLeft_at m K (by rw [List.length_map]; omega)
        rw [List.getElem_map] at this
        exact this
      · congr 1
        rw [← e]
    rw [hsplit, hleft] at hsk3
    obtain ⟨s1, p1, p2⟩ := hsk3.split
    rw [p1.unique hsk] at p2
    cases p2 with
    | cons q1 q2 =>
      rename_i s2
      rcases hnext with hf | ⟨data, r1, r2⟩
      · exfalso
        simp only [Cut] at hcut'
        unfold records at hk2
        have := List.length_append (as := m.ar) (bs := (optRr m).toList)
        omega
      · have hdec : decide (a.1 < m.qd.length) = decide (K < m.qd.length) := by
          simp only [Cut] at hcut'
          by_cases hc : a.1 < m.qd.length
          · rw [decide_eq_true hc, decide_eq_true (by omega)]
          · rw [decide_eq_false hc, decide_eq_false (by omega)]
        rw [hdec, q1] at r1
        cases r1
        have := q2.le
        rw [hy, List.length_append] at hlb
        omega

end Verif.Dns
