import Verif.Lemmas.Label
import Verif.Lemmas.Tld
import Verif.Spec.Label
/-
Service labels and comparison of names.
-/
namespace Verif.Label
open Verif.DnsName Verif.Tld Verif.Spec.DnsName Verif.Spec.Label Verif.Spec.Tld

theorem underscore_some {l x : Bytes} : underscore l = some x ↔ ∃ r, r ≠ [] ∧ l = 0x5f :: r ∧ x = lowered r := by
  unfold underscore
  cases l with
  | nil => simp
  | cons c l =>
    simp only [List.length_cons, List.head?_cons, List.drop_succ_cons, List.drop_zero, List.cons.injEq]
    constructor
    · intro h
      split at h
      · cases h
      · split at h
        · cases h
        · rename_i h1 h2
          simp only [ne_eq, Option.some.injEq, Decidable.not_not] at h2
          exact ⟨l, by rintro rfl; simp at h1, ⟨h2, rfl⟩, (Option.some.inj h).symm⟩
    · rintro ⟨r, hr, ⟨rfl, rfl⟩, rfl⟩
      have : 0 < l.length := List.length_pos_iff.2 hr
      rw [if_neg (by omega), if_neg (by simp)]

theorem underscore_isSome {l : Bytes} : (underscore l).isSome = true ↔ Underscored l := by
  rw [Option.isSome_iff_exists]
  constructor
  · rintro ⟨x, hx⟩
    obtain ⟨r, h1, h2, -⟩ := underscore_some.1 hx
    exact ⟨r, h1, h2⟩
  · rintro ⟨r, h1, h2⟩
    exact ⟨_, underscore_some.2 ⟨r, h1, h2, rfl⟩⟩

theorem fold_ge (s : Bytes) (w : Nat) : w ≤ s.foldl (fun w c => w * 10 + (c.toNat - 0x30)) w := by
  induction s generalizing w with
  | nil => exact Nat.le_refl _
  | cons c s ih =>
    rw [List.foldl_cons]
    exact Nat.le_trans (by show w ≤ w * 10 + (c.toNat - 48); omega) (ih _)

theorem portLoop_some {s : Bytes} {w n : Nat} :
    portLoop s w = some n ↔ (s = [] → n = w) ∧ (s ≠ [] → n ≤ 65535) ∧ (∀ c ∈ s, IsDigit c) ∧ s.foldl (fun w c => w * 10 + (c.toNat - 0x30)) w = n := by
  induction s generalizing w with
  | nil =>
    simp only [portLoop, Option.some.injEq, List.foldl_nil]
    constructor
    · rintro rfl; simp
    · intro h; exact h.2.2.2
  | cons c s ih =>
    simp only [portLoop]
    have hdig : (c < 0x30 ∨ c > 0x39) ↔ ¬ IsDigit c := by
      unfold IsDigit
      simp only [UInt8.lt_iff_toNat_lt, GT.gt]
      show (c.toNat < 48 ∨ 57 < c.toNat) ↔ _
      omega
    by_cases hc : c < 0x30 ∨ c > 0x39
    · rw [if_pos hc]
      constructor
      · intro h; cases h
      · intro h; exact absurd (h.2.2.1 c List.mem_cons_self) (hdig.1 hc)
    · rw [if_neg hc]
      have hd : IsDigit c := Classical.not_not.1 (fun hn => hc (hdig.2 hn))
      by_cases hw : w * 10 + (c.toNat - 0x30) > 0xffff
      · rw [if_pos hw]
        constructor
        · intro h; cases h
        · rintro ⟨-, h1, h2, h3⟩
          have h1 := h1 (by simp)
          rw [List.foldl_cons] at h3
          have := fold_ge s (w * 10 + (c.toNat - 48))
          omega
      · rw [if_neg hw, ih]
        simp only [List.mem_cons, forall_eq_or_imp, List.foldl_cons]
        constructor
        · rintro ⟨h1, h2, h3, h4⟩
          refine ⟨by simp, fun _ => ?_, ⟨hd, h3⟩, h4⟩
          by_cases hs : s = []
          · rw [h1 hs]; omega
          · exact h2 hs
        · rintro ⟨-, h2, h3, h4⟩
          exact ⟨fun hs => by rw [hs] at h4; exact h4.symm, fun _ => h2 (by simp), h3.2, h4⟩

theorem nibble_isSome (c : UInt8) : (nibble c).isSome = true ↔ IsHex c := by
  unfold nibble IsHex IsDigit
  simp only [UInt8.le_iff_toNat_le]
  show (if 48 ≤ c.toNat ∧ c.toNat ≤ 57 then _ else if 65 ≤ c.toNat ∧ c.toNat ≤ 70 then _ else if 97 ≤ c.toNat ∧ c.toNat ≤ 102 then _ else none : Option Nat).isSome = true ↔ _
  split
  · simp; omega
  · split
    · simp; omega
    · split
      · simp; omega
      · simp; omega

theorem hexDecode_isSome : ∀ {s : Bytes}, s.length % 2 = 0 → ((hexDecode s).isSome = true ↔ ∀ c ∈ s, IsHex c)
  | [], _ => by simp [hexDecode]
  | [a], h => by simp at h
  | a :: b :: s, h => by
    simp only [List.length_cons] at h
    have ih := hexDecode_isSome (s := s) (by omega)
    simp only [hexDecode, List.mem_cons, forall_eq_or_imp]
    have ha := nibble_isSome a
    have hb := nibble_isSome b
    cases hna : nibble a with
    | none =>
      rw [hna] at ha
      simp only [Option.isSome_none, Bool.false_eq_true, false_iff] at ha ⊢
      exact fun h => ha h.1
    | some x =>
      rw [hna] at ha
      cases hnb : nibble b with
      | none =>
        rw [hnb] at hb
        simp only [Option.isSome_none, Bool.false_eq_true, false_iff] at hb ⊢
        exact fun h => hb h.2.1
      | some y =>
        rw [hnb] at hb
        simp only [Option.isSome_some, true_iff] at ha hb
        simp only [Option.isSome_map, ih]
        exact ⟨fun h => ⟨ha, hb, h⟩, fun h => h.2.2⟩

theorem get2_zero {ls : List Bytes} (h : OkName ls) : get2 (text ls) (starts 0 ls) 0 = .ok (ls.getD 0 []) := by
  have := get2_text h (i := 0) (by simp [index])
  simpa [index] using this

theorem get2_one {ls : List Bytes} (h : OkName ls) : get2 (text ls) (starts 0 ls) 1 = .ok (ls.getD 1 []) := by
  have := get2_text h (i := 1) (by simp [index])
  simpa [index] using this

theorem three {ls : List Bytes} (h : 3 ≤ ls.length) : ∃ s p n r, ls = s :: p :: n :: r := by
  match ls with
  | [] => simp at h
  | [_] => simp at h
  | [_, _] => simp at h
  | s :: p :: n :: r => exact ⟨s, p, n, r, rfl⟩

theorem isSrv_text {ls : List Bytes} (h : OkName ls) : ∃ b, isSrv (text ls) = .ok b ∧ (b = true ↔ Srv ls) := by
  unfold isSrv decodeSrv
  rw [count_text h]
  by_cases h3 : ls.length < 3
  · rw [if_pos h3]
    refine ⟨false, rfl, by simp, ?_⟩
    rintro ⟨s, p, n, r, rfl, -, -⟩
    simp only [List.length_cons] at h3
    omega
  · rw [if_neg h3, positions_text h]
    obtain ⟨s, p, n, r, rfl⟩ := three (Nat.not_lt.1 h3)
    simp only [Out.bind]
    rw [get2_one h]
    simp only [Out.bind, List.getD_cons_succ, List.getD_cons_zero]
    have hsrv : Srv (s :: p :: n :: r) ↔ Underscored s ∧ Underscored p := by
      constructor
      · rintro ⟨s', p', n', r', he, h1, h2⟩
        simp only [List.cons.injEq] at he
        obtain ⟨rfl, rfl, rfl, rfl⟩ := he
        exact ⟨h1, h2⟩
      · rintro ⟨h1, h2⟩
        exact ⟨s, p, n, r, rfl, h1, h2⟩
    have hp := underscore_isSome (l := p)
    have hs := underscore_isSome (l := s)
    cases hu : underscore p with
    | none =>
      rw [hu] at hp
      refine ⟨false, rfl, by simp, fun hx => ?_⟩
      exact absurd (hp.2 (hsrv.1 hx).2) (by simp)
    | some x =>
      rw [hu] at hp
      dsimp only
      rw [get2_zero h]
      simp only [List.getD_cons_zero]
      cases hv : underscore s with
      | none =>
        rw [hv] at hs
        refine ⟨false, rfl, by simp, fun hx => ?_⟩
        exact absurd (hs.2 (hsrv.1 hx).1) (by simp)
      | some y =>
        rw [hv] at hs
        exact ⟨true, rfl, fun _ => hsrv.2 ⟨hs.1 rfl, hp.1 rfl⟩, fun _ => rfl⟩

theorem portLabel_iff {l : Bytes} {n : Nat} : PortLabel l n ↔ ¬ (l.length < 2 ∨ l.length > 6) ∧ l.head? = some 0x5f ∧ portLoop (l.drop 1) 0 = some n := by
  constructor
  · rintro ⟨r, rfl, h1, h2, h3, h4, h5⟩
    refine ⟨by simp only [List.length_cons]; omega, rfl, ?_⟩
    rw [List.drop_succ_cons, List.drop_zero, portLoop_some]
    have hr : r ≠ [] := by rintro rfl; simp at h1
    exact ⟨fun e => absurd e hr, fun _ => h5, h3, h4⟩
  · rintro ⟨h1, h2, h3⟩
    cases l with
    | nil => simp at h2
    | cons c r =>
      rw [List.head?_cons] at h2
      obtain rfl := Option.some.inj h2
      rw [List.drop_succ_cons, List.drop_zero, portLoop_some] at h3
      simp only [List.length_cons] at h1
      have hr : r ≠ [] := by rintro rfl; simp at h1
      exact ⟨r, rfl, by omega, by omega, h3.2.2.1, h3.2.2.2, h3.2.1 hr⟩

theorem decodeTlsa_text {ls : List Bytes} (h : OkName ls) : ∃ r, decodeTlsa (text ls) = .ok r ∧ ∀ port, (r.map Prod.snd = some port ↔ Tlsa ls port) := by
  unfold decodeTlsa
  rw [count_text h]
  by_cases h3 : ls.length < 3
  · rw [if_pos h3]
    refine ⟨none, rfl, fun port => ⟨by simp, ?_⟩⟩
    rintro ⟨s, p, n, r, rfl, -, -⟩
    simp only [List.length_cons] at h3
    omega
  · rw [if_neg h3, positions_text h]
    obtain ⟨s, p, n, r, rfl⟩ := three (Nat.not_lt.1 h3)
    simp only [Out.bind]
    rw [get2_one h]
    simp only [Out.bind, List.getD_cons_succ, List.getD_cons_zero]
    have ht : ∀ port, Tlsa (s :: p :: n :: r) port ↔ PortLabel s port ∧ Underscored p := by
      intro port
      constructor
      · rintro ⟨s', p', n', r', he, h1, h2⟩
        simp only [List.cons.injEq] at he
        obtain ⟨rfl, rfl, rfl, rfl⟩ := he
        exact ⟨h1, h2⟩
      · rintro ⟨h1, h2⟩
        exact ⟨s, p, n, r, rfl, h1, h2⟩
    have hp := underscore_isSome (l := p)
    cases hu : underscore p with
    | none =>
      rw [hu] at hp
      refine ⟨none, rfl, fun port => ⟨by simp, fun hx => ?_⟩⟩
      exact absurd (hp.2 ((ht port).1 hx).2) (by simp)
    | some x =>
      rw [hu] at hp
      dsimp only
      rw [get2_zero h]
      simp only [List.getD_cons_zero]
      by_cases hl : s.length < 2 ∨ s.length > 6
      · rw [if_pos hl]
        exact ⟨none, rfl, fun port => ⟨by simp, fun hx => absurd hl (portLabel_iff.1 ((ht port).1 hx).1).1⟩⟩
      · rw [if_neg hl]
        by_cases hh : s.head? = some 0x5f
        · rw [if_neg (by simpa using hh)]
          cases hport : portLoop (s.drop 1) 0 with
          | none =>
            refine ⟨none, rfl, fun port => ⟨by simp, fun hx => ?_⟩⟩
            have := (portLabel_iff.1 ((ht port).1 hx).1).2.2
            rw [hport] at this
            cases this
          | some k =>
            refine ⟨some (x, k), rfl, fun port => ?_⟩
            rw [ht, portLabel_iff, hport]
            simp only [Option.map_some, Option.some.injEq]
            exact ⟨fun e => ⟨⟨hl, hh, e⟩, hp.1 rfl⟩, fun e => e.1.2.2⟩
        · rw [if_pos hh]
          exact ⟨none, rfl, fun port => ⟨by simp, fun hx => absurd (portLabel_iff.1 ((ht port).1 hx).1).2.1 hh⟩⟩

theorem isTlsa_text {ls : List Bytes} (h : OkName ls) : ∃ b, isTlsa (text ls) = .ok b ∧ (b = true ↔ ∃ port, Tlsa ls port) := by
  obtain ⟨r, hr, hp⟩ := decodeTlsa_text h
  unfold isTlsa
  rw [hr]
  refine ⟨r.isSome, rfl, ?_⟩
  constructor
  · intro hs
    obtain ⟨x, rfl⟩ := Option.isSome_iff_exists.1 hs
    exact ⟨x.2, (hp x.2).1 rfl⟩
  · rintro ⟨port, ht⟩
    have := (hp port).2 ht
    cases r with
    | none => cases this
    | some x => rfl

theorem isDane_text {ls : List Bytes} (h : OkName ls) (tag : Bytes) (ht0 : 0 ∉ tag) (ht2 : 2 ≤ tag.length) :
    ∃ r, decodeDane tag (text ls) = .ok r ∧ (r.isSome = true ↔ Dane tag ls) := by
  unfold decodeDane
  rw [count_text h]
  by_cases h3 : ls.length < 3
  · rw [if_pos h3]
    refine ⟨none, rfl, by simp, ?_⟩
    rintro ⟨s, p, n, r, rfl, -, -, -⟩
    simp only [List.length_cons] at h3
    omega
  · rw [if_neg h3, positions_text h]
    obtain ⟨s, p, n, r, rfl⟩ := three (Nat.not_lt.1 h3)
    simp only [Out.bind]
    rw [get2_one h]
    simp only [Out.bind, List.getD_cons_succ, List.getD_cons_zero]
    have hd : Dane tag (s :: p :: n :: r) ↔ s.length = 56 ∧ (∀ c ∈ s, IsHex c) ∧ SameName p tag := by
      constructor
      · rintro ⟨s', p', n', r', he, h1⟩
        simp only [List.cons.injEq] at he
        obtain ⟨rfl, rfl, rfl, rfl⟩ := he
        exact h1
      · intro h1
        exact ⟨s, p, n, r, rfl, h1⟩
    have hp0 : 0 ∉ p := (h.1 p (by simp)).2.2.1
    have hcmp := (strcasecmp_spec hp0 ht0).1
    by_cases hl : p.length < 2
    · rw [if_pos hl]
      refine ⟨none, rfl, by simp, fun hx => ?_⟩
      have := congrArg List.length (hd.1 hx).2.2
      simp only [List.length_map] at this
      omega
    rw [if_neg hl]
    by_cases hc : strcasecmp p tag = 0
    · rw [if_neg (by simpa using hc), get2_zero h]
      simp only [List.getD_cons_zero]
      by_cases h56 : s.length = 56
      · rw [if_neg (by simpa using h56)]
        refine ⟨_, rfl, ?_⟩
        rw [hexDecode_isSome (by omega), hd]
        exact ⟨fun e => ⟨h56, e, hcmp.1 hc⟩, fun e => e.2.1⟩
      · rw [if_pos h56]
        exact ⟨none, rfl, by simp, fun hx => absurd (hd.1 hx).1 h56⟩
    · rw [if_pos hc]
      exact ⟨none, rfl, by simp, fun hx => absurd (hcmp.2 (hd.1 hx).2.2) hc⟩

theorem cmpLoop_spec (a b : Bytes) : (cmpLoop a b = 0 ↔ SameName a b) ∧ cmpLoop b a = - cmpLoop a b := by
  induction a generalizing b with
  | nil => cases b <;> simp [cmpLoop, SameName]
  | cons x xs ih =>
    cases b with
    | nil => simp [cmpLoop, SameName]
    | cons y ys =>
      have hxy := lower_eq (a := x) (b := y)
      simp only [cmpLoop, UInt8.lt_iff_toNat_lt, GT.gt]
      have hinj : (lower x).toNat = (lower y).toNat ↔ lower x = lower y := ⟨fun h => UInt8.toNat.inj h, fun h => by rw [h]⟩
      have hsame : SameName (x :: xs) (y :: ys) ↔ lower x = lower y ∧ SameName xs ys := by
        unfold SameName
        simp only [List.map_cons, List.cons.injEq, hxy]
      rcases Nat.lt_trichotomy (lower x).toNat (lower y).toNat with h | h | h
      · rw [if_pos h, if_neg (by omega), if_pos h]
        refine ⟨⟨(fun e => absurd e (by decide)), (fun e => ?_)⟩, by simp⟩
        have := hinj.2 (hsame.1 e).1
        omega
      · rw [if_neg (by omega), if_neg (by omega), if_neg (by omega), if_neg (by omega)]
        refine ⟨?_, (ih ys).2⟩
        rw [(ih ys).1, hsame]
        exact ⟨fun e => ⟨hinj.1 h, e⟩, fun e => e.2⟩
      · rw [if_neg (by omega), if_pos h, if_pos h]
        refine ⟨⟨(fun e => absurd e (by decide)), (fun e => ?_)⟩, by simp⟩
        have := hinj.2 (hsame.1 e).1
        omega

theorem body_inj' {a b : List Bytes} (ha : ∀ l ∈ a, OkLabel l) (hb : ∀ l ∈ b, OkLabel l) : body a = body b ↔ a = b :=
  ⟨fun h => body_inj ha hb h, fun h => by rw [h]⟩

theorem isSubdomain_text {p c : List Bytes} (hp : OkName p) (hc : OkName c) :
    ∃ b, isSubdomain (text p) (text c) = .ok b ∧ (b = true ↔ p <:+ c) := by
  unfold isSubdomain
  rw [count_text hp, count_text hc]
  by_cases h0 : p.length = 0
  · rw [if_pos h0]
    rw [List.length_eq_zero_iff.1 h0]
    exact ⟨true, rfl, by simp⟩
  rw [if_neg h0]
  by_cases h1 : p.length > c.length
  · rw [if_pos h1]
    refine ⟨false, rfl, by simp, fun h => ?_⟩
    have := h.length_le
    omega
  rw [if_neg h1, split_text hc, List.take_of_length_le (by rw [starts_length]; omega)]
  have hi : index c.length (-(p.length : Int)) = c.length - p.length := by unfold index; rw [if_pos (by omega)]; omega
  rw [from2_text hc (by omega), hi, show ((c.length : Int) - p.length).toNat = c.length - p.length by omega]
  refine ⟨_, rfl, ?_⟩
  have hne : p ≠ [] := by intro e; rw [e] at h0; simp at h0
  rw [beq_iff_eq, text_ne hne, body_inj' (fun l hl => hc.1 l (List.mem_of_mem_drop hl)) hp.1]
  constructor
  · intro h; rw [← h]; exact List.drop_suffix _ _
  · rintro ⟨x, rfl⟩
    rw [List.length_append, Nat.add_sub_cancel]
    simp

end Verif.Label
