import Verif.Lemmas.Scalar64Bits
import Verif.Spec.EcmultConst
import Mathlib.Tactic.Linarith
/-
The digits of wnaf_const.
-/
namespace Verif.Lemmas.Wnaf
open Verif Verif.EcmultConst Verif.Scalar64 Verif.Spec.Scalar64 Verif.Lemmas.Scalar64 Verif.Spec.Secp Verif.Spec.EcmultConst

theorem step_digit {u v : Int} (hu : u % 2 = 1) (h : u = -1 ∨ 0 < u ∧ u ≤ 15) (hv : 0 ≤ v ∧ v ≤ 15) {e sg : Int}
    (he : e = if v % 2 = 0 then 1 else 0) (hs : sg = 2 * (if u > 0 then 1 else 0) - 1) :
    Digit (u - sg * e * 16) ∧ (v + sg * e) % 2 = 1 ∧ (v + sg * e = -1 ∨ 0 < v + sg * e ∧ v + sg * e ≤ 15) := by
  unfold Digit
  split at he <;> split at hs <;> subst he hs <;> refine ⟨⟨?_, ?_, ?_⟩, ?_, ?_⟩ <;> omega

theorem loop_succ {sign : Int} {k : Nat} {s : Sc} {u v even sg v' u' : Int} (e1 : v = ((shrInt s 4).2 : Nat))
    (e2 : even = if (shrInt s 4).2 &&& 1 == 0 then 1 else 0) (e3 : sg = 2 * (if u > 0 then 1 else 0) - 1) (e4 : v' = v + sg * even)
    (e5 : u' = u - sg * even * 16) : wnafLoop 4 sign (k + 1) s u = (u' * sign) :: wnafLoop 4 sign k (shrInt s 4).1 v' := by
  subst e1 e2 e3 e4 e5; rfl

theorem wnafLoop_spec {sign : Int} : ∀ (k : Nat) (s : Sc) (u : Int), Words s → u % 2 = 1 → (u = -1 ∨ 0 < u ∧ u ≤ 15) → (sign = 1 ∨ sign = -1) →
    val s < 16 ^ k → (k = 0 → val s = 0) → (wnafLoop 4 sign k s u).length = k + 1 ∧ (∀ d ∈ wnafLoop 4 sign k s u, Digit d) ∧
    value (wnafLoop 4 sign k s u) = sign * (u + 16 * (val s : Int)) := by
  intro k
  induction k with
  | zero =>
    intro s u hs hu h hg hv h0
    have e0 := h0 rfl
    refine ⟨rfl, ?_, ?_⟩
    · intro d hd
      rw [wnafLoop, List.mem_singleton] at hd
      subst hd
      unfold Digit
      rcases hg with e | e <;> subst e <;> omega
    · show u * sign + 16 * 0 = _
      rw [e0]; push_cast; ring
  | succ k ih =>
    intro s u hs hu h hg hv _
    obtain ⟨w1, w2, w3⟩ := shrInt_val hs (k := 4) (by decide)
    rw [show (2 : Nat) ^ 4 = 16 from rfl] at w2 w3
    obtain ⟨v, hv1⟩ : ∃ v : Int, v = ((shrInt s 4).2 : Nat) := ⟨_, rfl⟩
    obtain ⟨even, he1⟩ : ∃ e : Int, e = if (shrInt s 4).2 &&& 1 == 0 then 1 else 0 := ⟨_, rfl⟩
    obtain ⟨sg, hsg⟩ : ∃ sg : Int, sg = 2 * (if u > 0 then 1 else 0) - 1 := ⟨_, rfl⟩
    obtain ⟨v', hv'⟩ : ∃ v' : Int, v' = v + sg * even := ⟨_, rfl⟩
    obtain ⟨u', hu'⟩ : ∃ u' : Int, u' = u - sg * even * 16 := ⟨_, rfl⟩
    rw [loop_succ hv1 he1 hsg hv' hu']
    have hv0 : v = ((val s % 16 : Nat) : Int) := by rw [hv1, w3]
    have he : even = if v % 2 = 0 then 1 else 0 := by
      have e1 : ((shrInt s 4).2 &&& 1 == 0) = decide ((shrInt s 4).2 % 2 = 0) := by
        rw [Nat.and_one_is_mod]; rfl
      have e2 : ((shrInt s 4).2 % 2 = 0) ↔ v % 2 = 0 := by
        rw [hv1]; omega
      rw [he1, e1]
      simp only [decide_eq_true_iff, e2]
    have hb : 0 ≤ v ∧ v ≤ 15 := by omega
    obtain ⟨d1, d2, d3⟩ := step_digit hu h hb he hsg
    rw [← hu'] at d1
    rw [← hv'] at d2 d3
    have hlt : val (shrInt s 4).1 < 16 ^ k := by
      rw [w2, Nat.div_lt_iff_lt_mul (by decide), ← pow_succ]; exact hv
    obtain ⟨l1, l2, l3⟩ := ih (shrInt s 4).1 v' w1 d2 d3 hg hlt (by intro hk; subst hk; rw [pow_zero] at hlt; omega)
    refine ⟨by rw [List.length_cons, l1], ?_, ?_⟩
    · intro d hd
      rcases List.mem_cons.1 hd with e | e
      · subst e
        unfold Digit at d1 ⊢
        rcases hg with e | e <;> subst e <;> omega
      · exact l2 d e
    · show u' * sign + 16 * value (wnafLoop 4 sign k (shrInt s 4).1 v') = _
      rw [l3, w2, hu', hv']
      have e : (val s : Int) = v + 16 * ((val s / 16 : Nat) : Int) := by rw [hv0]; omega
      generalize ((val s / 16 : Nat) : Int) = q at e ⊢
      rw [e]; ring

theorem n_facts : n % 2 = 1 ∧ n < 2 ^ 256 := by decide

/-- The number whose digits are computed, the sign, and the skew. -/
theorem start_spec {s : Sc} {x : ZMod n} (hs : Holds s x) {flip notNegOne : Bool} {bit : Nat} {s1 : Sc} {q : Sc × Int} {sign : Int}
    (e1 : flip = isHigh s) (e2 : bit = flip.toNat ^^^ (!isEven s).toNat) (e3 : notNegOne = !isOne (negate s))
    (e4 : s1 = caddBit s bit notNegOne.toNat) (e5 : q = condNegate s1 flip) (e6 : sign = q.2 * ((notNegOne.toNat : Int) * 2 - 1)) :
    (bit = 0 ∨ bit = 1) ∧ (sign = 1 ∨ sign = -1) ∧ Words q.1 ∧ val q.1 % 2 = 1 ∧ val q.1 < 2 ^ 256 ∧
      ∃ c : Int, sign * (val q.1 : Int) = x.val + (1 <<< bit : Nat) + c * n := by
  obtain ⟨hw, hv⟩ := id hs
  have hx : x.val < n := ZMod.val_lt x
  obtain ⟨hn2, hn⟩ := n_facts
  have hneg := holds_negate hs
  have ho : isOne (negate s) = decide (val s = n - 1) := by
    rw [isOne_val hneg.1, hneg.2, hv]
    refine decide_eq_decide.2 ?_
    by_cases h0 : x.val = 0
    · have : x = 0 := (ZMod.val_eq_zero x).1 h0
      rw [this, neg_zero, ZMod.val_zero]
      have : 1 < n := by decide
      omega
    · have : x ≠ 0 := fun h => h0 (by rw [h, ZMod.val_zero])
      have : NeZero x := ⟨this⟩
      rw [ZMod.val_neg_of_ne_zero]
      omega
  rw [ho] at e3
  rw [isHigh_val hw] at e1
  rw [isEven_val] at e2
  rw [← hv]
  have hvn : val s < n := by rw [hv]; exact hx
  by_cases hf : n < 2 * val s
  · have ef : flip = true := by rw [e1]; exact decide_eq_true hf
    by_cases hm : val s = n - 1
    · -- minus one
      have en : notNegOne = false := by rw [e3, decide_eq_true hm]; rfl
      have hev : val s % 2 = 0 := by omega
      have eb : bit = 1 := by rw [e2, ef, decide_eq_true hev]; rfl
      have es : s1 = s := by rw [e4, en, eb]; exact caddBit_zero hw (by decide)
      have eq : q = (negate s, -1) := by rw [e5, es, ef]; exact condNegate_true hw
      have ev : val (negate s) = 1 := by
        have h := isOne_val hneg.1
        rw [ho, decide_eq_true hm] at h
        exact of_decide_eq_true h.symm
      have esg : sign = 1 := by rw [e6, eq, en]; rfl
      refine ⟨Or.inr eb, Or.inl esg, ?_, ?_, ?_, -1, ?_⟩
      · rw [eq]; exact hneg.1
      · rw [eq]; show val (negate s) % 2 = 1; rw [ev]
      · rw [eq]; show val (negate s) < _; rw [ev]; decide
      · rw [eq, esg, eb]
        show 1 * (val (negate s) : Int) = _
        rw [ev]
        show (1 : Int) * ((1 : Nat) : Int) = (val s : Int) + ((2 : Nat) : Int) + -1 * (n : Int)
        omega
    · have en : notNegOne = true := by rw [e3, decide_eq_false hm]; rfl
      have hlt : val s + 2 ^ bit < n ∧ (n - (val s + 2 ^ bit)) % 2 = 1 ∧ (bit = 0 ∨ bit = 1) := by
        by_cases hev : val s % 2 = 0
        · have eb : bit = 1 := by rw [e2, ef, decide_eq_true hev]; rfl
          rw [eb]; omega
        · have eb : bit = 0 := by rw [e2, ef, decide_eq_false hev]; rfl
          rw [eb]; omega
      obtain ⟨h1, h2, h3⟩ := hlt
      obtain ⟨a1, a2⟩ := caddBit_one (bit := bit) hw (by omega) (by omega)
      have es : s1 = caddBit s bit 1 := by rw [e4, en]; rfl
      rw [← es] at a1 a2
      have eq : q = (negate s1, -1) := by rw [e5, ef]; exact condNegate_true a1
      have hh : Holds s1 ((val s1 : Nat) : ZMod n) := ⟨a1, by rw [ZMod.val_natCast, Nat.mod_eq_of_lt (by rw [a2]; exact h1)]⟩
      have hn1 := holds_negate hh
      have ev : val (negate s1) = n - (val s + 2 ^ bit) := by
        rw [hn1.2]
        have hp : 0 < val s1 := by rw [a2]; have := Nat.two_pow_pos bit; omega
        have : NeZero ((val s1 : Nat) : ZMod n) := ⟨by
          intro h
          have := congrArg ZMod.val h
          rw [← hh.2, ZMod.val_zero] at this
          omega⟩
        rw [ZMod.val_neg_of_ne_zero, ← hh.2, a2]
      have esg : sign = -1 := by rw [e6, eq, en]; rfl
      refine ⟨h3, Or.inr esg, ?_, ?_, ?_, -1, ?_⟩
      · rw [eq]; exact hn1.1
      · rw [eq]; show val (negate s1) % 2 = 1; rw [ev]; exact h2
      · rw [eq]; show val (negate s1) < _; rw [ev]; omega
      · rw [eq, esg, Nat.one_shiftLeft]
        show -1 * (val (negate s1) : Int) = _
        rw [ev]
        generalize 2 ^ bit = b at *
        omega
  · have ef : flip = false := by rw [e1]; exact decide_eq_false hf
    have hm : val s ≠ n - 1 := by have : 3 < n := by decide
                                  omega
    have en : notNegOne = true := by rw [e3, decide_eq_false hm]; rfl
    have hlt : val s + 2 ^ bit < 2 ^ 256 ∧ (val s + 2 ^ bit) % 2 = 1 ∧ (bit = 0 ∨ bit = 1) := by
      have : 5 < n := by decide
      by_cases hev : val s % 2 = 0
      · have eb : bit = 0 := by rw [e2, ef, decide_eq_true hev]; rfl
        rw [eb]; omega
      · have eb : bit = 1 := by rw [e2, ef, decide_eq_false hev]; rfl
        rw [eb]; omega
    obtain ⟨h1, h2, h3⟩ := hlt
    obtain ⟨a1, a2⟩ := caddBit_one (bit := bit) hw (by omega) h1
    have es : s1 = caddBit s bit 1 := by rw [e4, en]; rfl
    rw [← es] at a1 a2
    have eq : q = (s1, 1) := by rw [e5, ef]; exact condNegate_false a1
    have esg : sign = 1 := by rw [e6, eq, en]; rfl
    refine ⟨h3, Or.inl esg, ?_, ?_, ?_, 0, ?_⟩
    · rw [eq]; exact a1
    · rw [eq]; show val s1 % 2 = 1; rw [a2]; exact h2
    · rw [eq]; show val s1 < _; rw [a2]; exact h1
    · rw [eq, esg, Nat.one_shiftLeft]
      show 1 * (val s1 : Int) = _
      rw [a2]; push_cast; ring

/-- The digits are odd and small, their number is `x` and the skew modulo `n`; the skew is 1 or 2. -/
theorem wnaf_spec {s : Sc} {x : ZMod n} (hs : Holds s x) :
    (wnafConst s 4).1.length = 65 ∧ (∀ d ∈ (wnafConst s 4).1, Digit d) ∧
    (∃ c : Int, value (wnafConst s 4).1 = x.val + (wnafConst s 4).2 + c * n) ∧ ((wnafConst s 4).2 = 1 ∨ (wnafConst s 4).2 = 2) := by
  unfold wnafConst
  extract_lets -merge flip bit negS nn s1 q sign skew s2
  obtain ⟨h1, h2, h3, h4, h5, c, h6⟩ := start_spec hs (flip := flip) (bit := bit) (notNegOne := nn) (s1 := s1) (q := q) (sign := sign) rfl rfl rfl rfl rfl rfl
  obtain ⟨w1, w2, w3⟩ := shrInt_val h3 (k := 4) (by decide)
  rw [show (2 : Nat) ^ 4 = 16 from rfl] at w2 w3
  have k1 : ((s2.2 : Nat) : Int) % 2 = 1 := by show (((shrInt q.1 4).2 : Nat) : Int) % 2 = 1; rw [w3]; omega
  have k2 : ((s2.2 : Nat) : Int) ≤ 15 := by show (((shrInt q.1 4).2 : Nat) : Int) ≤ 15; rw [w3]; omega
  have k3 : val s2.1 < 16 ^ 64 := by
    show val (shrInt q.1 4).1 < _
    rw [w2, Nat.div_lt_iff_lt_mul (by decide)]
    exact lt_trans h5 (by decide)
  obtain ⟨l1, l2, l3⟩ := wnafLoop_spec (sign := sign) 64 s2.1 (s2.2 : Int) w1 k1 (Or.inr ⟨by omega, k2⟩) h2 k3 (by intro h; omega)
  refine ⟨l1, l2, ⟨c, ?_⟩, ?_⟩
  · show value (wnafLoop 4 sign 64 s2.1 (s2.2 : Int)) = _
    rw [l3, ← h6]
    show sign * (((shrInt q.1 4).2 : Nat) + 16 * ((val (shrInt q.1 4).1 : Nat) : Int)) = _
    rw [w2, w3]
    congr 1
    omega
  · show 1 <<< bit = 1 ∨ 1 <<< bit = 2
    rcases h1 with e | e <;> rw [e] <;> decide

end Verif.Lemmas.Wnaf
