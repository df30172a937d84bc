import Verif.Model.BnMore
import Verif.Lemmas.Bn
/-
C97: the rest of the big numbers.
-/
namespace Verif.Props.BnMore
open Verif Verif.Bn

theorem dec_spec {a : Num} (h : Small a) :
    (dec a).length = a.length ∧ Small (dec a) ∧ val (dec a) = (val a + B ^ a.length - 1) % B ^ a.length := by
  induction a with
  | nil => simp [dec, val]
  | cons w ws ih =>
    have hlt := val_lt h
    rw [small_cons] at h
    have h4 : val ws < B ^ ws.length := val_lt h.2
    have h3 : B ^ (ws.length + 1) = B * B ^ ws.length := by rw [Nat.pow_succ, Nat.mul_comm]
    obtain ⟨i1, i2, i3⟩ := ih h.2
    have hB := B_eq
    by_cases hw : w = 0
    · have e : (w + B - 1) % B = B - 1 := by rw [hB]; omega
      rw [dec, e, if_neg (by omega)]
      refine ⟨by simp [i1], by rw [small_cons]; exact ⟨by omega, i2⟩, ?_⟩
      simp only [val, List.length_cons, h3, i3, hw]
      generalize B ^ ws.length = P at *
      by_cases hz : val ws = 0
      · rw [hz, Nat.zero_add, Nat.mod_eq_of_lt (by omega), Nat.mul_zero, Nat.zero_add,
          Nat.mod_eq_of_lt (by have : 0 < B * P := Nat.mul_pos B_pos (by omega); omega)]
        have : B * (P - 1) + B = B * P := by
          have : B * (P - 1 + 1) = B * P := by rw [Nat.sub_add_cancel (by omega)]
          rw [← this, Nat.mul_add, Nat.mul_one]
        generalize B * (P - 1) = S at *
        generalize B * P = Q at *
        omega
      · rw [show val ws + P - 1 = (val ws - 1) + P by omega, Nat.add_mod_right, Nat.mod_eq_of_lt (by omega)]
        have e1 : B * (val ws - 1) + B = B * val ws := by
          have : B * (val ws - 1 + 1) = B * val ws := by rw [Nat.sub_add_cancel (by omega)]
          rw [← this, Nat.mul_add, Nat.mul_one]
        have e2 : B * (val ws + 1) ≤ B * P := Nat.mul_le_mul_left _ h4
        have hb0 := B_pos
        rw [Nat.mul_add, Nat.mul_one] at e2
        generalize B * (val ws - 1) = S at *
        generalize B * val ws = R at *
        generalize B * P = Q at *
        rw [show 0 + R + Q - 1 = (R - 1) + Q by omega, Nat.add_mod_right, Nat.mod_eq_of_lt (by omega)]
        omega
    · have e : (w + B - 1) % B = w - 1 := by
        have := h.1
        rw [hB] at this ⊢
        omega
      rw [dec, e, if_pos (by omega)]
      refine ⟨by simp, by rw [small_cons]; exact ⟨by omega, h.2⟩, ?_⟩
      simp only [val, List.length_cons, h3] at *
      generalize B ^ ws.length = P at *
      generalize B * P = Q at *
      generalize B * val ws = R at *
      rw [show w + R + Q - 1 = (w + R - 1) + Q by omega, Nat.add_mod_right, Nat.mod_eq_of_lt (by omega)]
      omega

/-- C97: taking one away. -/
theorem C97_dec (a : Num) (h : WF a) : WF (dec a) ∧ val (dec a) = (val a + 2 ^ 512 - 1) % 2 ^ 512 := by
  obtain ⟨h1, h2, h3⟩ := dec_spec h.2
  rw [h.1, pow16] at h3
  exact ⟨⟨by rw [h1, h.1], h2⟩, h3⟩

/-- C97: the low 64 bits. -/
theorem C97_to_int (a : Num) (h : WF a) : toInt a = val a % 2 ^ 64 := by
  obtain ⟨hl, hs⟩ := h
  match a, hl with
  | w :: v :: r, _ =>
    rw [small_cons, small_cons, B_eq] at hs
    simp only [toInt, val, List.getD_cons_zero, List.getD_cons_succ, B_eq]
    generalize val r = X
    omega

theorem and_spec {a b : Num} (ha : Small a) (hb : Small b) (hl : a.length = b.length) :
    Small (Bn.and a b) ∧ Small (Bn.xor a b) ∧ val (Bn.and a b) = val a &&& val b ∧ val (Bn.xor a b) = val a ^^^ val b := by
  induction a generalizing b with
  | nil => cases b with
    | nil => simp [Bn.and, Bn.xor, val]
    | cons _ _ => simp at hl
  | cons x xs ih => cases b with
    | nil => simp at hl
    | cons y ys =>
      simp only [small_cons] at ha hb
      obtain ⟨s1, s2, e1, e2⟩ := ih ha.2 hb.2 (by simpa using hl)
      unfold Bn.and Bn.xor at *
      rw [List.zipWith_cons_cons, List.zipWith_cons_cons, small_cons, small_cons]
      have h1 : x &&& y < 2 ^ 32 := Nat.and_lt_two_pow _ hb.1
      have h2 : x ^^^ y < 2 ^ 32 := Nat.xor_lt_two_pow ha.1 hb.1
      refine ⟨⟨h1, s1⟩, ⟨h2, s2⟩, ?_, ?_⟩
      · simp only [val, e1]
        apply Nat.eq_of_testBit_eq
        intro i
        rw [Nat.testBit_and]
        unfold B
        rw [Nat.add_comm, Nat.add_comm x, Nat.add_comm y,
          Nat.testBit_two_pow_mul_add _ h1, Nat.testBit_two_pow_mul_add _ (show x < 2 ^ 32 from ha.1),
          Nat.testBit_two_pow_mul_add _ (show y < 2 ^ 32 from hb.1)]
        split <;> simp [Nat.testBit_and]
      · simp only [val, e2]
        apply Nat.eq_of_testBit_eq
        intro i
        rw [Nat.testBit_xor]
        unfold B
        rw [Nat.add_comm, Nat.add_comm x, Nat.add_comm y,
          Nat.testBit_two_pow_mul_add _ h2, Nat.testBit_two_pow_mul_add _ (show x < 2 ^ 32 from ha.1),
          Nat.testBit_two_pow_mul_add _ (show y < 2 ^ 32 from hb.1)]
        split <;> simp [Nat.testBit_xor]

/-- C97: the bits both have, and those one of them has. -/
theorem C97_bits (a b : Num) (ha : WF a) (hb : WF b) :
    WF (Bn.and a b) ∧ WF (Bn.xor a b) ∧ val (Bn.and a b) = val a &&& val b ∧ val (Bn.xor a b) = val a ^^^ val b := by
  obtain ⟨h1, h2, h3, h4⟩ := and_spec ha.2 hb.2 (by rw [ha.1, hb.1])
  exact ⟨⟨by simp [Bn.and, ha.1, hb.1], h1⟩, ⟨by simp [Bn.xor, ha.1, hb.1], h2⟩, h3, h4⟩

/-- C97: the remainder. -/
theorem C97_mod (a b : Num) (ha : WF a) (hb : WF b) (h0 : val b ≠ 0) : ∃ c, mod a b = some c ∧ WF c ∧ val c = val a % val b := by
  obtain ⟨c, e, hc, hv⟩ := div_spec ha hb (by omega)
  have hm := wf_mul hc hb
  have hle : val c * val b ≤ val a := by rw [hv]; exact Nat.div_mul_le_self _ _
  have hvm : val (mul c b) = val c * val b := by
    rw [val_mul hc hb]
    exact Nat.mod_eq_of_lt (Nat.lt_of_le_of_lt hle (wf_lt ha))
  refine ⟨sub a (mul c b), by rw [mod, e]; rfl, wf_sub ha hm, ?_⟩
  rw [val_sub_of_le ha hm (by omega), hvm, hv, Nat.mod_eq_sub, Nat.mul_comm]

theorem pow_loop {a : Num} (ha : WF a) : ∀ (n : Nat) (tmp b : Num), WF tmp → WF b → val b = n → ∀ fuel, n < fuel →
    ∃ c z, powLoop a fuel tmp b = some (c, z) ∧ WF c ∧ val z = 0 ∧ val c = val tmp * val a ^ n % 2 ^ 512
  | 0, tmp, b, ht, hb, hv, fuel + 1, _ => by
    refine ⟨tmp, b, ?_, ht, hv, ?_⟩
    · rw [powLoop, if_pos ((isZero_spec b).2 hv)]
    · rw [Nat.pow_zero, Nat.mul_one, Nat.mod_eq_of_lt (wf_lt ht)]
  | n + 1, tmp, b, ht, hb, hv, fuel + 1, hf => by
    obtain ⟨d1, d2⟩ := C97_dec b hb
    have hlt := wf_lt hb
    have d3 : val (dec b) = n := by
      rw [d2, hv, show n + 1 + 2 ^ 512 - 1 = n + 2 ^ 512 by omega, Nat.add_mod_right, Nat.mod_eq_of_lt (by omega)]
    obtain ⟨c, z, e1, e2, e3, e4⟩ := pow_loop ha n (mul tmp a) (dec b) (wf_mul ht ha) d1 d3 fuel (by omega)
    refine ⟨c, z, ?_, e2, e3, ?_⟩
    · rw [powLoop, if_neg (by rw [isZero_spec]; omega)]
      exact e1
    · rw [e4, val_mul ht ha, Nat.mod_mul_mod, Nat.pow_succ]
      congr 1
      ring

/-- C97: powers, modulo 2 ^ 512; as many turns as the exponent says. The exponent itself is used up: afterwards it is zero. -/
theorem C97_pow (a b : Num) (ha : WF a) (hb : WF b) :
    ∃ c z, pow (val b + 1) a b = some (c, z) ∧ WF c ∧ val z = 0 ∧ val c = val a ^ val b % 2 ^ 512 := by
  have hc := cmp_wf hb wf_init
  rw [val_init] at hc
  by_cases h0 : val b = 0
  · have e : Bn.cmp b init = 0 := by rw [hc]; simp [h0]
    refine ⟨inc init, b, by rw [pow, if_pos e], ⟨by rw [inc_length]; rfl, inc_small wf_init.2⟩, h0, ?_⟩
    rw [h0, Nat.pow_zero, val_inc wf_init.2, val_init, wf_init.1, pow16]
  · have e : Bn.cmp b init ≠ 0 := by
      rw [hc]
      split
      · decide
      · split
        · decide
        · omega
    obtain ⟨d1, d2⟩ := C97_dec b hb
    have hlt := wf_lt hb
    have d3 : val (dec b) = val b - 1 := by
      rw [d2, show val b + 2 ^ 512 - 1 = (val b - 1) + 2 ^ 512 by omega, Nat.add_mod_right, Nat.mod_eq_of_lt (by omega)]
    obtain ⟨c, z, e1, e2, e3, e4⟩ := pow_loop ha (val b - 1) a (dec b) ha d1 d3 (val b + 1) (by omega)
    refine ⟨c, z, by rw [pow, if_neg e]; exact e1, e2, e3, ?_⟩
    rw [e4, Nat.mul_comm, ← Nat.pow_succ, Nat.succ_eq_add_one, Nat.sub_add_cancel (by omega)]

example : ∃ c z, pow 4 (fromInt 10) (fromInt 3) = some (c, z) ∧ val c = 1000 ∧ val z = 0 := by
  refine ⟨_, _, rfl, by decide +kernel, by decide +kernel⟩

theorem shr_word {k w v : Nat} (hk : 0 < k) (hk' : k < 32) (hw : w < B) (hv : v < B) :
    ((w >>> k) ||| ((v <<< (32 - k)) % B)) = w / 2 ^ k + 2 ^ (32 - k) * (v % 2 ^ k) := by
  have hB : B = 2 ^ (32 - k) * 2 ^ k := by rw [← Nat.pow_add, Nat.sub_add_cancel (by omega)]; rfl
  rw [Nat.shiftLeft_eq, Nat.shiftRight_eq_div_pow]
  have h1 : v * 2 ^ (32 - k) % B = 2 ^ (32 - k) * (v % 2 ^ k) := by rw [hB, Nat.mul_comm v, Nat.mul_mod_mul_left]
  have h2 : w / 2 ^ k < 2 ^ (32 - k) := by
    rw [Nat.div_lt_iff_lt_mul (Nat.two_pow_pos k), ← hB]
    exact hw
  rw [h1, Nat.or_comm, ← Nat.two_pow_add_eq_or_of_lt h2]
  omega

theorem shrBits_spec {k : Nat} (hk : 0 < k) (hk' : k < 32) (a : Num) (ha : Small a) :
    (shrBits k a).length = a.length ∧ Small (shrBits k a) ∧ val (shrBits k a) = val a / 2 ^ k := by
  have hp := Nat.two_pow_pos k
  have hB : B = 2 ^ (32 - k) * 2 ^ k := by rw [← Nat.pow_add, Nat.sub_add_cancel (by omega)]; rfl
  induction a with
  | nil => simp [shrBits, val]
  | cons w ws ih =>
    cases ws with
    | nil =>
      rw [small_cons] at ha
      simp only [shrBits, small_cons, val, Nat.shiftRight_eq_div_pow, List.length_cons, List.length_nil, Nat.mul_zero, Nat.add_zero]
      exact ⟨trivial, ⟨Nat.lt_of_le_of_lt (Nat.div_le_self _ _) ha.1, small_nil⟩, trivial⟩
    | cons v vs =>
      rw [small_cons] at ha
      obtain ⟨i1, i2, i3⟩ := ih ha.2
      have hv : v < B := (small_cons.1 ha.2).1
      rw [shrBits, shr_word hk hk' ha.1 hv]
      have h2 : w / 2 ^ k < 2 ^ (32 - k) := by
        rw [Nat.div_lt_iff_lt_mul hp, ← hB]
        exact ha.1
      have h3 : v % 2 ^ k + 1 ≤ 2 ^ k := Nat.mod_lt _ hp
      refine ⟨by simp [i1], ?_, ?_⟩
      · rw [small_cons]
        refine ⟨?_, i2⟩
        have := Nat.mul_le_mul_left (2 ^ (32 - k)) h3
        rw [Nat.mul_add, ← hB] at this
        omega
      · rw [val, i3]
        have e1 : val (w :: v :: vs) = w + B * val (v :: vs) := rfl
        have e2 : val (v :: vs) % 2 ^ k = v % 2 ^ k := by
          rw [val, hB, Nat.mul_comm (2 ^ (32 - k)), Nat.mul_assoc, Nat.add_mul_mod_self_left]
        rw [e1, ← e2]
        generalize val (v :: vs) = X
        rw [hB, show 2 ^ (32 - k) * 2 ^ k * X = 2 ^ k * (2 ^ (32 - k) * X) by ring, Nat.add_mul_div_left _ _ hp]
        have e3 := Nat.div_add_mod X (2 ^ k)
        generalize X / 2 ^ k = q at *
        generalize X % 2 ^ k = r at *
        rw [← e3]
        ring

/-- C97: shifting to the right by less than a word. -/
theorem C97_rshift_partial (a : Num) (h : WF a) (k : Nat) (hk : k < 32) :
    ∃ c, rshift a k = .ok c ∧ WF c ∧ val c = val a / 2 ^ k := by
  have h0 : k / 32 = 0 := by omega
  rcases Nat.eq_zero_or_pos k with rfl | hp
  · refine ⟨a, rfl, h, by simp⟩
  · obtain ⟨e1, e2, e3⟩ := shrBits_spec hp hk a h.2
    refine ⟨shrBits k a, ?_, ⟨by rw [e1, h.1], e2⟩, e3⟩
    rw [rshift, h0]
    simp only [ne_eq, not_true_eq_false, if_false, Out.bind, Nat.zero_mul, Nat.sub_zero]
    rw [if_pos (by omega)]

/-- C97 is false of shifts by whole words: 2 ^ 64 shifted by 32 is 0, and from 512 on memory is read that is not the number's. -/
theorem C97_rshift_false :
    (∃ a, WF a ∧ val a = 2 ^ 64 ∧ rshift a 32 = .ok init) ∧ ∀ a k, 512 ≤ k → rshift a k = .ub := by
  refine ⟨⟨[0, 0, 1] ++ List.replicate 13 0, ⟨rfl, ?_⟩, by decide +kernel, by decide⟩, ?_⟩
  · unfold Small
    decide
  · intro a k hk
    rw [rshift, if_pos (by omega), rshiftWord, if_neg (by omega)]
    rfl

/-- C97 is false of the function named after negation: it yields the complement, one less than the negative. -/
theorem C97_neg_false (a : Num) (h : WF a) :
    val (neg a) = 2 ^ 512 - 1 - val a ∧ val (neg a) % 2 ^ 512 ≠ (2 ^ 512 - val a) % 2 ^ 512 := by
  have key : ∀ b : Num, Small b → val (neg b) + val b + 1 = B ^ b.length := by
    intro b hb
    induction b with
    | nil => simp [neg, val]
    | cons w ws ih =>
      rw [small_cons] at hb
      have e := ih hb.2
      simp only [neg, List.map_cons, val, List.length_cons, Nat.pow_succ] at e ⊢
      rw [← e, Nat.mul_comm _ B, Nat.mul_add, Nat.mul_add]
      have := hb.1
      omega
  have k := key a h.2
  rw [h.1, pow16] at k
  have := wf_lt h
  omega

example : WF (fromInt 7) := wf_fromInt 7
example : val (dec (fromInt 0)) = 2 ^ 512 - 1 := by decide +kernel
example : ∃ c, mod (fromInt 17) (fromInt 5) = some c ∧ val c = 2 := by
  obtain ⟨c, h1, _, h2⟩ := C97_mod (fromInt 17) (fromInt 5) (wf_fromInt 17) (wf_fromInt 5) (by decide +kernel)
  exact ⟨c, h1, by rw [h2]; decide +kernel⟩

end Verif.Props.BnMore
