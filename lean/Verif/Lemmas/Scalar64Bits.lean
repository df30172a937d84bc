import Verif.Lemmas.Scalar64Ops
import Mathlib.FieldTheory.Finite.Basic
/-
Windows of bits, the shift and the inverse of scalars of four words.
-/
namespace Verif.Lemmas.Scalar64
open Verif Verif.Scalar64 Verif.Spec.Scalar64 Verif.Spec.Secp
open Verif.Field52 (w64 w128 shl_word join)

theorem word_val {a : Sc} (ha : Words a) {i : Nat} (hi : i < 4) : word a i = val a / 2 ^ (64 * i) % 2 ^ 64 := by
  obtain ⟨a0, a1, a2, a3⟩ := a
  obtain ⟨h0, h1, h2, h3⟩ := ha
  simp only at h0 h1 h2 h3
  have h4 : i = 0 ∨ i = 1 ∨ i = 2 ∨ i = 3 := by omega
  unfold val
  rcases h4 with rfl | rfl | rfl | rfl <;>
    simp only [word, List.getD_cons_zero, List.getD_cons_succ, Nat.mul_zero, Nat.pow_zero, Nat.div_one, Nat.reduceMul] <;> omega

theorem offset_parts (o : Nat) : o >>> 6 = o / 64 ∧ o &&& 0x3F = o % 64 := by
  constructor
  · rw [Nat.shiftRight_eq_div_pow]
  · rw [show (0x3F : Nat) = 2 ^ 6 - 1 from rfl, Nat.and_two_pow_sub_one_eq_mod]

theorem mask_eq {c : Nat} (hc : c < 64) : w64 (1 <<< c) - 1 = 2 ^ c - 1 := by
  rw [Nat.shiftLeft_eq, Nat.one_mul, w64, Nat.mod_eq_of_lt (Nat.pow_lt_pow_right (by decide) hc)]

theorem mod32 {x c : Nat} (hc : c ≤ 32) : x % 2 ^ c % 2 ^ 32 = x % 2 ^ c :=
  Nat.mod_eq_of_lt ((Nat.mod_lt _ (Nat.two_pow_pos c)).trans_le (Nat.pow_le_pow_right (by decide) hc))

/-- The bits of a window within one word. -/
theorem window {v r c : Nat} (h : r + c ≤ 64) : v % 2 ^ 64 / 2 ^ r % 2 ^ c = v / 2 ^ r % 2 ^ c := by
  obtain ⟨k, hk⟩ := Nat.exists_eq_add_of_le h
  rw [show (64 : Nat) = r + (c + k) by omega, Nat.pow_add 2 r, Nat.mod_mul_right_div_self,
    Nat.mod_mod_of_dvd _ (Nat.pow_dvd_pow 2 (by omega : c ≤ c + k))]

theorem getBits_val {a : Sc} (ha : Words a) {o c : Nat} (h1 : 0 < c) (hc : c ≤ 32) (ho : o + c ≤ 256) (hs : (o + c - 1) / 64 = o / 64) :
    getBits a o c = val a / 2 ^ o % 2 ^ c := by
  obtain ⟨e1, e2⟩ := offset_parts o
  rw [getBits, e1, e2, mask_eq (by omega), Nat.and_two_pow_sub_one_eq_mod, mod32 hc, Nat.shiftRight_eq_div_pow, word_val ha (by omega),
    window (by omega), Nat.div_div_eq_div_mul, ← Nat.pow_add, show 64 * (o / 64) + o % 64 = o by omega]

/-- The bits of a window over two words. -/
theorem window2 {v r : Nat} (h : r < 64) : v % 2 ^ 64 / 2 ^ r + v / 2 ^ 64 % 2 ^ r * 2 ^ (64 - r) = v / 2 ^ r % 2 ^ 64 := by
  have hB : (2 : Nat) ^ 64 = 2 ^ r * 2 ^ (64 - r) := by rw [← Nat.pow_add]; congr 1; omega
  rw [hB, Nat.mod_mul_right_div_self, Nat.mul_comm (2 ^ r) (2 ^ (64 - r)), Nat.mod_mul, ← Nat.div_div_eq_div_mul, Nat.div_div_eq_div_mul,
    Nat.mul_comm (2 ^ (64 - r)) (2 ^ r), ← Nat.div_div_eq_div_mul, Nat.mul_comm (2 ^ (64 - r))]

theorem getBitsVar_val {a : Sc} (ha : Words a) {o c : Nat} (h1 : 0 < c) (hc : c ≤ 32) (ho : o + c ≤ 256) :
    getBitsVar a o c = val a / 2 ^ o % 2 ^ c := by
  obtain ⟨e1, e2⟩ := offset_parts o
  rw [getBitsVar, (offset_parts (o + c - 1)).1, e1, e2]
  split
  · rename_i h; exact getBits_val ha h1 hc ho h
  · rename_i h
    have hlt : val a / 2 ^ (64 * (o / 64)) % 2 ^ 64 / 2 ^ (o % 64) < 2 ^ (64 - o % 64) := by
      rw [Nat.div_lt_iff_lt_mul (Nat.two_pow_pos _), ← Nat.pow_add, show 64 - o % 64 + o % 64 = 64 by omega]
      exact Nat.mod_lt _ (Nat.two_pow_pos _)
    rw [mask_eq (by omega), Nat.and_two_pow_sub_one_eq_mod, mod32 hc, Nat.shiftRight_eq_div_pow, word_val ha (by omega), word_val ha (by omega),
      shl_word (by omega), show 64 - (64 - o % 64) = o % 64 by omega, join _ _ _ hlt,
      show 64 * (o / 64 + 1) = 64 * (o / 64) + 64 by omega, Nat.pow_add, ← Nat.div_div_eq_div_mul,
      Nat.mod_mod_of_dvd _ (Nat.pow_dvd_pow 2 (by omega : o % 64 ≤ 64)), window2 (by omega),
      Nat.mod_mod_of_dvd _ (Nat.pow_dvd_pow 2 (by omega : c ≤ 64)), Nat.div_div_eq_div_mul, ← Nat.pow_add,
      show 64 * (o / 64) + o % 64 = o by omega]

theorem shift_word {x y k : Nat} (hk : k ≤ 64) (hx : x < 2 ^ 64) :
    w64 (x >>> k + w64 (y <<< (64 - k))) = x / 2 ^ k + y % 2 ^ k * 2 ^ (64 - k) ∧ x / 2 ^ k + y % 2 ^ k * 2 ^ (64 - k) < 2 ^ 64 := by
  have hB : (2 : Nat) ^ 64 = 2 ^ k * 2 ^ (64 - k) := by rw [← Nat.pow_add]; congr 1; omega
  have hlt : x / 2 ^ k + y % 2 ^ k * 2 ^ (64 - k) < 2 ^ 64 := by
    have h1 : x / 2 ^ k < 2 ^ (64 - k) := by
      rw [Nat.div_lt_iff_lt_mul (Nat.two_pow_pos _), Nat.mul_comm, ← hB]; exact hx
    have h2 : y % 2 ^ k + 1 ≤ 2 ^ k := Nat.mod_lt _ (Nat.two_pow_pos k)
    have h3 := Nat.mul_le_mul_right (2 ^ (64 - k)) h2
    rw [← hB, Nat.add_mul, Nat.one_mul] at h3
    omega
  refine ⟨?_, hlt⟩
  rw [shl_word (by omega), show 64 - (64 - k) = k by omega, Nat.shiftRight_eq_div_pow, w64, Nat.mod_eq_of_lt hlt]

theorem shift_sum {d0 d1 d2 d3 P Q : Nat} :
    ((d0 / P + d1 % P * Q) + (d1 / P + d2 % P * Q) * (P * Q) + (d2 / P + d3 % P * Q) * (P * Q) ^ 2 + d3 / P * (P * Q) ^ 3) * P + d0 % P =
      d0 + d1 * (P * Q) + d2 * (P * Q) ^ 2 + d3 * (P * Q) ^ 3 := by
  have a0 := Nat.div_add_mod d0 P
  have a1 := Nat.div_add_mod d1 P
  have a2 := Nat.div_add_mod d2 P
  have a3 := Nat.div_add_mod d3 P
  generalize d0 / P = q0 at *
  generalize d1 / P = q1 at *
  generalize d2 / P = q2 at *
  generalize d3 / P = q3 at *
  generalize d0 % P = r0 at *
  generalize d1 % P = r1 at *
  generalize d2 % P = r2 at *
  generalize d3 % P = r3 at *
  subst a0 a1 a2 a3
  ring

theorem shrInt_val {r : Sc} (hr : Words r) {k : Nat} (hk : k ≤ 32) :
    Words (shrInt r k).1 ∧ val (shrInt r k).1 = val r / 2 ^ k ∧ (shrInt r k).2 = val r % 2 ^ k := by
  obtain ⟨d0, d1, d2, d3⟩ := r
  obtain ⟨h0, h1, h2, h3⟩ := hr
  simp only at h0 h1 h2 h3
  obtain ⟨e0, l0⟩ := shift_word (y := d1) (by omega : k ≤ 64) h0
  obtain ⟨e1, l1⟩ := shift_word (y := d2) (by omega : k ≤ 64) h1
  obtain ⟨e2, l2⟩ := shift_word (y := d3) (by omega : k ≤ 64) h2
  have hB : (2 : Nat) ^ 64 = 2 ^ k * 2 ^ (64 - k) := by rw [← Nat.pow_add]; congr 1; omega
  have hs := shift_sum (d0 := d0) (d1 := d1) (d2 := d2) (d3 := d3) (P := 2 ^ k) (Q := 2 ^ (64 - k))
  rw [← hB, ← Nat.pow_mul, ← Nat.pow_mul] at hs
  have hl : d0 % 2 ^ k < 2 ^ k := Nat.mod_lt _ (Nat.two_pow_pos k)
  have hm : d0 &&& (1 <<< k - 1) = d0 % 2 ^ k := by rw [Nat.shiftLeft_eq, Nat.one_mul, Nat.and_two_pow_sub_one_eq_mod]
  unfold shrInt
  simp only [e0, e1, e2, hm]
  rw [Nat.shiftRight_eq_div_pow]
  have hv : val ⟨d0, d1, d2, d3⟩ = val ⟨d0 / 2 ^ k + d1 % 2 ^ k * 2 ^ (64 - k), d1 / 2 ^ k + d2 % 2 ^ k * 2 ^ (64 - k),
      d2 / 2 ^ k + d3 % 2 ^ k * 2 ^ (64 - k), d3 / 2 ^ k⟩ * 2 ^ k + d0 % 2 ^ k := hs.symm
  refine ⟨⟨l0, l1, l2, (Nat.div_le_self _ _).trans_lt h3⟩, ?_, ?_⟩
  · rw [hv, Nat.add_comm (_ * 2 ^ k), Nat.add_mul_div_right _ _ (Nat.two_pow_pos k), Nat.div_eq_of_lt hl, Nat.zero_add]
  · rw [hv, Nat.add_comm (_ * 2 ^ k), Nat.add_mul_mod_self_right, Nat.mod_mod]

/-! ### The inverse -/

instance : Fact (Nat.Prime n) := ⟨Verif.Lemmas.SecpOrder.n_prime⟩

/-- The words are the power `e` of `x`. -/
def Pw (x : ZMod n) (a : Sc) (e : Nat) : Prop := Holds a (x ^ e)

theorem Pw.mul {x : ZMod n} {a b : Sc} {e f : Nat} (ha : Pw x a e) (hb : Pw x b f) : Pw x (mul a b) (e + f) := by
  have := holds_mul ha hb
  rwa [← pow_add] at this

theorem Pw.sqr {x : ZMod n} {a : Sc} {e : Nat} (ha : Pw x a e) : Pw x (sqr a) (2 * e) := by
  have := holds_sqr ha
  rwa [← pow_add, ← two_mul] at this

theorem repeat_inv {α : Type} {P : α → Nat → Prop} {f : α → α} (hf : ∀ {a e}, P a e → P (f a) (2 * e)) (k : Nat) {a : α} {e : Nat} (h : P a e) :
    P (Nat.repeat f k a) (2 ^ k * e) := by
  induction k with
  | zero => rw [Nat.pow_zero, Nat.one_mul]; exact h
  | succ k ih =>
    have := hf ih
    rw [← Nat.mul_assoc, Nat.mul_comm 2, ← Nat.pow_succ] at this
    exact this

theorem Pw.sqrs {x : ZMod n} (k : Nat) {a : Sc} {e : Nat} (h : Pw x a e) : Pw x (sqrs k a) (2 ^ k * e) := by
  unfold Scalar64.sqrs
  exact repeat_inv (P := Pw x) Pw.sqr k h

theorem Pw.to {x : ZMod n} {a : Sc} {e f : Nat} (h : Pw x a e) (hf : e = f) : Pw x a f := hf ▸ h

theorem inv_start {x : Sc} {z : ZMod n} (h : Pw z x 1) {u5 u9 u11 u13 x2 x3 x6 x8 x126 : Sc}
    (hs : invStart x = (u5, u9, u11, u13, x2, x3, x6, x8, x126)) : Pw z u5 5 ∧ Pw z u9 9 ∧ Pw z u11 11 ∧ Pw z u13 13 ∧ Pw z x2 3 ∧ Pw z x3 7 ∧
      Pw z x6 63 ∧ Pw z x8 255 ∧ Pw z x126 (2 ^ 126 - 1) := by
  unfold invStart at hs
  extract_lets -merge U2 X2 U5 X3 U9 U11 U13 X6 X8 X14 X28 X56 X112 X126 at hs
  have g2 : Pw z U2 2 := h.sqr
  have gx2 : Pw z X2 3 := g2.mul h
  have g5 : Pw z U5 5 := g2.mul gx2
  have gx3 : Pw z X3 7 := g5.mul g2
  have g9 : Pw z U9 9 := gx3.mul g2
  have g11 : Pw z U11 11 := g9.mul g2
  have g13 : Pw z U13 13 := g11.mul g2
  have gx6 : Pw z X6 63 := (g13.sqr.sqr.mul g11).to (by norm_num)
  have gx8 : Pw z X8 255 := (gx6.sqr.sqr.mul gx2).to (by norm_num)
  have gx14 : Pw z X14 (2 ^ 14 - 1) := ((gx8.sqr.sqrs 5).mul gx6).to (by norm_num)
  have gx28 : Pw z X28 (2 ^ 28 - 1) := ((gx14.sqr.sqrs 13).mul gx14).to (by norm_num)
  have gx56 : Pw z X56 (2 ^ 56 - 1) := ((gx28.sqr.sqrs 27).mul gx28).to (by norm_num)
  have gx112 : Pw z X112 (2 ^ 112 - 1) := ((gx56.sqr.sqrs 55).mul gx56).to (by norm_num)
  have gx126 : Pw z X126 (2 ^ 126 - 1) := ((gx112.sqr.sqrs 13).mul gx14).to (by norm_num)
  simp only [Prod.mk.injEq] at hs
  obtain ⟨rfl, rfl, rfl, rfl, rfl, rfl, rfl, rfl, rfl⟩ := hs
  exact ⟨g5, g9, g11, g13, gx2, gx3, gx6, gx8, gx126⟩

theorem inverse_pow {x : Sc} {z : ZMod n} (h : Pw z x 1) : Pw z (inverse x) (n - 2) := by
  obtain ⟨u5, u9, u11, u13, x2, x3, x6, x8, x126, hs⟩ : ∃ u5 u9 u11 u13 x2 x3 x6 x8 x126, invStart x = (u5, u9, u11, u13, x2, x3, x6, x8, x126) :=
    ⟨_, _, _, _, _, _, _, _, _, rfl⟩
  obtain ⟨g5, g9, g11, g13, gx2, gx3, gx6, gx8, g⟩ := inv_start h hs
  unfold inverse
  rw [hs]
  have t := (g.sqrs 3).mul g5
  replace t := (t.sqrs 4).mul gx3
  replace t := (t.sqrs 4).mul g5
  replace t := (t.sqrs 5).mul g11
  replace t := (t.sqrs 4).mul g11
  replace t := (t.sqrs 4).mul gx3
  replace t := (t.sqrs 5).mul gx3
  replace t := (t.sqrs 6).mul g13
  replace t := (t.sqrs 4).mul g5
  replace t := (t.sqrs 3).mul gx3
  replace t := (t.sqrs 5).mul g9
  replace t := (t.sqrs 6).mul g5
  replace t := (t.sqrs 10).mul gx3
  replace t := (t.sqrs 4).mul gx3
  replace t := (t.sqrs 9).mul gx8
  replace t := (t.sqrs 5).mul g9
  replace t := (t.sqrs 6).mul g11
  replace t := (t.sqrs 4).mul g13
  replace t := (t.sqrs 5).mul gx2
  replace t := (t.sqrs 6).mul g13
  replace t := (t.sqrs 10).mul g13
  replace t := (t.sqrs 4).mul g9
  replace t := (t.sqrs 6).mul h
  exact ((t.sqrs 8).mul gx6).to (by decide +kernel)

theorem holds_inverse {a : Sc} {x : ZMod n} (h : Holds a x) : Holds (inverse a) x⁻¹ := by
  have h1 : Pw x a 1 := by unfold Pw; rwa [pow_one]
  have hp := inverse_pow h1
  have e : x ^ (n - 2) = x⁻¹ := by
    have h2 : n - 2 ≠ 0 := by decide +kernel
    by_cases hx : x = 0
    · rw [hx, inv_zero, zero_pow h2]
    · apply eq_inv_of_mul_eq_one_left
      rw [← pow_succ, show n - 2 + 1 = n - 1 by decide +kernel]
      exact ZMod.pow_card_sub_one_eq_one hx
  unfold Pw at hp
  rwa [e] at hp

end Verif.Lemmas.Scalar64
