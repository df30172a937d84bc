import Verif.Lemmas.EccOrder
import Verif.Lemmas.EccInv
import Verif.Lemmas.EccMulN
/-
The point routines of src/ecc.c on the curve: each works on reduced numbers, and computes the co-Z formulas.
-/
namespace Verif.Lemmas.EccCurve
open Verif Verif.Model.Ecc Verif.Spec.Ecc Verif.Lemmas.EccVli Verif.Lemmas.EccMod Verif.Lemmas.EccInv
open Verif.Lemmas.EccMulN Verif.Lemmas.EccCoZ Verif.Lemmas.EccOrder WeierstrassCurve.Affine

theorem P_p : P = p := by decide +kernel

attribute [local irreducible] Verif.Spec.Ecc.p

/-- The element of the field a number stands for. -/
def F (v : Vli) : ZMod p := (val v : ZMod p)

/-- The number is reduced and stands for the element `a`. -/
def Is (v : Vli) (a : ZMod p) : Prop := Red v ∧ F v = a

theorem castP : ((P : Nat) : ZMod p) = 0 := by rw [P_p]; exact cast_p

theorem Is.mul {l r : Vli} {a b : ZMod p} (hl : Is l a) (hr : Is r b) : Is (mulP l r) (a * b) := by
  obtain ⟨h1, h2⟩ := mulP_spec hl.1 hr.1
  refine ⟨h1, ?_⟩
  rw [F, h2, P_p, ZMod.natCast_mod, Nat.cast_mul, ← hl.2, ← hr.2]; rfl

theorem Is.sqr {l : Vli} {a : ZMod p} (hl : Is l a) : Is (sqrP l) (a ^ 2) := by
  obtain ⟨h1, h2⟩ := sqrP_spec hl.1
  refine ⟨h1, ?_⟩
  rw [F, h2, P_p, ZMod.natCast_mod, Nat.cast_mul, ← hl.2, pow_two]; rfl

theorem Is.add {l r : Vli} {a b : ZMod p} (hl : Is l a) (hr : Is r b) : Is (addP l r) (a + b) := by
  obtain ⟨h1, h2⟩ := addP_spec hl.1 hr.1
  refine ⟨h1, ?_⟩
  rw [← hl.2, ← hr.2]
  unfold F
  rcases h2 with h | h
  · rw [h, Nat.cast_add]
  · have := congrArg (Nat.cast (R := ZMod p)) h
    rw [Nat.cast_add, Nat.cast_add, castP, add_zero] at this
    exact this

theorem Is.sub {l r : Vli} {a b : ZMod p} (hl : Is l a) (hr : Is r b) : Is (subP l r) (a - b) := by
  obtain ⟨h1, h2⟩ := subP_spec hl.1 hr.1
  refine ⟨h1, ?_⟩
  rw [← hl.2, ← hr.2]
  unfold F
  rcases h2 with h | h
  · have := congrArg (Nat.cast (R := ZMod p)) h
    rw [Nat.cast_add] at this
    linear_combination this
  · have := congrArg (Nat.cast (R := ZMod p)) h
    rw [Nat.cast_add, Nat.cast_add, castP] at this
    linear_combination this

theorem Is.half {v : Vli} {a : ZMod p} (hv : Is v a) : ∃ b, Is (halfP v) b ∧ 2 * b = a := by
  obtain ⟨⟨hl, hr⟩, rfl⟩ := hv
  have hP := P_eq
  refine ⟨F (halfP v), ⟨?_, rfl⟩, ?_⟩
  all_goals
    by_cases hb : testBit v 0 ≠ 0
    · have ho := (testBit_spec v 0).1 hb
      rw [pow_zero, Nat.div_one] at ho
      obtain ⟨a1, a2⟩ := add_spec hl curveP_length
      have a3 := add_length hl curveP_length
      rw [val_curveP] at a1
      obtain ⟨r1, r2⟩ := rshift1_spec (Model.Ecc.add v curveP).1
      have a4 := val_lt4 a3
      have hs : ((Model.Ecc.add v curveP).2 <<< 63).toNat = 2 ^ 63 * (Model.Ecc.add v curveP).2.toNat := by
        rw [UInt64.toNat_shiftLeft]
        generalize (Model.Ecc.add v curveP).2.toNat = c at *
        obtain rfl | rfl : c = 0 ∨ c = 1 := by omega
        · decide
        · decide
      obtain ⟨t1, t2⟩ := orTop_spec (v := rshift1 (Model.Ecc.add v curveP).1) (by omega) (by omega)
        ((Model.Ecc.add v curveP).2 <<< 63) (by omega)
      have hv2 : 2 * val (halfP v) = val v + P := by
        unfold halfP; rw [if_pos hb]; dsimp only; rw [t1, r1, hs]; omega
      have hlen : (halfP v).length = 4 := by
        unfold halfP; rw [if_pos hb]; exact t2
      first
        | exact ⟨hlen, by omega⟩
        | have := congrArg (Nat.cast (R := ZMod p)) hv2
          rw [Nat.cast_add, castP, add_zero, Nat.cast_mul] at this
          unfold F; exact_mod_cast this
    · have ho : val v % 2 = 0 := by
        have := mt (testBit_spec v 0).2 hb
        rw [pow_zero, Nat.div_one] at this; omega
      obtain ⟨r1, r2⟩ := rshift1_spec v
      have hv2 : 2 * val (halfP v) = val v := by
        unfold halfP; rw [if_neg hb, r1]; omega
      have hlen : (halfP v).length = 4 := by
        unfold halfP; rw [if_neg hb, r2, hl]
      first
        | exact ⟨hlen, by omega⟩
        | have := congrArg (Nat.cast (R := ZMod p)) hv2
          rw [Nat.cast_mul] at this
          unfold F; exact_mod_cast this

theorem val_eq_zero {v : Vli} (h : Is v 0) : val v = 0 := by
  by_contra hc
  have h1 := cast_ne (a := val v) (b := 0) (by rw [← P_p]; exact h.1.2) p_pos hc
  rw [Nat.cast_zero] at h1
  exact h1 h.2

theorem Is.inv {v : Vli} {a : ZMod p} (hv : Is v a) : Is (modInv v curveP) a⁻¹ := by
  have hP := P_eq
  by_cases h0 : val v = 0
  · have ha : a = 0 := by rw [← hv.2, F, h0, Nat.cast_zero]
    rw [modInv_zero h0, ha, inv_zero]
    exact ⟨⟨rfl, by rw [P_eq]; decide⟩, by show ((0 : Nat) : ZMod p) = 0; exact Nat.cast_zero⟩
  · have hco : Nat.Coprime (val v) (val curveP) := by
      rw [val_curveP, P_p]
      refine (Nat.Prime.coprime_iff_not_dvd p_prime).2 (fun hd => ?_) |>.symm
      have := Nat.le_of_dvd (by omega) hd
      have := hv.1.2
      rw [P_p] at this; omega
    obtain ⟨h1, h2, h3⟩ := modInv_spec hv.1.1 curveP_length (by rw [val_curveP]; omega) (by rw [val_curveP]; omega) hco
    rw [val_curveP] at h2 h3
    refine ⟨⟨h1, h2⟩, ?_⟩
    have h4 : ((val (modInv v curveP) * val v : Nat) : ZMod p) = ((1 : Nat) : ZMod p) := by
      refine cast_eq ?_
      rw [← P_p, h3, Nat.mod_eq_of_lt (by omega)]
    rw [Nat.cast_mul, Nat.cast_one] at h4
    refine eq_inv_of_mul_eq_one_left ?_
    rw [← hv.2]; exact h4

theorem Is.one : Is [1, 0, 0, 0] 1 := ⟨⟨rfl, by rw [P_eq]; decide⟩, by show ((1 : Nat) : ZMod p) = 1; exact Nat.cast_one⟩

attribute [local irreducible] mulP sqrP addP subP halfP modInv F

/-- The pair of numbers stands for the point `Q`, with the third coordinate `z`. -/
def PtIs (z : ZMod p) (q : Pt) (Q : Point) : Prop := Red q.x ∧ Red q.y ∧ Rep z (F q.x) (F q.y) Q

theorem PtIs.x {z : ZMod p} {q : Pt} {Q : Point} (h : PtIs z q Q) : Is q.x (F q.x) := ⟨h.1, rfl⟩
theorem PtIs.y {z : ZMod p} {q : Pt} {Q : Point} (h : PtIs z q Q) : Is q.y (F q.y) := ⟨h.2.1, rfl⟩

theorem PtIs.mk {z : ZMod p} {q : Pt} {Q : Point} {X Y : ZMod p} (hx : Is q.x X) (hy : Is q.y Y) (h : Rep z X Y Q) :
    PtIs z q Q := ⟨hx.1, hy.1, by rw [hx.2, hy.2]; exact h⟩

theorem xyczAdd_spec {z : ZMod p} {q r : Pt} {A B : Point} (hz : z ≠ 0) (hA : PtIs z q A) (hB : PtIs z r B)
    (h : A ≠ B) (h' : A ≠ -B) :
    z * (F r.x - F q.x) ≠ 0 ∧ PtIs (z * (F r.x - F q.x)) (xyczAdd q r).1 A ∧
    PtIs (z * (F r.x - F q.x)) (xyczAdd q r).2 (A + B) := by
  obtain ⟨c1, c2⟩ := coz_add short hz hA.2.2 hB.2.2 h h'
  have hne := Rep_X_ne hz hA.2.2 hB.2.2 h h'
  have t5 := (hB.x.sub hA.x).sqr
  have x1 := hA.x.mul t5
  have x2 := hB.x.mul t5
  have y2 := hB.y.sub hA.y
  have t5' := (y2.sqr.sub x1).sub x2
  have y1 := hA.y.mul (x2.sub x1)
  have y2' := (y2.mul (x1.sub t5')).sub y1
  exact ⟨mul_ne_zero hz hne, PtIs.mk x1 y1 c1, PtIs.mk t5' y2' c2⟩

theorem xyczAddc_spec {z : ZMod p} {q r : Pt} {A B : Point} (hz : z ≠ 0) (hA : PtIs z q A) (hB : PtIs z r B)
    (h : A ≠ B) (h' : A ≠ -B) :
    z * (F r.x - F q.x) ≠ 0 ∧ PtIs (z * (F r.x - F q.x)) (xyczAddc q r).1 (A - B) ∧
    PtIs (z * (F r.x - F q.x)) (xyczAddc q r).2 (A + B) := by
  obtain ⟨c1, c2⟩ := coz_addc short hz hA.2.2 hB.2.2 h h'
  have hne := Rep_X_ne hz hA.2.2 hB.2.2 h h'
  have t5 := (hB.x.sub hA.x).sqr
  have x1 := hA.x.mul t5
  have x2 := hB.x.mul t5
  have t5' := hB.y.add hA.y
  have y2 := hB.y.sub hA.y
  have y1 := hA.y.mul (x2.sub x1)
  have t6 := x1.add x2
  have x2' := y2.sqr.sub t6
  have y2' := (y2.mul (x1.sub x2')).sub y1
  have t7 := t5'.sqr.sub t6
  have y1' := ((t7.sub x1).mul t5').sub y1
  exact ⟨mul_ne_zero hz hne, PtIs.mk t7 y1' c1, PtIs.mk x2' y2' c2⟩

theorem applyZ_spec {z X Y : ZMod p} {q : Pt} {w : Vli} (hx : Is q.x X) (hy : Is q.y Y) (hw : Is w z) :
    Is (applyZ q w).x (X * z ^ 2) ∧ Is (applyZ q w).y (Y * z ^ 3) := by
  refine ⟨hx.mul hw.sqr, ?_⟩
  have := hy.mul (hw.sqr.mul hw)
  rwa [show z ^ 2 * z = z ^ 3 by ring] at this

/-- The pair of numbers is the point `Q` in affine coordinates. -/
def Affine (q : Pt) (Q : Point) : Prop := Red q.x ∧ Red q.y ∧ ∃ h, Q = Point.some (F q.x) (F q.y) h

/-- ecc_point_double_jacobian, from affine coordinates. -/
theorem double_spec {x y : ZMod p} {q : Pt} (hx : Is q.x x) (hy : Is q.y y) (h : curve.Nonsingular x y) (h0 : y ≠ 0) :
    Is (doubleJacobian q.x q.y [1, 0, 0, 0]).2.2 y ∧
    PtIs y ⟨(doubleJacobian q.x q.y [1, 0, 0, 0]).1, (doubleJacobian q.x q.y [1, 0, 0, 0]).2.1⟩
      (2 • Point.some x y h) := by
  unfold doubleJacobian
  rw [if_neg (by decide)]
  dsimp only
  have o := Is.one
  have t4 := hy.sqr
  have t5 := hx.mul t4
  have t4' := t4.sqr
  have y1 := hy.mul o
  have z1 := o.sqr
  have x1 := hx.add z1
  have z1' := x1.sub (z1.add z1)
  have x1' := x1.mul z1'
  have x1'' := x1'.add (x1'.add x1')
  obtain ⟨b, hb, hb'⟩ := x1''.half
  have z2 := (hb.sqr.sub t5).sub t5
  have t4'' := (hb.mul (t5.sub z2)).sub t4'
  refine ⟨by rwa [mul_one] at y1, PtIs.mk z2 t4'' ?_⟩
  have := coz_double short (h := h) two_ne h0 (b := b) (by rw [hb']; ring)
  rwa [show y ^ 4 = (y ^ 2) ^ 2 by ring] at this

theorem initialDouble_spec {q : Pt} {Q : Point} (hq : Affine q Q) (h0 : F q.y ≠ 0) :
    PtIs (F q.y) (initialDouble q).1 (2 • Q) ∧ PtIs (F q.y) (initialDouble q).2 Q := by
  obtain ⟨hx, hy, h, rfl⟩ := hq
  obtain ⟨a1, a2⟩ := applyZ_spec (q := q) ⟨hx, rfl⟩ ⟨hy, rfl⟩ Is.one
  rw [one_pow, mul_one] at a1 a2
  obtain ⟨d1, d2⟩ := double_spec a1 a2 h h0
  refine ⟨d2, ?_⟩
  obtain ⟨b1, b2⟩ := applyZ_spec (q := q) ⟨hx, rfl⟩ ⟨hy, rfl⟩ d1
  exact PtIs.mk b1 b2 ⟨_, _, h, rfl, rfl, rfl⟩

theorem affine_of_z {z : ZMod p} {q : Pt} {Q : Point} {w : Vli} (hz : z ≠ 0) (hq : PtIs z q Q) (hw : Is w z⁻¹) :
    Affine (applyZ q w) Q := by
  obtain ⟨a1, a2⟩ := applyZ_spec hq.x hq.y hw
  obtain ⟨x, y, h, rfl, hX, hY⟩ := hq.2.2
  have e1 : F (applyZ q w).x = x := by rw [a1.2, hX]; field_simp
  have e2 : F (applyZ q w).y = y := by rw [a2.2, hY]; field_simp
  refine ⟨a1.1, a2.1, by rw [e1, e2]; exact h, ?_⟩
  rw [Point.some.injEq]; exact ⟨e1.symm, e2.symm⟩

end Verif.Lemmas.EccCurve
