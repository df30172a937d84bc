import Verif.Lemmas.EccCurve
/-
ecc_point_mult computes multiples of the base point, for factors from 2 to n - 2; what it computes for the factors
0, 1 and n - 1.
-/
namespace Verif.Lemmas.EccLadder
open Verif Verif.Model.Ecc Verif.Spec.Ecc Verif.Lemmas.EccVli Verif.Lemmas.EccMod Verif.Lemmas.EccInv
open Verif.Lemmas.EccMulN Verif.Lemmas.EccCoZ Verif.Lemmas.EccOrder Verif.Lemmas.EccCurve WeierstrassCurve.Affine

theorem n_eq : n = 115792089210356248762697446949407573529996955224135760342422259061068512044369 := by decide +kernel

theorem val_gx : val curveG.x = gx := by decide +kernel
theorem val_gy : val curveG.y = gy := by decide +kernel
theorem gx_pos : gx ≠ 0 := by decide +kernel
theorem gy_pos : gy ≠ 0 := by decide +kernel

theorem G_affine : Affine curveG G := by
  refine ⟨⟨rfl, by rw [val_gx, P_p]; exact gx_lt⟩, ⟨rfl, by rw [val_gy, P_p]; exact gy_lt⟩, ?_⟩
  have h1 : F curveG.x = (gx : ZMod p) := by rw [F, val_gx]
  have h2 : F curveG.y = (gy : ZMod p) := by rw [F, val_gy]
  rw [h1, h2]
  exact ⟨g_on_curve, rfl⟩

theorem Gx_ne : F curveG.x ≠ 0 := by
  have := cast_ne gx_lt p_pos gx_pos
  rw [F, val_gx]; rwa [Nat.cast_zero] at this

theorem Gy_ne : F curveG.y ≠ 0 := by
  have := cast_ne gy_lt p_pos gy_pos
  rw [F, val_gy]; rwa [Nat.cast_zero] at this

attribute [local irreducible] Verif.Spec.Ecc.p Verif.Spec.Ecc.n Verif.Spec.Ecc.G curve mulP sqrP addP subP halfP modInv F
  xyczAdd xyczAddc applyZ

theorem nz {k : Nat} (h : 0 < k) (h' : k < n) : k • G ≠ 0 := by
  intro e
  have := (nsmul_eq_zero k).1 e
  rw [Nat.mod_eq_of_lt h'] at this; omega

theorem succ_ne (m : Nat) : (m + 1) • G ≠ m • G := by
  intro e; rw [succ_nsmul, add_eq_left] at e; exact G_ne e

theorem succ_ne_neg {m : Nat} (h : 2 * m + 1 < n) : (m + 1) • G ≠ -(m • G) := by
  intro e
  have : (2 * m + 1) • G = 0 := by
    rw [show 2 * m + 1 = (m + 1) + m by omega, add_nsmul, e, neg_add_cancel]
  exact nz (by omega) h this

theorem sum_eq (m : Nat) : (m + 1) • G + m • G = (2 * m + 1) • G := by
  rw [← add_nsmul]; congr 1; omega

theorem odd_ne {m : Nat} (h1 : 1 ≤ m) (h : 2 * m + 2 < n) : (2 * m + 1) • G ≠ G := by
  intro e
  rw [succ_nsmul, add_eq_right] at e
  exact nz (by omega) (by omega) e

theorem odd_ne_neg {m : Nat} (h : 2 * m + 2 < n) : (2 * m + 1) • G ≠ -G := by
  intro e
  have : (2 * m + 2) • G = 0 := by rw [succ_nsmul, e, neg_add_cancel]
  exact nz (by omega) h this

theorem diff_eq (m : Nat) : (m + 1) • G - m • G = G := by rw [succ_nsmul, add_sub_cancel_left]

theorem step_one {z : ZMod p} {q r : Pt} {m : Nat} (hz : z ≠ 0) (h0 : PtIs z q (m • G)) (h1 : PtIs z r ((m + 1) • G))
    (hm : 2 * m + 1 < n) : z * (F q.x - F r.x) ≠ 0 ∧ PtIs (z * (F q.x - F r.x)) (xyczAddc r q).1 G ∧
    PtIs (z * (F q.x - F r.x)) (xyczAddc r q).2 ((2 * m + 1) • G) := by
  have := xyczAddc_spec hz h1 h0 (succ_ne m) (succ_ne_neg hm)
  rwa [diff_eq, sum_eq] at this

theorem step_zero {z : ZMod p} {q r : Pt} {m : Nat} (hz : z ≠ 0) (h0 : PtIs z q (m • G)) (h1 : PtIs z r ((m + 1) • G))
    (hm : 2 * m + 1 < n) : z * (F r.x - F q.x) ≠ 0 ∧ PtIs (z * (F r.x - F q.x)) (xyczAddc q r).1 (-G) ∧
    PtIs (z * (F r.x - F q.x)) (xyczAddc q r).2 ((2 * m + 1) • G) := by
  have := xyczAddc_spec hz h0 h1 (succ_ne m).symm (fun e => succ_ne_neg hm (by rw [e, neg_neg]))
  have e1 : m • G - (m + 1) • G = -G := by rw [← neg_sub, diff_eq]
  have e2 : m • G + (m + 1) • G = (2 * m + 1) • G := by rw [add_comm, sum_eq]
  rwa [e1, e2] at this

/-- `r` is `m` and `m + 1` times the base point, with a common third coordinate. -/
def Pair (m : Nat) (r : Pt × Pt) : Prop := ∃ z, z ≠ 0 ∧ PtIs z r.1 (m • G) ∧ PtIs z r.2 ((m + 1) • G)

theorem ladderStep_spec {v : Vli} {i m : Nat} {r : Pt × Pt} (h : Pair m r) (h1 : 1 ≤ m) (h2 : 2 * m + 2 < n) :
    Pair (2 * m + val v / 2 ^ i % 2) (ladderStep v i r) := by
  obtain ⟨z, hz, hp, hq⟩ := h
  unfold ladderStep
  by_cases hb : testBit v i ≠ 0
  · rw [if_pos hb, (testBit_spec v i).1 hb]
    obtain ⟨s1, s2, s3⟩ := step_one hz hp hq (by omega)
    obtain ⟨t1, t2, t3⟩ := xyczAdd_spec s1 s3 s2 (odd_ne h1 h2) (odd_ne_neg h2)
    exact ⟨_, t1, t2, by rw [succ_nsmul]; exact t3⟩
  · rw [if_neg hb]
    have hb' : val v / 2 ^ i % 2 = 0 := by
      have := mt (testBit_spec v i).2 hb; omega
    rw [hb', add_zero]
    obtain ⟨s1, s2, s3⟩ := step_zero hz hp hq (by omega)
    obtain ⟨t1, t2, t3⟩ := xyczAdd_spec s1 s3 s2 (odd_ne_neg h2) (by rw [neg_neg]; exact odd_ne h1 h2)
    refine ⟨_, t1, ?_, t2⟩
    have e : (2 * m + 1) • G + -G = (2 * m) • G := by rw [succ_nsmul, add_neg_cancel_right]
    rwa [e] at t3

theorem ladder_spec {v : Vli} (hk : val v < n) (i : Nat) (r : Pt × Pt) (hi : 2 ^ (i + 1) ≤ val v)
    (h : Pair (val v / 2 ^ (i + 1)) r) : Pair (val v / 2) (ladder v i r) := by
  have hn := n_eq
  induction i generalizing r with
  | zero => rwa [zero_add, pow_one] at h
  | succ i ih =>
    rw [ladder]
    have hp : 2 ^ (i + 1 + 1) = 2 ^ (i + 1) * 2 := pow_succ 2 (i + 1)
    have hp' : 2 ^ (i + 1) = 2 ^ i * 2 := pow_succ 2 i
    have h0 : 0 < 2 ^ i := Nat.pow_pos (by omega)
    refine ih _ (by omega) ?_
    have e : val v / 2 ^ (i + 1) = 2 * (val v / 2 ^ (i + 1 + 1)) + val v / 2 ^ (i + 1) % 2 := by
      rw [hp, ← Nat.div_div_eq_div_mul]; omega
    have hb : val v / 2 ^ (i + 1) ≤ val v / 2 := by
      rw [hp', Nat.mul_comm, ← Nat.div_div_eq_div_mul]; exact Nat.div_le_self _ _
    rw [e]
    have hm : 1 ≤ val v / 2 ^ (i + 1 + 1) := (Nat.one_le_div_iff (by omega)).2 hi
    refine ladderStep_spec h hm ?_
    omega

theorem finish_spec {v : Vli} {m : Nat} {r : Pt × Pt} (h : Pair m r) (h1 : 1 ≤ m) (h2 : 2 * m + 2 < n) :
    Affine (finish curveG v r) ((2 * m + val v % 2) • G) := by
  obtain ⟨z, hz, hp, hq⟩ := h
  have hG := G_affine
  obtain ⟨gx1, gy1, hg, hGe⟩ := hG
  have Gx := Gx_ne
  have Gy := Gy_ne
  unfold finish
  by_cases hb : testBit v 0 ≠ 0
  · have hb' := (testBit_spec v 0).1 hb
    rw [pow_zero, Nat.div_one] at hb'
    rw [hb']
    simp only [if_pos hb]
    obtain ⟨s1, s2, s3⟩ := step_one hz hp hq (by omega)
    obtain ⟨t1, t2, t3⟩ := xyczAdd_spec s1 s3 s2 (odd_ne h1 h2) (odd_ne_neg h2)
    generalize z * (F r.1.x - F r.2.x) = z1 at *
    have i1 := ((((((s2.x.sub s3.x).mul s2.y).mul ⟨gx1, rfl⟩).inv).mul ⟨gy1, rfl⟩)).mul s2.x
    refine affine_of_z t1 t2 ?_
    generalize xyczAddc r.2 r.1 = c at *
    obtain ⟨x, y, hh, e1, e2, e3⟩ := s2.2.2
    rw [hGe, Point.some.injEq] at e1
    obtain ⟨rfl, rfl⟩ := e1
    convert i1 using 1
    have hd : F c.1.x - F c.2.x ≠ 0 := right_ne_zero_of_mul t1
    generalize F c.1.x - F c.2.x = d at *
    rw [e2, e3]
    field_simp
  · have hb' : val v % 2 = 0 := by
      have := mt (testBit_spec v 0).2 hb
      rw [pow_zero, Nat.div_one] at this; omega
    rw [hb', add_zero]
    simp only [if_neg hb]
    obtain ⟨s1, s2, s3⟩ := step_zero hz hp hq (by omega)
    obtain ⟨t1, t2, t3⟩ := xyczAdd_spec s1 s3 s2 (odd_ne_neg h2) (by rw [neg_neg]; exact odd_ne h1 h2)
    have e : (2 * m + 1) • G + -G = (2 * m) • G := by rw [succ_nsmul, add_neg_cancel_right]
    rw [e] at t3
    generalize z * (F r.2.x - F r.1.x) = z1 at *
    have i1 := ((((((s3.x.sub s2.x).mul s2.y).mul ⟨gx1, rfl⟩).inv).mul ⟨gy1, rfl⟩)).mul s2.x
    refine affine_of_z t1 t3 ?_
    generalize xyczAddc r.1 r.2 = c at *
    obtain ⟨x, y, hh, e1, e2, e3⟩ := s2.2.2
    rw [hGe, Point.neg_some, Point.some.injEq] at e1
    obtain ⟨rfl, rfl⟩ := e1
    have e4 : curve.negY (F curveG.x) (F curveG.y) = -F curveG.y := by rw [negY, short.a1, short.a3]; ring
    rw [e4] at e3
    convert i1 using 1
    have hd : F c.1.x - F c.2.x ≠ 0 := right_ne_zero_of_mul t1
    have hd' : F c.2.x - F c.1.x = -(F c.1.x - F c.2.x) := by ring
    rw [hd']
    generalize F c.1.x - F c.2.x = d at *
    rw [e2, e3]
    field_simp

/-- The last step where it meets the point at infinity. -/
theorem finish_top {v : Vli} {m : Nat} {r : Pt × Pt} (h : Pair m r) (hb : val v % 2 = 0) (h2 : 2 * m + 1 = n) :
    Is (finish curveG v r).x 0 ∧ Is (finish curveG v r).y 0 := by
  obtain ⟨z, hz, hp, hq⟩ := h
  have hG := G_affine
  obtain ⟨gx1, gy1, hg, hGe⟩ := hG
  have hneg : (m + 1) • G = -(m • G) := by
    have : (m + 1) • G + m • G = 0 := by rw [sum_eq, h2, n_nsmul]
    exact eq_neg_of_add_eq_zero_left this
  have hb' : ¬ testBit v 0 ≠ 0 := by
    intro hc
    have := (testBit_spec v 0).1 hc
    rw [pow_zero, Nat.div_one] at this; omega
  have hX : F r.2.x = F r.1.x ∧ F r.2.y = -F r.1.y := by
    obtain ⟨x, y, hh, e1, e2, e3⟩ := hp.2.2
    obtain ⟨x', y', hh', e1', e2', e3'⟩ := hq.2.2
    rw [hneg, e1, Point.neg_some, Point.some.injEq, negY, short.a1, short.a3] at e1'
    obtain ⟨rfl, rfl⟩ := e1'
    rw [e2, e3, e2', e3']
    exact ⟨rfl, by ring⟩
  have hc1 : Is (xyczAddc r.1 r.2).1.y 0 := by
    have t5 := (hq.x.sub hp.x).sqr
    have x1 := hp.x.mul t5
    have x2 := hq.x.mul t5
    have t5' := hq.y.add hp.y
    have y1 := hp.y.mul (x2.sub x1)
    have t6 := x1.add x2
    have t7 := t5'.sqr.sub t6
    have y1' := ((t7.sub x1).mul t5').sub y1
    rw [hX.1, hX.2] at y1'
    unfold xyczAddc
    refine ⟨y1'.1, y1'.2.trans ?_⟩
    ring
  have hcx : ∃ a, Is (xyczAddc r.1 r.2).1.x a ∧ ∃ b c, Is (xyczAddc r.1 r.2).2.x b ∧ Is (xyczAddc r.1 r.2).2.y c := by
    have t5 := (hq.x.sub hp.x).sqr
    have x1 := hp.x.mul t5
    have x2 := hq.x.mul t5
    have t5' := hq.y.add hp.y
    have y2 := hq.y.sub hp.y
    have y1 := hp.y.mul (x2.sub x1)
    have t6 := x1.add x2
    have x2' := y2.sqr.sub t6
    have y2' := (y2.mul (x1.sub x2')).sub y1
    have t7 := t5'.sqr.sub t6
    unfold xyczAddc
    exact ⟨_, t7, _, _, x2', y2'⟩
  obtain ⟨a, ha, b, c, hb2, hc2⟩ := hcx
  unfold finish
  simp only [if_neg hb']
  have i1 := ((((((hb2.sub ha).mul hc1).mul ⟨gx1, rfl⟩).inv).mul ⟨gy1, rfl⟩)).mul ha
  generalize xyczAddc r.1 r.2 = d at *
  have r0 : ∃ u w, Is (xyczAdd d.2 d.1).2.x u ∧ Is (xyczAdd d.2 d.1).2.y w := by
    have t5 := (ha.sub hb2).sqr
    have x1 := hb2.mul t5
    have x2 := ha.mul t5
    have y2 := hc1.sub hc2
    have t5' := (y2.sqr.sub x1).sub x2
    have y1 := hc2.mul (x2.sub x1)
    have y2' := (y2.mul (x1.sub t5')).sub y1
    unfold xyczAdd
    exact ⟨_, _, t5', y2'⟩
  obtain ⟨u, w, hu, hw⟩ := r0
  obtain ⟨f1, f2⟩ := applyZ_spec hu hw i1
  simp only [mul_zero, zero_mul, inv_zero] at f1 f2
  rw [zero_pow (by norm_num), mul_zero] at f1 f2
  exact ⟨f1, f2⟩

theorem pair_start : Pair 1 ((initialDouble curveG).2, (initialDouble curveG).1) := by
  obtain ⟨h1, h2⟩ := initialDouble_spec G_affine Gy_ne
  exact ⟨_, Gy_ne, by rw [one_nsmul]; exact h2, h1⟩

theorem pair_ladder {v : Vli} (hl : v.length = 4) (h2 : 2 ≤ val v) (h : val v < n) :
    Pair (val v / 2) (ladder v (numBits v - 2) ((initialDouble curveG).2, (initialDouble curveG).1)) := by
  obtain ⟨b1, b2, b3⟩ := numBits_spec (v := v) (by omega)
  rw [List.take_of_length_le (by omega)] at b1 b3
  have hb : 2 ≤ numBits v := by
    by_contra hc
    obtain h | h : numBits v = 0 ∨ numBits v = 1 := by omega
    · rw [h, pow_zero] at b1; omega
    · rw [h, pow_one] at b1; omega
  have e : numBits v - 2 + 1 = numBits v - 1 := by omega
  have hp : 2 ^ numBits v = 2 ^ (numBits v - 1) * 2 := by
    rw [← pow_succ]; congr 1; omega
  have b4 := b3 (by omega)
  have h0 : 0 < 2 ^ (numBits v - 1) := Nat.pow_pos (by omega)
  refine ladder_spec h _ _ (by rw [e]; exact b4) ?_
  have e1 : val v / 2 ^ (numBits v - 2 + 1) = 1 := by
    rw [e]
    apply Nat.div_eq_of_lt_le
    · omega
    · omega
  rw [e1]; exact pair_start

theorem pointMult_spec {v : Vli} (hl : v.length = 4) (h2 : 2 ≤ val v) (h : val v + 1 < n) :
    Affine (pointMult curveG v) (val v • G) := by
  have hn := n_eq
  have := finish_spec (v := v) (pair_ladder hl h2 (by omega)) (by omega) (by omega)
  rwa [show 2 * (val v / 2) + val v % 2 = val v by omega] at this

theorem pointMult_top {v : Vli} (hl : v.length = 4) (h : val v + 1 = n) :
    Is (pointMult curveG v).x 0 ∧ Is (pointMult curveG v).y 0 := by
  have hn := n_eq
  exact finish_top (pair_ladder hl (by omega) (by omega)) (by omega) (by omega)

theorem pointMult_small {v : Vli} (hl : v.length = 4) (h : val v < 2) :
    Affine (pointMult curveG v) ((2 + val v) • G) := by
  have hn := n_eq
  obtain ⟨b1, b2, b3⟩ := numBits_spec (v := v) (by omega)
  rw [List.take_of_length_le (by omega)] at b1 b3
  have hb : numBits v - 2 = 0 := by
    by_contra hc
    have : 2 ^ 1 ≤ 2 ^ (numBits v - 1) := Nat.pow_le_pow_right (by omega) (by omega)
    have := b3 (by omega)
    omega
  have h1 : Pair 1 (ladder v (numBits v - 2) ((initialDouble curveG).2, (initialDouble curveG).1)) := by
    rw [hb]; exact pair_start
  have := finish_spec (v := v) h1 (by omega) (by omega)
  rwa [show 2 * 1 + val v % 2 = 2 + val v by omega] at this

end Verif.Lemmas.EccLadder
