import Verif.Model.Ec52
import Verif.Model.Elligator
import Verif.Lemmas.Field52Stands
/-
The functions of Model/Ec52, on five words, and those of Model/Elligator, on residues, agree.
-/
namespace Verif.Ec52
open Verif Verif.Spec.Secp Verif.Field52

section
variable {m k : Nat} {a b : Fe} {x y : F}

theorem sqrs_spec (ha : Stands 1 a x) (k : Nat) : Stands 1 (sqrs a k) (Elligator.sqrs x k) := by
  induction k generalizing a x with
  | zero => exact ha
  | succ k ih => exact ih (ha.sqr (by decide))

theorem sqrn_spec (ha : Stands m a x) (hm : m ≤ 8) (k : Nat) : Stands 1 (sqrn a k) (Elligator.sqrn x k) := sqrs_spec (ha.sqr hm) _

theorem one1 : (1 : Nat) ≤ 8 := by decide

theorem equal_spec (ha : Stands 1 a x) (hb : Stands m b y) (hm : m ≤ 2045) : equal a b = (x == y) := by
  rw [equal, ((ha.negate (by decide)).add hb (by omega)).toZero (by omega), Bool.eq_iff_iff, decide_eq_true_iff, beq_iff_eq,
    neg_add_eq_zero]

theorem chain_spec (ha : Stands m a x) (hm : m ≤ 8) :
    Stands 1 (chain a).x2 (Elligator.chain x).x2 ∧ Stands 1 (chain a).x22 (Elligator.chain x).x22 ∧
    Stands 1 (chain a).x223 (Elligator.chain x).x223 := by
  have step (k : Nat) {a b : Fe} {x y : F} (ha : Stands 1 a x) (hb : Stands 1 b y) :
      Stands 1 (mul (sqrs a k) b) (Elligator.sqrs x k * y) := (sqrs_spec ha k).mul hb one1 one1
  unfold chain Elligator.chain
  extract_lets -merge x2 x3 x6 x9 x11 x22 x44 x88 x176 x220 x223 y2 y3 y6 y9 y11 y22 y44 y88 y176 y220 y223
  have h2 : Stands 1 x2 y2 := (ha.sqr hm).mul ha one1 hm
  clear_value x2 y2
  have h3 : Stands 1 x3 y3 := (h2.sqr one1).mul ha one1 hm
  clear_value x3 y3
  have h6 : Stands 1 x6 y6 := step 3 h3 h3
  clear_value x6 y6
  have h9 : Stands 1 x9 y9 := step 3 h6 h3
  clear_value x9 y9
  have h11 : Stands 1 x11 y11 := step 2 h9 h2
  clear_value x11 y11
  have h22 : Stands 1 x22 y22 := step 11 h11 h11
  clear_value x22 y22
  have h44 : Stands 1 x44 y44 := step 22 h22 h22
  clear_value x44 y44
  have h88 : Stands 1 x88 y88 := step 44 h44 h44
  clear_value x88 y88
  have h176 : Stands 1 x176 y176 := step 88 h88 h88
  clear_value x176 y176
  have h220 : Stands 1 x220 y220 := step 44 h176 h44
  clear_value x220 y220
  exact ⟨h2, h22, step 3 h220 h3⟩

theorem sqrt_spec (ha : Stands m a x) (hm : m ≤ 8) :
    Stands 1 (sqrt a).1 (Elligator.sqrt x).1 ∧ (sqrt a).2 = (Elligator.sqrt x).2 := by
  obtain ⟨h2, h22, h223⟩ := chain_spec ha hm
  unfold sqrt Elligator.sqrt
  generalize chain a = c at *
  generalize Elligator.chain x = e at *
  have h1 := (((sqrs_spec ((((sqrs_spec h223 23).mul h22 one1 one1))) 6).mul h2 one1 one1).sqr one1).sqr one1
  exact ⟨h1, equal_spec (h1.sqr one1) ha (by omega)⟩

theorem inv_spec (ha : Stands m a x) (hm : m ≤ 8) : Stands 1 (inv a) (Elligator.inv x) := by
  obtain ⟨h2, h22, h223⟩ := chain_spec ha hm
  unfold inv Elligator.inv
  generalize chain a = c at *
  generalize Elligator.chain x = e at *
  exact ha.mul (sqrs_spec ((sqrs_spec ((sqrs_spec ((sqrs_spec h223 23).mul h22 one1 one1) 5).mul ha one1 hm) 3).mul h2 one1 one1) 2) hm one1

theorem pow_spec (ha : Stands m a x) (hm : m ≤ 8) : Stands 1 (powPm3d4 a) (Elligator.powPm3d4 x) := by
  have step (k : Nat) {a b : Fe} {x y : F} {m : Nat} (hm : m ≤ 8) (ha : Stands 1 a x) (hb : Stands m b y) :
      Stands 1 (mul (sqrn a k) b) (Elligator.sqrn x k * y) := (sqrn_spec ha one1 k).mul hb one1 hm
  unfold powPm3d4 Elligator.powPm3d4
  extract_lets -merge x2 x3 x6 x9 x11 x22 x44 x88 x176 x220 x223 x246 x251 y2 y3 y6 y9 y11 y22 y44 y88 y176 y220 y223 y246 y251
  have h2 : Stands 1 x2 y2 := (ha.sqr hm).mul ha one1 hm
  clear_value x2 y2
  have h3 : Stands 1 x3 y3 := (h2.sqr one1).mul ha one1 hm
  clear_value x3 y3
  have h6 : Stands 1 x6 y6 := step 3 one1 h3 h3
  clear_value x6 y6
  have h9 : Stands 1 x9 y9 := step 3 one1 h6 h3
  clear_value x9 y9
  have h11 : Stands 1 x11 y11 := step 2 one1 h9 h2
  clear_value x11 y11
  have h22 : Stands 1 x22 y22 := step 11 one1 h11 h11
  clear_value x22 y22
  have h44 : Stands 1 x44 y44 := step 22 one1 h22 h22
  clear_value x44 y44
  have h88 : Stands 1 x88 y88 := step 44 one1 h44 h44
  clear_value x88 y88
  have h176 : Stands 1 x176 y176 := step 88 one1 h88 h88
  clear_value x176 y176
  have h220 : Stands 1 x220 y220 := step 44 one1 h176 h44
  clear_value x220 y220
  have h223 : Stands 1 x223 y223 := step 3 one1 h220 h3
  clear_value x223 y223
  have h246 : Stands 1 x246 y246 := step 23 one1 h223 h22
  clear_value x246 y246
  have h251 : Stands 1 x251 y251 := step 5 hm h246 ha
  clear_value x251 y251
  exact step 3 one1 h251 h2

theorem isqrt_spec (ha : Stands m a x) (hb : Stands k b y) (hm : m ≤ 8) (hk : k ≤ 8) :
    Stands 1 (isqrt a b).1 (Elligator.isqrt x y).1 ∧ (isqrt a b).2 = (Elligator.isqrt x y).2 := by
  have h2 := ha.sqr hm
  have h3 := h2.mul ha one1 hm
  have h5 := h3.mul h2 one1 one1
  have hv := (hb.sqr hk).mul hb one1 hk
  have hp := pow_spec (h5.mul hv one1 one1) one1
  have hx := (h3.mul hb one1 hk).mul hp one1 one1
  exact ⟨hx, equal_spec ((hx.sqr one1).mul hb one1 hk) ha (by omega)⟩

end

/-! ### The constants -/

theorem c_stands : Stands 1 c Elligator.c := ⟨by unfold Mag; decide +kernel, by
  rw [show val c = 0x0a2d2ba93507f1df233770c2a797962cc61f6d15da14ecd47d8d27ae1cd5f852 by decide +kernel]; rfl⟩
theorem d_stands : Stands 1 d Elligator.d := ⟨by unfold Mag; decide +kernel, by
  rw [show val d = 0x851695d49a83f8ef919bb86153cbcb16630fb68aed0a766a3ec693d68e6afa40 by decide +kernel]; rfl⟩
theorem b_stands : Stands 1 b (7 : F) := ⟨by unfold Mag; decide +kernel, by rw [show val b = 7 by decide +kernel]; rfl⟩
theorem b1_stands : Stands 1 bPlusOne (8 : F) := ⟨by unfold Mag; decide +kernel, by rw [show val bPlusOne = 8 by decide +kernel]; rfl⟩
theorem one_stands : Stands 1 one (1 : F) := ⟨by unfold Mag; decide +kernel, by rw [show val one = 1 by decide +kernel]; exact Nat.cast_one⟩
theorem int_stands {n : Nat} (h : n ≤ 1000) : Stands 1 (setInt n) ((n : Nat) : F) := by
  refine ⟨⟨?_, by simp [setInt], by simp [setInt], by simp [setInt], by simp [setInt]⟩, by simp [setInt, val]⟩
  show n ≤ _
  omega

/-! ### The map -/

theorem xy2_spec {m : Nat} {u : Fe} {x : F} (hu : Stands m u x) (hm : m ≤ 8) :
    Stands 1 (xy2 u).1 (Elligator.xy2 x).1 ∧ Stands 2 (xy2 u).2 (Elligator.xy2 x).2 := by
  have hwn := c_stands.mul hu one1 hm
  have hwd := (hu.sqr hm).add b1_stands (by decide)
  have ht := (hu.mul hwn hm one1).negate (by decide)
  have hx1n := (d_stands.mul hwd one1 (by decide)).add ht (by decide)
  have hx2n := (hx1n.add hwd (by decide)).negate (by decide)
  have hx3d := hwn.sqr one1
  have hx3n := (hwd.sqr (by decide)).add hx3d (by decide)
  have hj := inv_spec (hx3d.mul hwd one1 (by decide)) one1
  have hx1 := (hx1n.mul hx3d (by decide) one1).mul hj one1 one1
  have hx2 := (hx2n.mul hx3d (by decide) one1).mul hj one1 one1
  have hx3 := (hx3n.mul hwd (by decide) (by decide)).mul hj one1 one1
  unfold xy2 Elligator.xy2
  extract_lets -merge wn wd wd' t t' x1n x1n' x2n x2n' x2n'' x3d x3d' x3n x3n' j j' x1 x1' x2 x2' x3 x3' y1 y1' y1'' y2 y2' y2'' y3 y3'
    y3'' al be X1 Y1 X1' Y1' fwn fwd ft fx1n fx2n fx3d fx3d' fx3n fj fx1 fx2 fx3 fy1 fy2 fy3 fal fbe
  have hx1 : Stands 1 x1' fx1 := hx1
  have hx2 : Stands 1 x2' fx2 := hx2
  have hx3 : Stands 1 x3' fx3 := hx3
  clear_value x1' x2' x3' fx1 fx2 fx3
  have cube {v : Fe} {w : F} (h : Stands 1 v w) : Stands 2 (add (mul (sqr v) v) b) (w * w * w + 7) :=
    (((h.sqr one1).mul h one1 one1).add b_stands (by decide)).mono (by decide)
  have hy1 : Stands 2 y1'' fy1 := cube hx1
  have hy2 : Stands 2 y2'' fy2 := cube hx2
  have hy3 : Stands 2 y3'' fy3 := cube hx3
  clear_value y1'' y2'' y3'' fy1 fy2 fy3
  have hal : al = fal := (sqrt_spec hy1 (by decide)).2
  have hbe : be = fbe := (sqrt_spec hy2 (by decide)).2
  have hX : Stands 1 X1 _ := hx1.cmov hx2 (by decide) (by decide) (!al && be)
  have hX' : Stands 1 X1' _ := hX.cmov hx3 (by decide) (by decide) (!al && !be)
  have hY : Stands 2 Y1 _ := hy1.cmov hy2 (by decide) (by decide) (!al && be)
  have hY' : Stands 2 Y1' _ := hY.cmov hy3 (by decide) (by decide) (!al && !be)
  clear_value X1 X1' Y1 Y1' al be fal fbe
  subst hal hbe
  cases al <;> cases be <;> exact ⟨hX', hY'⟩

/-- The words of a point: those of its coordinates, of magnitude at most `m`. -/
def GeS (m : Nat) (g : Ge) (e : Elligator.Ge) : Prop := Stands m g.x e.x ∧ Stands m g.y e.y ∧ g.infinity = e.infinity

theorem GeS.mono {m k : Nat} {g : Ge} {e : Elligator.Ge} (h : GeS m g e) (hk : m ≤ k) : GeS k g e := ⟨h.1.mono hk, h.2.1.mono hk, h.2.2⟩

theorem GeS.mk {m : Nat} {x y : Fe} {x' y' : F} (hx : Stands m x x') (hy : Stands m y y') (i : Bool) : GeS m ⟨x, y, i⟩ ⟨x', y', i⟩ :=
  ⟨hx, hy, rfl⟩

theorem toZero_beq {m : Nat} {a : Fe} {x : F} (ha : Stands m a x) (hm : m ≤ 2047) : normalizesToZero a = (x == 0) := by
  rw [ha.toZero hm, Bool.eq_iff_iff, decide_eq_true_iff, beq_iff_eq]

theorem flip_spec {a b : Fe} {x y : F} (ha : Normal a x) (hb : Normal b y) :
    isOdd a ^^^ isOdd b = (xor (Elligator.isOdd x) (Elligator.isOdd y)).toNat := by
  rw [ha.isOdd, hb.isOdd, Elligator.isOdd, Elligator.isOdd]
  rcases Nat.mod_two_eq_zero_or_one x.val with h | h <;> rcases Nat.mod_two_eq_zero_or_one y.val with k | k <;> rw [h, k] <;> rfl

theorem svdw_eq (x : F) : Elligator.svdw x = ⟨(Elligator.xy2 x).1,
    if xor (Elligator.isOdd (Elligator.sqrt (Elligator.xy2 x).2).1) (Elligator.isOdd x) then -(Elligator.sqrt (Elligator.xy2 x).2).1
    else (Elligator.sqrt (Elligator.xy2 x).2).1, false⟩ := by
  unfold Elligator.svdw
  generalize Elligator.xy2 x = s
  obtain ⟨s1, s2⟩ := s
  dsimp only

theorem svdw_spec {u : Fe} {x : F} (hu : Normal u x) : GeS 2 (svdw u) (Elligator.svdw x) := by
  obtain ⟨hx, hy⟩ := xy2_spec hu.stands one1
  have hy' := (sqrt_spec hy (by decide)).1.normalize (by decide)
  have hf := flip_spec hy' hu
  have hc := hy'.stands.cmov (hy'.stands.negate (by decide)) (by decide) (by decide)
    (xor (Elligator.isOdd (Elligator.sqrt (Elligator.xy2 x).2).1) (Elligator.isOdd x))
  rw [← hf] at hc
  rw [svdw_eq]
  unfold svdw
  dsimp only
  generalize xy2 u = r at *
  generalize Elligator.xy2 x = s at *
  refine ⟨hx.mono (by decide), ?_, rfl⟩
  dsimp only
  exact hc.mono (by decide)

/-! ### The inverse -/

theorem below_two {r : Nat} (h : r < 4) : below r 2 = (decide (r < 2)).toNat := by
  have : ∀ r : Fin 4, below r.val 2 = (decide (r.val < 2)).toNat := by decide
  exact this ⟨r, h⟩

theorem below_one {r k : Nat} (h : r < 4) (hk : k < 4) : below (r ^^^ k) 1 = (decide (r = k)).toNat := by
  have : ∀ r k : Fin 4, below (r.val ^^^ k.val) 1 = (decide (r.val = k.val)).toNat := by decide
  exact this ⟨r, h⟩ ⟨k, hk⟩

/-- The inverse on residues, without patterns. -/
theorem invert_eq (ge : Elligator.Ge) (hint : Nat) (hi : ge.infinity = false) : Elligator.invert ge hint =
    (let r := hint % 4
     let x := ge.x
     let y := ge.y
     let t := 78 * x + 9 * (x * x) + -87
     let q := Elligator.sqrt t
     let s1 := decide (r < 2) || q.2
     let tmp := 2 * x + 1
     let c1 := Elligator.c + tmp
     let c0 := Elligator.c + -tmp
     let n0 := 8 * c0
     let n1 := 8 * c1
     let n := 3 * (-x + 1) + -16
     let n3 := n + -q.1
     let n2 := n + q.1
     let n := if r = 1 then n1 else if r = 2 then n2 else if r = 3 then n3 else n0
     let d := if r = 0 then c1 else if r = 1 then c0 else 2
     let v := Elligator.isqrt n d
     let s3 := (Elligator.xy2 v.1).1 == x
     let flip := xor (Elligator.isOdd v.1) (Elligator.isOdd y)
     (if flip then -v.1 else v.1, s1 && v.2 && s3)) := by
  unfold Elligator.invert
  rw [hi]
  rfl

theorem and_three (n : Nat) : n &&& 3 = n % 4 := Nat.and_two_pow_sub_one_eq_mod n 2

theorem _root_.Verif.Field52.Stands.eq {m : Nat} {a : Fe} {x y : F} (h : Stands m a x) (e : x = y) : Stands m a y := e ▸ h

theorem pick4 {r : Nat} (a b c d : F) : (if decide (r = 3) = true then d else if decide (r = 2) = true then c else
    if decide (r = 1) = true then b else a) = if r = 1 then b else if r = 2 then c else if r = 3 then d else a := by
  simp only [decide_eq_true_eq]
  split_ifs <;> first | rfl | omega

theorem pick3 {r : Nat} (a b c : F) : (if decide (r = 1) = true then c else if decide (r = 0) = true then b else a) =
    if r = 0 then b else if r = 1 then c else a := by
  simp only [decide_eq_true_eq]
  split_ifs <;> first | rfl | omega

theorem flags (a b c d : Bool) : (a.toNat ||| b.toNat) &&& c.toNat &&& d.toNat ≠ 0 ↔ ((a || b) && c && d) = true := by
  cases a <;> cases b <;> cases c <;> cases d <;> decide

theorem invert_spec {m : Nat} {g : Ge} {e : Elligator.Ge} (hg : GeS m g e) (hm : m ≤ 2047) (hint : Nat) :
    ((invert g hint).2 ≠ 0 ↔ (Elligator.invert e hint).2 = true) ∧
    Stands 2 (invert g hint).1 (Elligator.invert e hint).1 := by
  obtain ⟨hx, hy, hi⟩ := hg
  rcases hinf : e.infinity with _ | _
  swap
  · unfold invert Elligator.invert
    rw [hi, hinf]
    simp only [if_pos, ne_eq, not_true_eq_false, Bool.false_eq_true, true_and]
    have := int_stands (n := 0) (by decide)
    rw [Nat.cast_zero] at this
    exact this.mono (by decide)
  rw [invert_eq e hint hinf]
  unfold invert
  have hr : hint % 4 < 4 := Nat.mod_lt _ (by decide)
  rw [hi, hinf, and_three, if_neg (by decide)]
  generalize hint % 4 = r at hr ⊢
  rw [below_two hr, below_one hr (by decide : 0 < 4), below_one hr (by decide : 1 < 4), below_one hr (by decide : 2 < 4),
    below_one hr (by decide : 3 < 4)]
  extract_lets -merge x0 y0 x y t78 t0 t9 t9' t1 t87 t87' t2 t q q1 s0 s1 tq c1 w w' w'' c1' c0 u c0' n0 n0' n0'' n1 n1' n1'' n2 n2' n2'' n2x
    t16 t16' n2a n2b n3 n2c tn n3' d0 m0 m1 m2 d1 d2 q' v s2 v' z s3 fl vn v'' r' fx fy ft fq fs1 fw fc1 fc0 fn0 fn1 fn fn3 fn2 fm fd fv fs3 ffl
  have hx' : Normal x fx := hx.normalize hm
  have hy' : Normal y fy := hy.normalize hm
  clear_value x y fx fy
  have ht : Normal t ft := (((((int_stands (n := 78) (by decide)).mul hx'.stands one1 one1).add
    ((hx'.stands.sqr one1).mulInt (k := 9) (by decide)) (by decide)).add ((int_stands (n := 87) (by decide)).negate (by decide))
      (by decide)).eq (by push_cast; ring)).normalize (by decide)
  clear_value t ft
  obtain ⟨hq, hs0⟩ := sqrt_spec ht.stands one1
  have hs0 : s0 = fq.2.toNat := congrArg Bool.toNat hs0
  have hq : Stands 1 tq fq.1 := hq
  clear_value s0 tq fq
  have hw : Stands 3 w'' fw := (((hx'.stands.mulInt (k := 2) (by decide)).add one_stands (by decide)).mono (by decide)).eq
    (by push_cast; ring)
  clear_value w'' fw
  have hc1 : Stands 5 c1' fc1 := (c_stands.add hw (by decide)).mono (by decide)
  have hc0 : Stands 5 c0' fc0 := (c_stands.add (hw.negate (by decide)) (by decide)).mono (by decide)
  clear_value c1' c0' fc1 fc0
  have h0 : Stands 8 n0'' fn0 := (((hc0.normalize (by decide)).stands.mulInt (k := 8) (by decide)).mono (by decide)).eq
    (by push_cast; ring)
  have h1 : Stands 8 n1'' fn1 := (((hc1.normalize (by decide)).stands.mulInt (k := 8) (by decide)).mono (by decide)).eq
    (by push_cast; ring)
  clear_value n0'' n1'' fn0 fn1
  have hn : Normal n2b fn := (((((hx'.stands.negate (by decide)).add one_stands (by decide)).mulInt (k := 3) (by decide)).add
    ((int_stands (n := 16) (by decide)).negate (by decide)) (by decide)).eq (by push_cast; ring)).normalize (by decide)
  have h3 : Stands 8 n3' fn3 := (hn.stands.add (hq.negate (by decide)) (by decide)).mono (by decide)
  have h2 : Stands 8 n2c fn2 := (hn.stands.add hq (by decide)).mono (by decide)
  clear_value n3' n2c fn3 fn2
  have hm : Stands 8 m2 fm := by
    have := ((h0.cmov h1 (by decide) (by decide) (decide (r = 1))).cmov h2 (by decide) (by decide) (decide (r = 2))).cmov h3
      (by decide) (by decide) (decide (r = 3))
    exact this.eq (pick4 _ _ _ _)
  have hd : Stands 5 d2 fd := by
    have := ((int_stands (n := 2) (by decide)).cmov hc1 (by decide) (by decide) (decide (r = 0))).cmov hc0
      (by decide) (by decide) (decide (r = 1))
    exact this.eq (pick3 _ _ _)
  clear_value m2 d2 fm fd
  obtain ⟨hv, hs2⟩ := isqrt_spec hm hd (by decide) (by decide)
  have hv : Normal v' fv.1 := hv.normalize (by decide)
  have hs2 : s2 = fv.2.toNat := congrArg Bool.toNat hs2
  clear_value v' s2 fv
  have hs3 : s3 = fs3.toNat := congrArg Bool.toNat (equal_spec (xy2_spec hv.stands one1).1 hx'.stands (by decide))
  have hfl : fl = ffl.toNat := flip_spec hv hy'
  clear_value s3 fs3 fl ffl
  have hr : Stands 2 v'' (if ffl then -fv.1 else fv.1) := by
    have := hv.stands.cmov (hv.stands.negate (by decide)) (by decide) (by decide) ffl
    rw [← hfl] at this
    exact this.mono (by decide)
  refine ⟨?_, hr⟩
  show s1 &&& s2 &&& s3 ≠ 0 ↔ (fs1 && fv.2 && fs3) = true
  rw [hs2, hs3, ← flags, ← hs0]

/-! ### The addition -/

/-- The words of a point in Jacobian coordinates. -/
def GejS (m : Nat) (g : Gej) (e : Elligator.Gej) : Prop :=
  Stands m g.x e.x ∧ Stands m g.y e.y ∧ Stands m g.z e.z ∧ g.infinity = e.infinity

theorem GejS.mk {m : Nat} {x y z : Fe} {x' y' z' : F} (hx : Stands m x x') (hy : Stands m y y') (hz : Stands m z z') (i : Bool) :
    GejS m ⟨x, y, z, i⟩ ⟨x', y', z', i⟩ := ⟨hx, hy, hz, rfl⟩

theorem gej_spec {m : Nat} {g : Ge} {e : Elligator.Ge} (h : GeS m g e) (hm : m ≤ 8) : GejS 8 (gejSetGe g) (Elligator.gejSetGe e) := by
  have h1 := int_stands (n := 1) (by decide)
  rw [Nat.cast_one] at h1
  exact ⟨h.1.mono hm, h.2.1.mono hm, h1.mono (by decide), h.2.2⟩

theorem neg_spec {m : Nat} {g : Ge} {e : Elligator.Ge} (h : GeS m g e) (hm : m ≤ 8) : GeS 8 (geNeg g) (Elligator.geNeg e) := by
  have e1 : geNeg g = ⟨g.x, negate (normalizeWeak g.y) 1, g.infinity⟩ := rfl
  have e2 : Elligator.geNeg e = ⟨e.x, -e.y, e.infinity⟩ := rfl
  rw [e1, e2, h.2.2]
  exact GeS.mk (h.1.mono hm) (((h.2.1.weak (by omega)).negate (by decide)).mono (by decide)) _

theorem addGe_spec {a : Gej} {e : Elligator.Gej} {b : Ge} {f : Elligator.Ge} (ha : GejS 8 a e) (hb : GeS 8 b f) :
    GejS 8 (addGe a b) (Elligator.addGe e f) := by
  obtain ⟨hax, hay, haz, hai⟩ := ha
  obtain ⟨hbx, hby, -⟩ := hb
  unfold addGe Elligator.addGe
  rw [hai]
  generalize e.infinity = ai
  extract_lets -merge zz u1 u1' u2 s1 s1' s2 s2' t t' m m' rr mA tt rr' dg ra ra' mA' ra2 mA2 n q n2 n3 t2 z inf z2 q2 t3 t4 x t5 t6 t7 t8 y y2 x4
    y4 x5 y5 z5 fzz fu1 fu2 fs1 fs2 ft fm frr fmA ftt frr' fdg fra fmA' fra2 fmA2 fn fq fn2 fn3 ft2 fz finf fz2 fq2 ft3 fx ft4 ft5 ft6 ft7 fy fx4 fy4
  have hzz : Stands 1 zz fzz := haz.sqr (by decide)
  have hu1 : Stands 1 u1' fu1 := hax.weak (by decide)
  have hu2 : Stands 1 u2 fu2 := hbx.mul hzz (by decide) (by decide)
  have hs1 : Stands 1 s1' fs1 := hay.weak (by decide)
  have hs2 : Stands 1 s2' fs2 := (hby.mul hzz (by decide) (by decide)).mul haz (by decide) (by decide)
  clear_value zz fzz u1' fu1 u2 fu2 s1' fs1 s2' fs2
  have ht : Stands 2 t' ft := (hu1.add hu2 (by decide)).mono (by decide)
  have hm : Stands 2 m' fm := (hs1.add hs2 (by decide)).mono (by decide)
  have hmA : Stands 2 mA fmA := (hu2.negate (by decide)).mono (by decide)
  clear_value t' ft m' fm mA fmA
  have hrr : Stands 2 rr' frr' := ((ht.sqr (by decide)).add (hu1.mul hmA (by decide) (by decide)) (by decide)).mono (by decide)
  clear_value rr' frr'
  have hdg : dg = fdg := by
    show (normalizesToZero m' && normalizesToZero rr') = (fm == 0 && frr' == 0)
    rw [toZero_beq hm (by decide), toZero_beq hrr (by decide)]
  have hra : Stands 2 ra' fra := ((hs1.mulInt (k := 2) (by decide)).mono (by decide)).eq (by push_cast; ring)
  have hmA' : Stands 3 mA' fmA' := (hmA.add hu1 (by decide)).mono (by decide)
  clear_value dg fdg ra' fra mA' fmA'
  subst hdg
  have hra2 : Stands 2 ra2 fra2 := ((hra.cmov hrr (by decide) (by decide) (!dg)).mono (by decide)).eq (by cases dg <;> rfl)
  have hmA2 : Stands 3 mA2 fmA2 := ((hmA'.cmov hm (by decide) (by decide) (!dg)).mono (by decide)).eq (by cases dg <;> rfl)
  clear_value ra2 fra2 mA2 fmA2
  have hn : Stands 1 n fn := hmA2.sqr (by decide)
  have hq : Stands 1 q fq := hn.mul ht (by decide) (by decide)
  have hn2 : Stands 2 n3 fn3 := (((hn.sqr (by decide)).cmov hm (by decide) (by decide) dg).mono (by decide)).eq (by cases dg <;> rfl)
  have ht2 : Stands 1 t2 ft2 := hra2.sqr (by decide)
  have hz : Stands 1 z fz := haz.mul hmA2 (by decide) (by decide)
  clear_value n fn q fq n3 fn3 t2 ft2 z fz
  have hinf : inf = finf := by
    show (normalizesToZero z && !ai) = (fz == 0 && !ai)
    rw [toZero_beq hz (by decide)]
  have hz2 : Stands 2 z2 fz2 := ((hz.mulInt (k := 2) (by decide)).mono (by decide)).eq (by push_cast; ring)
  have hq2 : Stands 2 q2 fq2 := (hq.negate (by decide)).mono (by decide)
  have hx : Stands 1 t4 ft3 := (ht2.add hq2 (by decide)).weak (by decide)
  clear_value inf finf z2 fz2 q2 fq2 t4 ft3
  have ht6 : Stands 4 t6 ft5 := (((hx.mulInt (k := 2) (by decide)).add hq2 (by decide)).mono (by decide)).eq (by push_cast; ring)
  have ht8 : Stands 3 t8 ft7 := ((ht6.mul hra2 (by decide) (by decide)).add hn2 (by decide)).mono (by decide)
  have hy : Stands 1 y2 fy := (ht8.negate (by decide)).weak (by decide)
  clear_value t8 ft7 y2 fy
  have hx4 : Stands 4 x4 fx4 := ((hx.mulInt (k := 4) (by decide)).mono (by decide)).eq (by push_cast; ring)
  have hy4 : Stands 4 y4 fy4 := ((hy.mulInt (k := 4) (by decide)).mono (by decide)).eq (by push_cast; ring)
  clear_value x4 fx4 y4 fy4
  have hx5 : Stands 8 x5 _ := hx4.cmov hbx (by decide) (by decide) ai
  have hy5 : Stands 8 y5 _ := hy4.cmov hby (by decide) (by decide) ai
  have hz5 : Stands 8 z5 _ := (hz2.cmov one_stands (by decide) (by decide) ai).mono (by decide)
  clear_value x5 y5 z5
  subst hinf
  cases ai with
  | false =>
    rw [if_neg (by decide)] at hx5 hy5 hz5 ⊢
    exact GejS.mk hx5 hy5 hz5 _
  | true =>
    rw [if_pos rfl] at hx5 hy5 hz5 ⊢
    exact GejS.mk hx5 hy5 hz5 _

theorem geSetGej_spec {a : Gej} {e : Elligator.Gej} (ha : GejS 8 a e) : GeS 8 (geSetGej a) (Elligator.geSetGej e) := by
  obtain ⟨hx, hy, hz, hi⟩ := ha
  have h1 := inv_spec hz (by decide)
  have h2 := h1.sqr (by decide)
  have h3 := h1.mul h2 (by decide) (by decide)
  exact ⟨(hx.mul h2 (by decide) (by decide)).mono (by decide), (hy.mul h3 (by decide) (by decide)).mono (by decide), hi⟩

/-! ### Keys -/

/-- A key in memory: the compact words of its two coordinates. -/
def KeyS (k : Pubkey) (e : F × F) : Prop := Normal (fromStorage k.x) e.1 ∧ Normal (fromStorage k.y) e.2

theorem save_spec {m : Nat} {g : Ge} {e : Elligator.Ge} (hg : GeS m g e) (hm : m ≤ 2047) : KeyS (pubkeySave g) (e.x, e.y) := by
  have hx := hg.1.normalize hm
  have hy := hg.2.1.normalize hm
  exact ⟨by rw [pubkeySave, hx.storage]; exact hx, by rw [pubkeySave, hy.storage]; exact hy⟩

theorem load_spec {k : Pubkey} {e : F × F} (h : KeyS k e) :
    (pubkeyLoad k = .ub ∧ Elligator.pubkeyLoad e = .ub) ∨
    (pubkeyLoad k = .ok ⟨fromStorage k.x, fromStorage k.y, false⟩ ∧ Elligator.pubkeyLoad e = .ok ⟨e.1, e.2, false⟩) := by
  unfold pubkeyLoad Elligator.pubkeyLoad
  dsimp only
  rw [h.1.isZero]
  by_cases h0 : e.1 = 0
  · left; rw [if_pos h0, decide_eq_true h0]; exact ⟨rfl, rfl⟩
  · right; rw [if_neg h0, decide_eq_false h0]; exact ⟨rfl, rfl⟩

theorem setXo_spec {a : Fe} {x : F} (ha : Normal a x) (odd : Bool) :
    (setXo a odd = none ∧ Elligator.setXo x odd = none) ∨
    ∃ g e, setXo a odd = some g ∧ Elligator.setXo x odd = some e ∧ GeS 2 g ⟨e.1, e.2, false⟩ := by
  have h7 : Stands 1 (setInt 7) (7 : F) := int_stands (n := 7) (by decide)
  obtain ⟨hy, ho⟩ := sqrt_spec (h7.add (ha.stands.mul (ha.stands.sqr one1) one1 one1) (by decide)) (by decide)
  unfold setXo Elligator.setXo
  dsimp only
  generalize sqrt (add (setInt 7) (mul a (sqr a))) = q at *
  generalize Elligator.sqrt (7 + x * (x * x)) = e at *
  obtain ⟨e1, e2⟩ := e
  obtain ⟨q1, q2⟩ := q
  dsimp only at *
  subst ho
  cases q2 with
  | false => exact .inl ⟨rfl, rfl⟩
  | true =>
    right
    have hn := hy.normalizeVar (by decide)
    have hodd : (isOdd (normalizeVar q1) ≠ odd.toNat) ↔ (Elligator.isOdd e1 != odd) = true := by
      rw [hn.isOdd, Elligator.isOdd]
      rcases Nat.mod_two_eq_zero_or_one e1.val with h | h <;> rw [h] <;> cases odd <;> decide
    by_cases hp : (Elligator.isOdd e1 != odd) = true
    · refine ⟨_, _, rfl, rfl, ha.stands.mono (by decide), ?_, rfl⟩
      rw [if_pos (hodd.2 hp)]
      dsimp only
      rw [if_pos hp]
      exact (hn.stands.negate (by decide)).mono (by decide)
    · refine ⟨_, _, rfl, rfl, ha.stands.mono (by decide), ?_, rfl⟩
      rw [if_neg (fun h => hp (hodd.1 h))]
      dsimp only
      rw [if_neg hp]
      exact hn.stands.mono (by decide)

end Verif.Ec52
