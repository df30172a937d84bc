import Verif.Lemmas.Wnaf
import Verif.Lemmas.Group52Add
/-
The product of a point and a scalar (Model/EcmultConst).
-/
namespace Verif.Lemmas.EcmultConst
open Verif Verif.Spec.Secp Verif.Field52 Verif.Ec52 Verif.EcmultConst Verif.Lemmas.Group52 Verif.Lemmas.Wnaf Verif.Spec.EcmultConst
open WeierstrassCurve.Affine

theorem Stands.unique {m k : Nat} {a : Fe} {x y : F} (h1 : Stands m a x) (h2 : Stands k a y) : x = y := h1.2.symm.trans h2.2

/-- The third coordinate of a point that is not at infinity. -/
theorem jac_z {g : F} {a : Gej} {P : Point} (h : IsJac g a P) (hP : P ≠ 0) : ∃ z, z ≠ 0 ∧ Stands 8 a.z z := by
  cases P with
  | zero => exact absurd rfl hP
  | some x y hn => obtain ⟨-, z, z0, -, -, hz⟩ := h; exact ⟨z, z0, hz⟩

/-- The first two coordinates alone are affine coordinates with another factor. -/
theorem jac_drop {g : F} {a : Gej} {P : Point} (h : IsJac g a P) (hP : P ≠ 0) {z : F} (hz : Stands 8 a.z z) : IsAff (z * g) ⟨a.x, a.y, false⟩ P := by
  cases P with
  | zero => exact absurd rfl hP
  | some x y hn =>
    obtain ⟨-, z', z0, hx, hy, hz'⟩ := h
    have e := Stands.unique hz' hz
    subst e
    exact ⟨rfl, hx, hy⟩

/-- `j`-th odd multiple. -/
theorem odd_ne {P : Point} (hP : P ≠ 0) {k : Nat} (h : 0 < k) (hk : k < 1000) : k • P ≠ 0 := by
  refine SecpCard.nsmul_ne ?_ hP
  have : 1000 < n := by decide
  rw [Nat.mod_eq_of_lt (by omega)]; omega

theorem rest_succ {J : Junk} {d : Ge} {k : Nat} {prev : Gej} {q : Gej × Option Fe} (e : q = addGeVar J.gej prev d) :
    oddRest J d (k + 1) prev = (q.1, q.2.getD J.fe) :: oddRest J d k q.1 := by rw [e]; rfl

theorem globalz_cons {a : Gej} {zr : Fe} {q : Gej × Fe} {l : List (Gej × Fe)} {t : List Ge × Fe} (e : t = globalz (q :: l)) :
    globalz ((a, zr) :: q :: l) = (setGejZinv a t.2 :: t.1, mul t.2 zr) := by rw [e]; rfl

theorem table_spec {J : Junk} {g : F} (hg : g ≠ 0) {P : Point} (hP : P ≠ 0) {d : Ge} (hd : IsAff g d (2 • P)) :
    ∀ (k i : Nat) (prev : Gej) (zr : Fe) (z0 r : F), i + k ≤ 100 → IsJac g prev ((2 * i + 1) • P) → Stands 8 prev.z z0 → Stands 8 zr r →
    ∃ Z, Z ≠ 0 ∧ Stands 8 (lastZ prev.z (oddRest J d k prev)) Z ∧ (globalz ((prev, zr) :: oddRest J d k prev)).1.length = k + 1 ∧
      (∀ j b, (globalz ((prev, zr) :: oddRest J d k prev)).1[j]? = some b → IsAff (Z * g) b ((2 * (i + j) + 1) • P)) ∧
      ∃ t, Stands 8 (globalz ((prev, zr) :: oddRest J d k prev)).2 t ∧ t * z0 = r * Z := by
  intro k
  induction k with
  | zero =>
    intro i prev zr z0 r hik hj hz hr
    have hne := odd_ne hP (k := 2 * i + 1) (by omega) (by omega)
    obtain ⟨z', h0, hz'⟩ := jac_z hj hne
    have e := Stands.unique hz' hz
    subst e
    refine ⟨z', h0, hz, rfl, ?_, r, hr, rfl⟩
    intro j b hb
    match j, hb with
    | 0, hb =>
      have hb : (⟨prev.x, prev.y, false⟩ : Ge) = b := Option.some.inj hb
      rw [← hb]
      exact jac_drop hj hne hz
  | succ k ih =>
    intro i prev zr z0 r hik hj hz hr
    have hne := odd_ne hP (k := 2 * i + 1) (by omega) (by omega)
    have hne' := odd_ne hP (k := 2 * (i + 1) + 1) (by omega) (by omega)
    obtain ⟨z', h0, hz'⟩ := jac_z hj hne
    have e := Stands.unique hz' hz
    subst e
    have hsum : (2 * i + 1) • P + 2 • P = (2 * (i + 1) + 1) • P := by rw [← add_nsmul]; congr 1
    obtain ⟨q, eq⟩ : ∃ q, q = addGeVar J.gej prev d := ⟨_, rfl⟩
    have hq := jac_addGeVar hg (r := J.gej) (fun h => absurd (hsum.symm.trans h) hne') hj hd
    obtain ⟨f, t, k1, k2, k3⟩ := ratio_words hg (r := J.gej) hj hne hd (by rw [hsum]; exact hne')
    have k4 := k3 _ hz
    rw [← eq] at hq k1 k4
    rw [hsum] at hq
    obtain ⟨z2, h2, hz2⟩ := jac_z hq hne'
    have e := Stands.unique hz2 k4
    subst e
    have ht : t ≠ 0 := fun h => h2 (by rw [h, mul_zero])
    rw [rest_succ eq, k1, Option.getD_some]
    obtain ⟨Z, Z0, a1, a2, a3, s, a4, a5⟩ := ih (i + 1) q.1 f (z' * t) t (by omega) hq k4 k2
    have a6 : s * z' = Z := by
      have : t * (s * z' - Z) = 0 := by linear_combination a5
      rcases mul_eq_zero.1 this with e | e
      · exact absurd e ht
      · exact sub_eq_zero.1 e
    obtain ⟨G, eG⟩ : ∃ G, G = globalz ((q.1, f) :: oddRest J d k q.1) := ⟨_, rfl⟩
    rw [globalz_cons eG]
    rw [← eG] at a2 a3 a4
    refine ⟨Z, Z0, a1, by rw [List.length_cons, a2], ?_, s * r, (a4.mul hr (by decide) (by decide)).mono (by decide), by linear_combination r * a6⟩
    intro j b hb
    match j, hb with
    | 0, hb =>
      have hb : setGejZinv prev G.2 = b := Option.some.inj hb
      rw [← hb]
      refine aff_zinv hne hj a4 (fun z hz3 => ?_)
      have e := Stands.unique hz3 hz
      rw [e, ← a6]; ring
    | j + 1, hb =>
      have := a3 j b hb
      rwa [show 2 * (i + 1 + j) + 1 = 2 * (i + (j + 1)) + 1 by omega] at this

theorem oddTable_eq {J : Junk} {a d p0 : Gej} {l : List (Gej × Fe)} {b : Ge} (e1 : d = (doubleVar a).1) (e2 : b = setGejZinv a d.z) (e3 : p0 = ⟨b.x, b.y, a.z, false⟩)
    (e4 : l = oddRest J ⟨d.x, d.y, false⟩ 7 p0) : oddTable J a = ((globalz ((p0, d.z) :: l)).1, mul (lastZ p0.z l) d.z) := by
  subst e1 e2 e3 e4; rfl

theorem two_eq (P : Point) : P + P = 2 • P := (two_nsmul P).symm

theorem oddTable_spec {J : Junk} {a : Gej} {P : Point} (hP : P ≠ 0) (ha : IsJac 1 a P) :
    ∃ Z, Z ≠ 0 ∧ Stands 8 (oddTable J a).2 Z ∧ (oddTable J a).1.length = 8 ∧
      ∀ j b, (oddTable J a).1[j]? = some b → IsAff Z b ((2 * j + 1) • P) := by
  obtain ⟨d, ed⟩ : ∃ d, d = (doubleVar a).1 := ⟨_, rfl⟩
  have hd := jac_double one_ne_zero ha
  rw [← ed, two_eq] at hd
  have h2 := odd_ne hP (k := 2) (by decide) (by decide)
  obtain ⟨D, D0, hD⟩ := jac_z hd h2
  obtain ⟨z, z0, hz⟩ := jac_z ha hP
  have hdg := jac_drop hd h2 hD
  rw [mul_one] at hdg
  obtain ⟨b, eb⟩ : ∃ b, b = setGejZinv a d.z := ⟨_, rfl⟩
  obtain ⟨p0, ep⟩ : ∃ p0 : Gej, p0 = ⟨b.x, b.y, a.z, false⟩ := ⟨_, rfl⟩
  have hb : IsAff (z * D) b P := by
    rw [eb]
    refine aff_zinv hP ha hD (fun z' hz' => ?_)
    rw [Stands.unique hz' hz, mul_one]
  have hp0 : IsJac D p0 P := by
    rw [ep]
    cases P with
    | zero => exact absurd rfl hP
    | some x y hn => exact ⟨rfl, z, z0, hb.2.1, hb.2.2, hz⟩
  have hpz : Stands 8 p0.z z := by rw [ep]; exact hz
  rw [oddTable_eq ed eb ep rfl]
  obtain ⟨Z, Z0, a1, a2, a3, -⟩ := table_spec (J := J) D0 hP hdg 7 0 p0 d.z z D (by decide) (by rw [mul_zero, zero_add, one_nsmul]; exact hp0) hpz hD
  refine ⟨Z * D, mul_ne_zero Z0 D0, (a1.mul hD (by decide) (by decide)).mono (by decide), a2, fun j b hb => ?_⟩
  have := a3 j b hb
  rwa [zero_add] at this

/-! ### Reading the table -/

theorem cmov_keep {r a : Fe} (hr : Mag 8 r) : cmov r a 0 = r := by
  obtain ⟨r0, r1, r2, r3, r4⟩ := hr.word (by decide)
  rw [cmov, sel_zero r0, sel_zero r1, sel_zero r2, sel_zero r3, sel_zero r4]

theorem cmov_take {r a : Fe} (ha : Mag 8 a) : cmov r a 1 = a := by
  obtain ⟨r0, r1, r2, r3, r4⟩ := ha.word (by decide)
  rw [cmov, sel_one r0, sel_one r1, sel_one r2, sel_one r3, sel_one r4]

theorem pick_cons {idx : Int} {m f : Nat} {b : Ge} {l : List Ge} {r : Ge} (e : f = (decide ((m : Int) = idx)).toNat) :
    pick idx m (b :: l) r = pick idx (m + 1) l ⟨cmov r.x b.x f, cmov r.y b.y f, r.infinity⟩ := by rw [e]; rfl

theorem pick_keep {i : Nat} : ∀ (l : List Ge) (m : Nat) (r : Ge), i < m → Mag 8 r.x → Mag 8 r.y →
    (pick (i : Int) m l r).x = r.x ∧ (pick (i : Int) m l r).y = r.y := by
  intro l
  induction l with
  | nil => intro m r _ _ _; exact ⟨rfl, rfl⟩
  | cons b l ih =>
    intro m r hm hx hy
    have e : (0 : Nat) = (decide ((m : Int) = (i : Int))).toNat := by rw [decide_eq_false (by omega)]; rfl
    rw [pick_cons e, cmov_keep hx, cmov_keep hy]
    exact ih (m + 1) _ (by omega) hx hy

theorem pick_spec {i : Nat} {b : Ge} : ∀ (l : List Ge) (m : Nat) (r : Ge), m ≤ i → l[i - m]? = some b → Mag 8 b.x → Mag 8 b.y →
    (pick (i : Int) m l r).x = b.x ∧ (pick (i : Int) m l r).y = b.y := by
  intro l
  induction l with
  | nil => intro m r _ h; simp at h
  | cons c l ih =>
    intro m r hm h hx hy
    by_cases e : m = i
    · subst e
      rw [Nat.sub_self] at h
      have h : c = b := Option.some.inj h
      subst h
      have e : (1 : Nat) = (decide ((m : Int) = (m : Int))).toNat := by rw [decide_eq_true rfl]; rfl
      rw [pick_cons e, cmov_take hx, cmov_take hy]
      exact pick_keep l (m + 1) _ (by omega) hx hy
    · rw [pick_cons rfl]
      refine ih (m + 1) _ (by omega) ?_ hx hy
      rw [show i - m = (i - (m + 1)) + 1 by omega] at h
      exact h

theorem aff_mag {g : F} {b : Ge} {P : Point} (h : IsAff g b P) : Mag 8 b.x ∧ Mag 8 b.y := by
  cases P with
  | zero => exact h.elim
  | some x y hn => exact ⟨h.2.1.1, h.2.2.1⟩

theorem get_eq {r q : Ge} {pre : List Ge} {d a : Int} {i : Nat} (e1 : a = d * ((if d > 0 then 1 else 0) * 2 - 1)) (e2 : a.tdiv 2 = (i : Int))
    (e3 : q = pick (i : Int) 0 pre r) : tableGet r pre d = ⟨q.x, cmov q.y (negate q.y 1) (decide (d ≠ a)).toNat, false⟩ := by
  unfold tableGet
  dsimp only
  rw [← e1, e2, ← e3]

theorem get_spec {Z : F} {P : Point} {pre : List Ge} (hl : pre.length = 8) (hp : ∀ j b, pre[j]? = some b → IsAff Z b ((2 * j + 1) • P) ∧ Mag 1 b.y)
    {d : Int} (hd : Digit d) (r : Ge) : IsAff Z (tableGet r pre d) (d • P) := by
  obtain ⟨h1, h2, h3⟩ := hd
  have hget : ∀ i : Nat, i < 8 → ∃ b, pre[i]? = some b := fun i hi => ⟨pre[i]'(by omega), List.getElem?_eq_getElem _⟩
  by_cases hpos : d > 0
  · obtain ⟨i, hi⟩ : ∃ i : Nat, d = 2 * i + 1 := ⟨(d / 2).toNat, by omega⟩
    obtain ⟨b, hb⟩ := hget i (by omega)
    obtain ⟨k1, k2⟩ := hp i b hb
    obtain ⟨m1, m2⟩ := aff_mag k1
    obtain ⟨p1, p2⟩ := pick_spec (i := i) pre 0 r (Nat.zero_le _) hb m1 m2
    have ea : d = d * ((if d > 0 then 1 else 0) * 2 - 1) := by rw [if_pos hpos]; ring
    have et : d.tdiv 2 = (i : Int) := by rw [Int.tdiv_eq_ediv_of_nonneg (by omega)]; omega
    have ef : (decide (d ≠ d)).toNat = 0 := by rw [decide_eq_false (fun h => h rfl)]; rfl
    rw [get_eq ea et rfl, p1, p2, ef, cmov_keep m2]
    have e : d • P = (2 * i + 1) • P := by rw [hi, ← natCast_zsmul]; push_cast; rfl
    rw [e]
    cases hQ : (2 * i + 1) • P with
    | zero => rw [hQ] at k1; exact k1.elim
    | some x y hn =>
      rw [hQ] at k1
      exact ⟨rfl, k1.2.1, k1.2.2⟩
  · obtain ⟨i, hi⟩ : ∃ i : Nat, d = -(2 * i + 1) := ⟨((-d) / 2).toNat, by omega⟩
    obtain ⟨b, hb⟩ := hget i (by omega)
    obtain ⟨k1, k2⟩ := hp i b hb
    obtain ⟨m1, m2⟩ := aff_mag k1
    obtain ⟨p1, p2⟩ := pick_spec (i := i) pre 0 r (Nat.zero_le _) hb m1 m2
    have ea : -d = d * ((if d > 0 then 1 else 0) * 2 - 1) := by rw [if_neg hpos]; ring
    have et : (-d).tdiv 2 = (i : Int) := by rw [Int.tdiv_eq_ediv_of_nonneg (by omega)]; omega
    have ef : (decide (d ≠ -d)).toNat = 1 := by rw [decide_eq_true (by omega)]; rfl
    rw [get_eq ea et rfl, p1, p2, ef]
    have e : d • P = -((2 * i + 1) • P) := by rw [hi, neg_zsmul, ← natCast_zsmul]; push_cast; rfl
    rw [e]
    cases hQ : (2 * i + 1) • P with
    | zero => rw [hQ] at k1; exact k1.elim
    | some x y hn =>
      rw [hQ] at k1
      obtain ⟨h', k⟩ := neg_some hn
      have hny : Stands 2 (negate b.y 1) (-(y * Z ^ 3)) := Stands.negate (m := 1) ⟨k2, k1.2.2.2⟩ (by decide)
      have hny8 := hny.mono (k := 8) (by decide)
      rw [k, cmov_take hny8.1]
      exact ⟨rfl, k1.2.1, hny8.eq (by ring)⟩

/-! ### The loop -/

theorem rep_double {g : F} (hg : g ≠ 0) {r : Gej} {Q : Point} (h : IsJac g r Q) (k : Nat) :
    IsJac g (Nat.repeat (fun r => (doubleVar r).1) k r) ((2 : Int) ^ k • Q) := by
  induction k with
  | zero => rw [pow_zero, one_zsmul]; exact h
  | succ k ih =>
    have := jac_double hg ih
    rw [← two_zsmul, ← mul_zsmul', mul_comm, ← pow_succ'] at this
    exact this

theorem loop_cons {pre : List Ge} {d : Int} {l : List Int} {r r' : Gej} {tmp tmp' : Ge}
    (e1 : r' = Nat.repeat (fun r => (doubleVar r).1) 4 r) (e2 : tmp' = tableGet tmp pre d) :
    mulLoop pre (d :: l) r tmp = mulLoop pre l (addGe r' tmp') tmp' := by rw [e1, e2]; rfl

theorem mulLoop_spec {Z : F} (hZ : Z ≠ 0) {P : Point} {pre : List Ge} (hl : pre.length = 8)
    (hp : ∀ j b, pre[j]? = some b → IsAff Z b ((2 * j + 1) • P) ∧ Mag 1 b.y) : ∀ (l : List Int) (r : Gej) (tmp : Ge) (v : Int), (∀ d ∈ l, Digit d) →
    IsJac Z r (v • P) → IsJac Z (mulLoop pre l r tmp) (l.foldl (fun v d => 16 * v + d) v • P) := by
  intro l
  induction l with
  | nil => intro r tmp v _ h; exact h
  | cons d l ih =>
    intro r tmp v hd h
    obtain ⟨r', e1⟩ : ∃ r', r' = Nat.repeat (fun r => (doubleVar r).1) 4 r := ⟨_, rfl⟩
    obtain ⟨tmp', e2⟩ : ∃ tmp', tmp' = tableGet tmp pre d := ⟨_, rfl⟩
    rw [loop_cons e1 e2, List.foldl_cons]
    refine ih _ _ _ (fun d' hd' => hd d' (List.mem_cons_of_mem _ hd')) ?_
    have h1 := rep_double hZ h 4
    rw [← e1, ← mul_zsmul', mul_comm, show (2 : Int) ^ 4 = 16 from rfl] at h1
    have h2 := get_spec hl hp (hd d (List.mem_cons_self ..)) tmp
    rw [← e2] at h2
    have := jac_addGe hZ h1 h2
    rwa [← add_zsmul] at this

theorem foldl_value (l : List Int) : l.reverse.foldl (fun v d => 16 * v + d) 0 = value l := by
  rw [List.foldl_reverse]
  induction l with
  | nil => rfl
  | cons d l ih => rw [List.foldr_cons, ih, value]; ring

theorem mulMain_eq {J : Junk} {a : Ge} {ds : List Int} {t : List Ge × Fe} {pre : List Ge} {d : Int} {l : List Int} {tmp : Ge} {r : Gej}
    (e1 : t = oddTable J (gejSetGe a)) (e2 : pre = t.1.map fun g => (⟨g.x, normalizeWeak g.y, g.infinity⟩ : Ge)) (e3 : ds.reverse = d :: l)
    (e4 : tmp = tableGet J.ge pre d) (e5 : r = mulLoop pre l (gejSetGe tmp) tmp) : mulMain J a ds = ⟨r.x, r.y, mul r.z t.2, r.infinity⟩ := by
  unfold mulMain
  dsimp only
  rw [e3, ← e1, ← e2]
  dsimp only
  rw [← e4, ← e5]

theorem mulMain_spec {J : Junk} {a : Ge} {P : Point} (ha : IsAff 1 a P) {ds : List Int} (h0 : ds ≠ []) (hd : ∀ d ∈ ds, Digit d) :
    IsJac 1 (mulMain J a ds) (value ds • P) := by
  have hP : P ≠ 0 := by intro h; rw [h] at ha; exact ha
  obtain ⟨t, et⟩ : ∃ t, t = oddTable J (gejSetGe a) := ⟨_, rfl⟩
  obtain ⟨Z, Z0, k1, k2, k3⟩ := oddTable_spec (J := J) hP (aff_ge ha)
  rw [← et] at k1 k2 k3
  obtain ⟨pre, ep⟩ : ∃ pre, pre = t.1.map fun g => (⟨g.x, normalizeWeak g.y, g.infinity⟩ : Ge) := ⟨_, rfl⟩
  have hl : pre.length = 8 := by rw [ep, List.length_map]; exact k2
  have hp : ∀ j b, pre[j]? = some b → IsAff Z b ((2 * j + 1) • P) ∧ Mag 1 b.y := by
    intro j b hb
    rw [ep, List.getElem?_map] at hb
    cases hc : t.1[j]? with
    | none => rw [hc] at hb; exact absurd hb (by simp)
    | some c =>
      rw [hc] at hb
      have hb : (⟨c.x, normalizeWeak c.y, c.infinity⟩ : Ge) = b := Option.some.inj hb
      have := k3 j c hc
      rw [← hb]
      generalize (2 * j + 1) • P = Q at this ⊢
      cases Q with
      | zero => exact this.elim
      | some x y hn =>
        have hw := this.2.2.weak (by decide)
        exact ⟨⟨this.1, this.2.1, hw.mono (by decide)⟩, hw.1⟩
  rcases hr : ds.reverse with _ | ⟨d, l⟩
  · exact absurd (List.reverse_eq_nil_iff.1 hr) h0
  · have hmem : ∀ d' ∈ d :: l, Digit d' := fun d' hd' => hd d' (List.mem_reverse.1 (by rw [hr]; exact hd'))
    obtain ⟨tmp, e4⟩ : ∃ tmp, tmp = tableGet J.ge pre d := ⟨_, rfl⟩
    obtain ⟨r, e5⟩ : ∃ r, r = mulLoop pre l (gejSetGe tmp) tmp := ⟨_, rfl⟩
    rw [mulMain_eq et ep hr e4 e5]
    have h1 := get_spec hl hp (hmem d (List.mem_cons_self ..)) J.ge
    rw [← e4] at h1
    have h2 := mulLoop_spec Z0 hl hp l (gejSetGe tmp) tmp d (fun d' hd' => hmem d' (List.mem_cons_of_mem _ hd')) (aff_ge h1)
    rw [← e5] at h2
    have e : l.foldl (fun v d => 16 * v + d) d = value ds := by
      rw [← foldl_value, hr, List.foldl_cons]; congr 1; ring
    rw [e] at h2
    exact jac_scale h2 k1 Z0

/-! ### The correction -/

theorem storage_words {a : Fe} {x : F} (h : Normal a x) : Words (toStorage a) :=
  (toStorage_spec (normal_iff.1 h).1.1 (normal_iff.1 h).1.2.1).1

theorem corr_eq {a c : Ge} {skew f : Nat} {s1 s2 : Pubkey} (e1 : c = geSetGej (doubleVar (gejSetGe a)).1) (e2 : s1 = pubkeySave a)
    (e3 : s2 = pubkeySave c) (e4 : f = (decide (skew = 2)).toNat) : correction a skew =
      geNeg ⟨fromStorage (storageCmov s1.x s2.x f), fromStorage (storageCmov s1.y s2.y f), false⟩ := by
  subst e1 e2 e3 e4; rfl

/-- A point that is not at infinity, written to memory. -/
theorem save_aff {b : Ge} {Q : Point} (h : IsAff 1 b Q) :
    Words (pubkeySave b).x ∧ Words (pubkeySave b).y ∧ IsAff 1 ⟨fromStorage (pubkeySave b).x, fromStorage (pubkeySave b).y, false⟩ Q := by
  cases Q with
  | zero => exact h.elim
  | some x y hn =>
    have hx := h.2.1.normalize (by decide)
    have hy := h.2.2.normalize (by decide)
    refine ⟨storage_words hx, storage_words hy, rfl, ?_, ?_⟩
    · show Stands 8 (fromStorage (toStorage (normalize b.x))) _
      rw [hx.storage]; exact hx.stands.mono (by decide)
    · show Stands 8 (fromStorage (toStorage (normalize b.y))) _
      rw [hy.storage]; exact hy.stands.mono (by decide)

theorem point_aff {b : Ge} {Q : Point} (h : IsPoint 8 b Q) (hQ : Q ≠ 0) : IsAff 1 b Q := by
  cases Q with
  | zero => exact absurd rfl hQ
  | some x y hn => exact aff_point.2 h

theorem corr_spec {a : Ge} {P : Point} (ha : IsAff 1 a P) {skew : Nat} (hs : skew = 1 ∨ skew = 2) :
    IsAff 1 (correction a skew) (-(skew • P)) := by
  have hP : P ≠ 0 := by intro h; rw [h] at ha; exact ha
  have h2 := odd_ne hP (k := 2) (by decide) (by decide)
  obtain ⟨c, e1⟩ : ∃ c, c = geSetGej (doubleVar (gejSetGe a)).1 := ⟨_, rfl⟩
  have hc := jac_ge (jac_double one_ne_zero (aff_ge ha))
  rw [← e1, two_eq] at hc
  have hc := point_aff hc h2
  rw [corr_eq e1 rfl rfl rfl]
  obtain ⟨a1, a2, a3⟩ := save_aff ha
  obtain ⟨b1, b2, b3⟩ := save_aff hc
  refine aff_neg ?_
  rcases hs with e | e <;> subst e
  · show IsAff 1 ⟨fromStorage (storageCmov _ _ 0), fromStorage (storageCmov _ _ 0), false⟩ _
    rw [(storageCmov_spec a1 b1).1, (storageCmov_spec a2 b2).1, one_nsmul]
    exact a3
  · show IsAff 1 ⟨fromStorage (storageCmov _ _ 1), fromStorage (storageCmov _ _ 1), false⟩ _
    rw [(storageCmov_spec a1 b1).2, (storageCmov_spec a2 b2).2]
    exact b3

/-- The product. -/
theorem ecmultConst_spec {J : Junk} {a : Ge} {P : Point} (ha : IsAff 1 a P) {s : Scalar64.Sc} {x : ZMod n} (hs : Spec.Scalar64.Holds s x) :
    IsJac 1 (ecmultConst J a s) (x.val • P) := by
  obtain ⟨w1, w2, ⟨c, w3⟩, w4⟩ := wnaf_spec hs
  have h1 := mulMain_spec (J := J) ha (ds := (wnafConst s 4).1) (by intro h; rw [h] at w1; simp at w1) w2
  have h2 := corr_spec ha w4
  have h3 := jac_addGe one_ne_zero h1 h2
  have e : value (wnafConst s 4).1 • P + -((wnafConst s 4).2 • P) = x.val • P := by
    rw [w3, add_zsmul, add_zsmul, mul_zsmul', natCast_zsmul, natCast_zsmul, natCast_zsmul, SecpCard.n_nsmul_all, add_zero, add_neg_cancel_right]
  rw [e] at h3
  exact h3

end Verif.Lemmas.EcmultConst
