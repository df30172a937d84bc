import Verif.Lemmas.EcmultDigits
import Verif.Lemmas.EcmultGen
/-
The sum of multiples of a point and of the base point (Model/Ecmult).
-/
namespace Verif.Lemmas.Ecmult
open Verif Verif.Spec.Secp Verif.Field52 Verif.Ec52 Verif.EcmultConst Verif.EcmultGen Verif.Ecmult Verif.Spec.Ecmult Verif.Lemmas.Group52
open Verif.Lemmas.EcmultConst (Stands.unique jac_z jac_drop rest_succ two_eq oddTable_spec save_aff)
open Verif.Scalar64 (Sc)
open Verif.Spec.Scalar64 (Holds)
open WeierstrassCurve.Affine

/-! ### gej_add_zinv_var -/

theorem zinv_eq {r a : Gej} {b : Ge} {bz : Fe} (ha : a.infinity = false) (hb : b.infinity = false) {az z12 u1 u2 s1 s2 h i : Fe}
    (e1 : az = mul a.z bz) (e2 : z12 = sqr az) (e3 : u1 = normalizeWeak a.x) (e4 : u2 = mul b.x z12) (e5 : s1 = normalizeWeak a.y)
    (e6 : s2 = mul (mul b.y z12) az) (e7 : h = add (negate u1 1) u2) (e8 : i = add (negate s1 1) s2) :
    addZinvVar r a b bz = (addFin r a u1 s1 h i h).1 := by
  subst e1 e2 e3 e4 e5 e6 e7 e8
  rw [addZinvVar, if_neg (by rw [hb]; decide), if_neg (by rw [ha]; decide)]

theorem zinv_inf {r a : Gej} {b : Ge} {bz b2 b3 : Fe} (ha : a.infinity = true) (hb : b.infinity = false) (e1 : b2 = sqr bz) (e2 : b3 = mul b2 bz) :
    addZinvVar r a b bz = ⟨mul b.x b2, mul b.y b3, setInt 1, b.infinity⟩ := by
  subst e1 e2
  rw [addZinvVar, if_neg (by rw [hb]; decide), if_pos ha]

theorem zinv_core {g : F} (hg : g ≠ 0) {r a : Gej} {b : Ge} {bz : Fe} {x1 y1 x2 y2 : F} {n1 : curve.Nonsingular x1 y1} {n2 : curve.Nonsingular x2 y2}
    (hr : Point.some x1 y1 n1 + Point.some x2 y2 n2 = 0 → Mag 8 r.x ∧ Mag 8 r.y ∧ Mag 8 r.z) (ha : IsJac g a (.some x1 y1 n1)) (hb : IsAff 1 b (.some x2 y2 n2))
    (hz : Stands 8 bz g) {az z12 u1 u2 s1 s2 h i : Fe}
    (e1 : az = mul a.z bz) (e2 : z12 = sqr az) (e3 : u1 = normalizeWeak a.x) (e4 : u2 = mul b.x z12) (e5 : s1 = normalizeWeak a.y)
    (e6 : s2 = mul (mul b.y z12) az) (e7 : h = add (negate u1 1) u2) (e8 : i = add (negate s1 1) s2) :
    IsJac g (addFin r a u1 s1 h i h).1 (.some x1 y1 n1 + .some x2 y2 n2) := by
  obtain ⟨-, z, z0, hx, hy, hZ⟩ := id ha
  obtain ⟨-, hx', hy'⟩ := id hb
  have e11 : Stands 1 az (z * g) := by rw [e1]; exact hZ.mul hz (by decide) (by decide)
  have e12 : Stands 1 z12 (z * g * (z * g)) := by rw [e2]; exact e11.sqr (by decide)
  have hu1 : Stands 1 u1 (x1 * (z * g) ^ 2) := by rw [e3]; exact hx.weak (by decide)
  have hu2 : Stands 1 u2 (x2 * (z * g) ^ 2) := by rw [e4]; exact (hx'.mul e12 (by decide) (by decide)).eq (by ring)
  have hs1 : Stands 1 s1 (y1 * (z * g) ^ 3) := by rw [e5]; exact hy.weak (by decide)
  have hs2 : Stands 1 s2 (y2 * (z * g) ^ 3) := by
    rw [e6]; exact ((hy'.mul e12 (by decide) (by decide)).mul e11 (by decide) (by decide)).eq (by ring)
  have hh : Stands 3 h ((x2 - x1) * (z * g) ^ 2) := by rw [e7]; exact ((hu1.negate (by decide)).add hu2 (by decide)).eq (by ring)
  have hi : Stands 3 i ((y2 - y1) * (z * g) ^ 3) := by rw [e8]; exact ((hs1.negate (by decide)).add hs2 (by decide)).eq (by ring)
  exact add_core hg ha hr (mul_ne_zero z0 hg) hu1 hs1 (hh.mono (by decide)) (hi.mono (by decide))
    (hh.mono (by decide)) hZ (by ring)

/-- The sum with a point whose coordinates have another factor. -/
theorem jac_zinv {g : F} (hg : g ≠ 0) {r a : Gej} {b : Ge} {bz : Fe} {P Q : Point} (hr : P + Q = 0 → Mag 8 r.x ∧ Mag 8 r.y ∧ Mag 8 r.z) (ha : IsJac g a P)
    (hb : IsAff 1 b Q) (hz : Stands 8 bz g) : IsJac g (addZinvVar r a b bz) (P + Q) := by
  cases Q with
  | zero => exact hb.elim
  | some x2 y2 n2 =>
    cases P with
    | zero =>
      obtain ⟨b2, e1⟩ : ∃ b2, b2 = sqr bz := ⟨_, rfl⟩
      obtain ⟨b3, e2⟩ : ∃ b3, b3 = mul b2 bz := ⟨_, rfl⟩
      rw [zinv_inf ha.1 hb.1 e1 e2, zero_def, zero_add]
      have k2 : Stands 1 b2 (g * g) := by rw [e1]; exact hz.sqr (by decide)
      have k3 : Stands 1 b3 (g * g * g) := by rw [e2]; exact k2.mul hz (by decide) (by decide)
      have h1 := int_stands (n := 1) (by decide)
      rw [Nat.cast_one] at h1
      exact ⟨hb.1, 1, one_ne_zero, ((hb.2.1.mul k2 (by decide) (by decide)).mono (by decide)).eq (by ring),
        ((hb.2.2.mul k3 (by decide) (by decide)).mono (by decide)).eq (by ring), h1.mono (by decide)⟩
    | some x1 y1 n1 =>
      rw [zinv_eq ha.1 hb.1 rfl rfl rfl rfl rfl rfl rfl rfl]
      exact zinv_core hg hr ha hb hz rfl rfl rfl rfl rfl rfl rfl rfl

theorem jac_mag {g : F} {a : Gej} {P : Point} (h : IsJac g a P) : Mag 8 a.x ∧ Mag 8 a.y ∧ Mag 8 a.z := by
  cases P with
  | zero => exact h.2
  | some x y hn => obtain ⟨-, z, -, hx, hy, hz⟩ := h; exact ⟨hx.1, hy.1, hz.1⟩

/-! ### The table of the base point -/

theorem odd_ne {P : Point} (hP : P ≠ 0) {k : Nat} (h : 0 < k) (hk : k < 1000000) : k • P ≠ 0 := by
  refine SecpCard.nsmul_ne ?_ hP
  have : 1000000 < n := by decide
  rw [Nat.mod_eq_of_lt (by omega)]; omega

theorem set_one {z : Fe} {a : Gej} {zr zi : Fe} (e : zi = inv z) : setTable z [(a, zr)] = ([setGejZinv a zi], mul zi zr) := by rw [e]; rfl

theorem set_cons {z : Fe} {a : Gej} {zr : Fe} {q : Gej × Fe} {l : List (Gej × Fe)} {t : List Ge × Fe} (e : t = setTable z (q :: l)) :
    setTable z ((a, zr) :: q :: l) = (setGejZinv a t.2 :: t.1, mul t.2 zr) := by rw [e]; rfl

theorem set_spec {J : Junk} {g : F} (hg : g ≠ 0) {P : Point} (hP : P ≠ 0) {d : Ge} (hd : IsAff g d (2 • P)) :
    ∀ (k i : Nat) (prev : Gej) (zr : Fe) (z0 r : F), i + k ≤ 100000 → IsJac g prev ((2 * i + 1) • P) → Stands 8 prev.z z0 → Stands 8 zr r →
    ∃ Z, Z ≠ 0 ∧ Stands 8 (lastZ prev.z (oddRest J d k prev)) Z ∧ ∀ zl, Stands 8 zl (Z * g) →
      (setTable zl ((prev, zr) :: oddRest J d k prev)).1.length = k + 1 ∧
      (∀ j b, (setTable zl ((prev, zr) :: oddRest J d k prev)).1[j]? = some b → IsAff 1 b ((2 * (i + j) + 1) • P)) ∧
      ∃ t, Stands 8 (setTable zl ((prev, zr) :: oddRest J d k prev)).2 t ∧ t * z0 * g = r := by
  intro k
  induction k with
  | zero =>
    intro i prev zr z0 r hik hj hz hr
    have hne := odd_ne hP (k := 2 * i + 1) (by omega) (by omega)
    obtain ⟨z', h0, hz'⟩ := jac_z hj hne
    have e := Stands.unique hz' hz
    subst e
    refine ⟨z', h0, hz, fun zl hzl => ?_⟩
    obtain ⟨zi, ei⟩ : ∃ zi, zi = inv zl := ⟨_, rfl⟩
    have hzi : Stands 1 zi (z' * g)⁻¹ := by rw [ei]; exact Ec52Points.inverse hzl (by decide)
    have hc : z' * g * (z' * g)⁻¹ = 1 := mul_inv_cancel₀ (mul_ne_zero h0 hg)
    have eo : oddRest J d 0 prev = [] := rfl
    rw [eo, set_one ei]
    refine ⟨rfl, ?_, (z' * g)⁻¹ * r, (hzi.mul hr (by decide) (by decide)).mono (by decide), by linear_combination r * hc⟩
    intro j b hb
    match j, hb with
    | 0, hb =>
      have hb : setGejZinv prev zi = b := Option.some.inj hb
      rw [← hb]
      refine aff_zinv hne hj (hzi.mono (by decide)) (fun z hz3 => ?_)
      rw [Stands.unique hz3 hz]; linear_combination hc
  | succ k ih =>
    intro i prev zr z0 r hik hj hz hr
    have hne := odd_ne hP (k := 2 * i + 1) (by omega) (by omega)
    have hne' := odd_ne hP (k := 2 * (i + 1) + 1) (by omega) (by omega)
    obtain ⟨z', h0, hz'⟩ := jac_z hj hne
    have e := Stands.unique hz' hz
    subst e
    have hsum : (2 * i + 1) • P + 2 • P = (2 * (i + 1) + 1) • P := by rw [← add_nsmul]; congr 1
    obtain ⟨q, eq⟩ : ∃ q, q = addGeVar J.gej prev d := ⟨_, rfl⟩
    have hq := jac_addGeVar hg (r := J.gej) (fun h => absurd (hsum.symm.trans h) hne') hj hd
    obtain ⟨f, t, k1, k2, k3⟩ := ratio_words hg (r := J.gej) hj hne hd (by rw [hsum]; exact hne')
    have k4 := k3 _ hz
    rw [← eq] at hq k1 k4
    rw [hsum] at hq
    obtain ⟨z2, h2, hz2⟩ := jac_z hq hne'
    have e := Stands.unique hz2 k4
    subst e
    have ht : t ≠ 0 := fun h => h2 (by rw [h, mul_zero])
    rw [rest_succ eq, k1, Option.getD_some]
    obtain ⟨Z, Z0, a1, a2⟩ := ih (i + 1) q.1 f (z' * t) t (by omega) hq k4 k2
    refine ⟨Z, Z0, a1, fun zl hzl => ?_⟩
    obtain ⟨b2, b3, s, b4, b5⟩ := a2 zl hzl
    have a6 : s * z' * g = 1 := by
      have : t * (s * z' * g - 1) = 0 := by linear_combination b5
      rcases mul_eq_zero.1 this with e | e
      · exact absurd e ht
      · exact sub_eq_zero.1 e
    obtain ⟨G, eG⟩ : ∃ G, G = setTable zl ((q.1, f) :: oddRest J d k q.1) := ⟨_, rfl⟩
    rw [set_cons eG]
    rw [← eG] at b2 b3 b4
    refine ⟨by rw [List.length_cons, b2], ?_, s * r, (b4.mul hr (by decide) (by decide)).mono (by decide), by linear_combination r * a6⟩
    intro j b hb
    match j, hb with
    | 0, hb =>
      have hb : setGejZinv prev G.2 = b := Option.some.inj hb
      rw [← hb]
      refine aff_zinv hne hj b4 (fun z hz3 => ?_)
      rw [Stands.unique hz3 hz]; linear_combination a6
    | j + 1, hb =>
      have := b3 j b hb
      rwa [show 2 * (i + 1 + j) + 1 = 2 * (i + (j + 1)) + 1 by omega] at this

theorem storage_eq {J : Junk} {k : Nat} {a d p0 : Gej} {l : List (Gej × Fe)} {b : Ge} {z : Fe} (e1 : d = (doubleVar a).1) (e2 : b = setGejZinv a d.z) (e3 : p0 = ⟨b.x, b.y, a.z, false⟩)
    (e4 : l = oddRest J ⟨d.x, d.y, false⟩ k p0) (e5 : z = mul (lastZ p0.z l) d.z) :
    storageTable J k a = (setTable z ((p0, d.z) :: l)).1.map pubkeySave := by
  subst e1 e2 e3 e4 e5; rfl

theorem storage_spec {J : Junk} {k : Nat} (hk : k ≤ 100000) {a : Gej} {P : Point} (hP : P ≠ 0) (ha : IsJac 1 a P) :
    (storageTable J k a).length = k + 1 ∧ ∀ (j : Nat) (e : Pubkey), (storageTable J k a)[j]? = some e → IsAff 1 (geFromStorage e) ((2 * j + 1) • P) := by
  obtain ⟨d, ed⟩ : ∃ d, d = (doubleVar a).1 := ⟨_, rfl⟩
  have hd := jac_double one_ne_zero ha
  rw [← ed, two_eq] at hd
  have h2 := odd_ne hP (k := 2) (by decide) (by decide)
  obtain ⟨D, D0, hD⟩ := jac_z hd h2
  obtain ⟨z, z0, hz⟩ := jac_z ha hP
  have hdg := jac_drop hd h2 hD
  rw [mul_one] at hdg
  obtain ⟨b, eb⟩ : ∃ b, b = setGejZinv a d.z := ⟨_, rfl⟩
  obtain ⟨p0, ep⟩ : ∃ p0 : Gej, p0 = ⟨b.x, b.y, a.z, false⟩ := ⟨_, rfl⟩
  have hb : IsAff (z * D) b P := by
    rw [eb]
    refine aff_zinv hP ha hD (fun z' hz' => ?_)
    rw [Stands.unique hz' hz, mul_one]
  have hp0 : IsJac D p0 P := by
    rw [ep]
    cases P with
    | zero => exact absurd rfl hP
    | some x y hn => exact ⟨rfl, z, z0, hb.2.1, hb.2.2, hz⟩
  have hpz : Stands 8 p0.z z := by rw [ep]; exact hz
  obtain ⟨l, el⟩ : ∃ l, l = oddRest J ⟨d.x, d.y, false⟩ k p0 := ⟨_, rfl⟩
  obtain ⟨zl, ez⟩ : ∃ zl, zl = mul (lastZ p0.z l) d.z := ⟨_, rfl⟩
  rw [storage_eq ed eb ep el ez]
  obtain ⟨Z, Z0, a1, a2⟩ := set_spec (J := J) D0 hP hdg k 0 p0 d.z z D (by omega) (by rw [mul_zero, zero_add, one_nsmul]; exact hp0) hpz hD
  rw [← el] at a1 a2
  obtain ⟨b1, b2, -⟩ := a2 zl (by rw [ez]; exact (a1.mul hD (by decide) (by decide)).mono (by decide))
  refine ⟨by rw [List.length_map, b1], fun j e he => ?_⟩
  rw [List.getElem?_map] at he
  cases hc : (setTable zl ((p0, d.z) :: l)).1[j]? with
  | none => rw [hc] at he; cases he
  | some c =>
    rw [hc] at he
    have he : pubkeySave c = e := Option.some.inj he
    have := b2 j c hc
    rw [zero_add] at this
    rw [← he]
    exact (save_aff this).2.2

theorem G_ne : (G : Point) ≠ 0 := by intro h; cases h

/-- The table that the program builds. -/
theorem preG_spec (J : Junk) : Odds (preG J) :=
  storage_spec (J := J) (k := 16383) (by decide) G_ne (aff_ge EcmultGen.constG_aff)

/-! ### Reading the tables -/

theorem digit_pos {w : Nat} {d : Int} (hd : Digit w d) (h : d > 0) : ∃ j : Nat, ((d - 1) / 2).toNat = j ∧ d = 2 * j + 1 ∧ 2 * j + 1 < 2 ^ (w - 1) := by
  rcases hd with e | ⟨h1, h2, h3⟩
  · omega
  · refine ⟨_, rfl, by omega, ?_⟩
    have : ((2 ^ (w - 1) : Nat) : Int) = 2 ^ (w - 1) := by push_cast; rfl
    rw [← this] at h3
    omega

theorem digit_neg {w : Nat} {d : Int} (hd : Digit w d) (h0 : d ≠ 0) (h : ¬ d > 0) : ∃ j : Nat, ((-d - 1) / 2).toNat = j ∧ d = -(2 * j + 1) ∧ 2 * j + 1 < 2 ^ (w - 1) := by
  rcases hd with e | ⟨h1, h2, h3⟩
  · omega
  · refine ⟨_, rfl, by omega, ?_⟩
    have : ((2 ^ (w - 1) : Nat) : Int) = 2 ^ (w - 1) := by push_cast; rfl
    rw [← this] at h2
    omega

theorem pos_smul (P : Point) (j : Nat) : ((2 * j + 1 : Int)) • P = (2 * j + 1) • P := by rw [← natCast_zsmul]; push_cast; rfl
theorem neg_smul (P : Point) (j : Nat) : (-(2 * j + 1 : Int)) • P = -((2 * j + 1) • P) := by rw [neg_zsmul, pos_smul]

theorem getGe_spec {J : Junk} {Z : F} {P : Point} {pre : List Ge} (hl : pre.length = 8) (hp : ∀ j b, pre[j]? = some b → IsAff Z b ((2 * j + 1) • P))
    {d : Int} (hd : Digit 5 d) (h0 : d ≠ 0) : IsAff Z (getGe J pre d) (d • P) := by
  rw [getGe]
  by_cases h : d > 0
  · obtain ⟨j, e1, e2, e3⟩ := digit_pos hd h
    rw [if_pos h, e1, e2, pos_smul]
    exact hp j _ (EcmultGen.getD_some (by omega) _)
  · obtain ⟨j, e1, e2, e3⟩ := digit_neg hd h0 h
    rw [if_neg h, e1, e2, neg_smul]
    exact aff_neg (hp j _ (EcmultGen.getD_some (by omega) _))

theorem getStored_spec {J : Junk} {pg : List Pubkey} (hp : Odds pg) {d : Int} (hd : Digit 16 d) (h0 : d ≠ 0) : IsAff 1 (getStored J pg d) (d • G) := by
  have hl := hp.1
  rw [getStored]
  by_cases h : d > 0
  · obtain ⟨j, e1, e2, e3⟩ := digit_pos hd h
    rw [if_pos h, e1, e2, pos_smul]
    exact hp.2 j _ (EcmultGen.getD_some (by omega) _)
  · obtain ⟨j, e1, e2, e3⟩ := digit_neg hd h0 h
    rw [if_neg h, e1, e2, neg_smul]
    exact aff_neg (hp.2 j _ (EcmultGen.getD_some (by omega) _))

/-! ### The loop -/

/-- The value of the digits from position `i` on. -/
def hi (l : List Int) (i : Nat) : Int := value (l.drop i)

theorem hi_step (l : List Int) (i : Nat) : hi l i = l.getD i 0 + 2 * hi l (i + 1) := by
  unfold hi
  rcases Nat.lt_or_ge i l.length with h | h
  · rw [List.drop_eq_getElem_cons h, value, List.getD_eq_getElem?_getD, List.getElem?_eq_getElem h]; rfl
  · rw [List.drop_eq_nil_of_le h, List.drop_eq_nil_of_le (by omega), List.getD_eq_getElem?_getD, List.getElem?_eq_none h]; rfl

theorem hi_zero {l : List Int} {b : Nat} (h : ∀ j d, l[j]? = some d → b ≤ j → d = 0) : ∀ i, b ≤ i → hi l i = 0 := by
  have key : ∀ k i, b ≤ i → l.length ≤ i + k → hi l i = 0 := by
    intro k
    induction k with
    | zero => intro i _ hl; unfold hi; rw [List.drop_eq_nil_of_le (by omega)]; rfl
    | succ k ih =>
      intro i hb hl
      rw [hi_step, ih (i + 1) (by omega) (by omega), List.getD_eq_getElem?_getD]
      cases hd : l[i]? with
      | none => rfl
      | some d => rw [h i d hd hb]; rfl
  exact fun i hb => key l.length i hb (by omega)

/-- Digits with the number of them that matter. -/
def Dig (w : Nat) (t : List Int × Nat) : Prop := (∀ d ∈ t.1, Digit w d) ∧ ∀ j d, t.1[j]? = some d → t.2 ≤ j → d = 0

theorem dig_getD {w : Nat} {t : List Int × Nat} (h : Dig w t) (i : Nat) : Digit w (t.1.getD i 0) := by
  rw [List.getD_eq_getElem?_getD]
  cases hd : t.1[i]? with
  | none => exact Or.inl rfl
  | some d => exact h.1 d (List.mem_of_getElem? hd)

theorem dig_skip {w : Nat} {t : List Int × Nat} (h : Dig w t) {i : Nat} (hc : ¬ (i < t.2 ∧ t.1.getD i 0 ≠ 0)) : t.1.getD i 0 = 0 := by
  by_cases h0 : t.1.getD i 0 = 0
  · exact h0
  · have hi : t.2 ≤ i := by
      rcases Nat.lt_or_ge i t.2 with h' | h'
      · exact absurd ⟨h', h0⟩ hc
      · exact h'
    rw [List.getD_eq_getElem?_getD]
    cases hd : t.1[i]? with
    | none => rfl
    | some d => rw [h.2 i d hd hi]; rfl

theorem stepA_spec {J : Junk} {Z : F} (hZ : Z ≠ 0) {P : Point} {pre : List Ge} (hl : pre.length = 8) (hp : ∀ j b, pre[j]? = some b → IsAff Z b ((2 * j + 1) • P))
    {wa : List Int × Nat} (hw : Dig 5 wa) {i : Nat} {r : Gej} {Q : Point} (h : IsJac Z r Q) : IsJac Z (stepA J pre wa i r) (Q + wa.1.getD i 0 • P) := by
  rw [stepA]
  by_cases hc : i < wa.2 ∧ wa.1.getD i 0 ≠ 0
  · rw [if_pos hc]
    exact jac_addGeVar hZ (fun _ => jac_mag h) h (getGe_spec hl hp (dig_getD hw i) hc.2)
  · rw [if_neg hc, dig_skip hw hc, zero_zsmul, add_zero]; exact h

theorem stepG_spec {J : Junk} {Z : F} (hZ : Z ≠ 0) {z : Fe} (hz : Stands 8 z Z) {pg : List Pubkey} (hp : Odds pg)
    {wg : List Int × Nat} (hw : Dig 16 wg) {i : Nat} {r : Gej} {Q : Point} (h : IsJac Z r Q) : IsJac Z (stepG J pg z wg i r) (Q + wg.1.getD i 0 • G) := by
  rw [stepG]
  by_cases hc : i < wg.2 ∧ wg.1.getD i 0 ≠ 0
  · rw [if_pos hc]
    exact jac_zinv hZ (fun _ => jac_mag h) h (getStored_spec hp (dig_getD hw i) hc.2) hz
  · rw [if_neg hc, dig_skip hw hc, zero_zsmul, add_zero]; exact h

theorem loop_succ (J : Junk) (preA : List Ge) (pg : List Pubkey) (z : Fe) (wa wg : List Int × Nat) (i : Nat) (r : Gej) :
    straussLoop J preA pg z wa wg (i + 1) r = straussLoop J preA pg z wa wg i (stepG J pg z wg i (stepA J preA wa i (doubleVar r).1)) := rfl

theorem arith (P : Point) (a b c d : Int) : a • P + b • G + (a • P + b • G) + c • P + d • G = (c + 2 * a) • P + (d + 2 * b) • G := by
  rw [add_zsmul, add_zsmul, mul_zsmul', mul_zsmul', two_zsmul, two_zsmul, zsmul_add, zsmul_add]
  generalize a • P = x
  generalize b • G = y
  generalize c • P = u
  generalize d • G = v
  abel

theorem loop_spec {J : Junk} {Z : F} (hZ : Z ≠ 0) {z : Fe} (hz : Stands 8 z Z) {P : Point} {pre : List Ge} {wa wg : List Int × Nat}
    (hA : ∀ (i : Nat) (r : Gej) (Q : Point), IsJac Z r Q → IsJac Z (stepA J pre wa i r) (Q + wa.1.getD i 0 • P))
    {pg : List Pubkey} (hp : Odds pg) (hg : Dig 16 wg) : ∀ (i : Nat) (r : Gej), IsJac Z r (hi wa.1 i • P + hi wg.1 i • G) →
    IsJac Z (straussLoop J pre pg z wa wg i r) (hi wa.1 0 • P + hi wg.1 0 • G) := by
  intro i
  induction i with
  | zero => intro r h; exact h
  | succ i ih =>
    intro r h
    rw [loop_succ]
    apply ih
    have h1 := hA i _ _ (jac_double hZ h)
    have h2 := stepG_spec (J := J) hZ hz hp hg (i := i) h1
    rw [arith, ← hi_step, ← hi_step] at h2
    exact h2

theorem end_spec {g : F} {r : Gej} {s : Fe} {P : Point} (h : IsJac g r P) (hs : Stands 8 s g) (hg : g ≠ 0) : IsJac 1 (straussEnd r s) P := by
  have := jac_scale h hs hg
  rw [straussEnd]
  cases P with
  | zero =>
    rw [if_neg (by rw [h.1]; decide)]; exact h
  | some x y hn =>
    rw [if_pos (by rw [h.1]; rfl)]; exact this

theorem inf_jac {g : F} : IsJac g gejInfinity 0 := by
  refine jac_zero.2 ⟨rfl, ?_, ?_, ?_⟩ <;> exact (int_stands (n := 0) (by decide)).1.mono (by decide)

theorem ecmult_zero {J : Junk} {pg : List Pubkey} {a : Gej} {na ng : Sc} {wg : List Int × Nat} (e1 : wg = wnaf 16 ng) (h : Scalar64.isZero na || a.infinity) :
    ecmult J pg a na ng = straussEnd (straussLoop J [] pg (setInt 1) ([], 0) wg wg.2 gejInfinity) (setInt 1) := by
  subst e1; rw [ecmult, if_pos h]

theorem ecmult_some {J : Junk} {pg : List Pubkey} {a : Gej} {na ng : Sc} {wa wg : List Int × Nat} {t : List Ge × Fe} (e1 : wg = wnaf 16 ng) (e2 : wa = wnaf 5 na)
    (e3 : t = oddTable J a) (h : ¬ (Scalar64.isZero na || a.infinity)) :
    ecmult J pg a na ng = straussEnd (straussLoop J t.1 pg t.2 wa wg (max wa.2 wg.2) gejInfinity) t.2 := by
  subst e1 e2 e3; rw [ecmult, if_neg h]

theorem mod_smul {v : Int} {x : ZMod n} (h : v = x.val ∨ v = x.val - n) (P : Point) : v • P = x.val • P := by
  rcases h with e | e <;> rw [e]
  · exact natCast_zsmul _ _
  · rw [sub_zsmul, natCast_zsmul, natCast_zsmul, SecpCard.n_nsmul_all, neg_zero, add_zero]

/-- The sum of the two multiples. -/
theorem ecmult_spec {J : Junk} {pg : List Pubkey} (hp : Odds pg) {a : Gej} {P : Point} (ha : IsJac 1 a P) {na ng : Sc} {x y : ZMod n} (hx : Holds na x)
    (hy : Holds ng y) : IsJac 1 (ecmult J pg a na ng) (x.val • P + y.val • G) := by
  obtain ⟨wg, eg⟩ : ∃ wg, wg = wnaf 16 ng := ⟨_, rfl⟩
  obtain ⟨-, g2, g3, g4, g5⟩ := EcmultDigits.wnaf_spec (w := 16) (by decide) (by decide) hy
  rw [← eg] at g2 g3 g4 g5
  have hg : Dig 16 wg := ⟨g2, g5⟩
  have eG : hi wg.1 0 • G = y.val • G := mod_smul (by unfold hi; exact g3) G
  by_cases h : Scalar64.isZero na || a.infinity
  · rw [ecmult_zero eg h]
    have h0 : x.val • P = 0 := by
      rw [Bool.or_eq_true] at h
      rcases h with h | h
      · rw [Scalar64.isZero_val, decide_eq_true_iff, hx.2] at h
        rw [h, zero_nsmul]
      · cases P with
        | zero => exact nsmul_zero _
        | some x1 y1 n1 => rw [ha.1] at h; cases h
    have h1 : Stands 8 (setInt 1) (1 : F) := by
      have h1 := int_stands (n := 1) (by decide)
      rw [Nat.cast_one] at h1
      exact h1.mono (by decide)
    have := loop_spec (J := J) (pre := []) (P := P) (wa := ([], 0)) one_ne_zero h1 (fun i r Q hQ => by
      rw [stepA, if_neg (by simp)]
      have e : (([], 0) : List Int × Nat).1.getD i 0 = 0 := by simp
      rw [e, zero_zsmul, add_zero]; exact hQ) hp hg wg.2 gejInfinity (by
        rw [hi_zero g5 _ (Nat.le_refl _), zero_zsmul, add_zero]
        have e : hi (([], 0) : List Int × Nat).1 wg.2 = 0 := by unfold hi; rw [List.drop_nil]; rfl
        rw [e, zero_zsmul]; exact inf_jac)
    have e : hi (([], 0) : List Int × Nat).1 0 = 0 := rfl
    rw [e, zero_zsmul, eG, ← h0] at this
    exact end_spec this h1 one_ne_zero
  · obtain ⟨wa, ea⟩ : ∃ wa, wa = wnaf 5 na := ⟨_, rfl⟩
    obtain ⟨t, et⟩ : ∃ t, t = oddTable J a := ⟨_, rfl⟩
    rw [ecmult_some eg ea et h]
    obtain ⟨-, a2, a3, a4, a5⟩ := EcmultDigits.wnaf_spec (w := 5) (by decide) (by decide) hx
    rw [← ea] at a2 a3 a4 a5
    have hP : P ≠ 0 := by
      intro e
      rw [e] at ha
      rw [(jac_zero.1 ha).1, Bool.or_true] at h
      exact h rfl
    obtain ⟨Z, Z0, k1, k2, k3⟩ := oddTable_spec (J := J) hP ha
    rw [← et] at k1 k2 k3
    have eP : hi wa.1 0 • P = x.val • P := mod_smul (by unfold hi; exact a3) P
    have := loop_spec (J := J) (pre := t.1) (P := P) (wa := wa) Z0 k1 (fun i r Q hQ => stepA_spec Z0 k2 k3 ⟨a2, a5⟩ hQ) hp hg (max wa.2 wg.2) gejInfinity (by
        rw [hi_zero g5 _ (Nat.le_max_right _ _), hi_zero a5 _ (Nat.le_max_left _ _), zero_zsmul, zero_zsmul, add_zero]; exact inf_jac)
    rw [eP, eG] at this
    exact end_spec this k1 Z0

end Verif.Lemmas.Ecmult
