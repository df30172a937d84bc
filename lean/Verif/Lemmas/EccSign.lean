import Verif.Lemmas.EccLadder
import Verif.Lemmas.Bn
/-
hsk_ecc_make_pubkey and hsk_ecc_sign.
-/
namespace Verif.Lemmas.EccSign
open Verif Verif.Model.Ecc Verif.Spec.Ecc Verif.Lemmas.EccVli Verif.Lemmas.EccMod Verif.Lemmas.EccInv
open Verif.Lemmas.EccMulN Verif.Lemmas.EccOrder Verif.Lemmas.EccCurve Verif.Lemmas.EccLadder WeierstrassCurve.Affine

theorem val_curveN : val curveN = n := by decide +kernel
theorem curveN_length : curveN.length = 4 := rfl

attribute [local irreducible] Verif.Spec.Ecc.p Verif.Spec.Ecc.n Verif.Spec.Ecc.G curve F pointMult modMult modInv

theorem ldBe64_val {b : Bytes} (h : 8 ≤ b.length) : (ldBe64 b).toNat = beNat (b.take 8) := by
  rw [ldBe64, UInt64.toNat_ofNat']
  have := beNat_lt (b.take 8)
  rw [List.length_take, Nat.min_eq_left h] at this
  exact Nat.mod_eq_of_lt this

theorem bytes2native_spec {b : Bytes} (h : b.length = 32) : (bytes2native b).length = 4 ∧ val (bytes2native b) = beNat b := by
  refine ⟨rfl, ?_⟩
  have e : b = b.take 8 ++ ((b.drop 8).take 8 ++ ((b.drop 16).take 8 ++ (b.drop 24).take 8)) := by
    have h1 : b.drop 16 = (b.drop 16).take 8 ++ b.drop 24 := by
      conv_lhs => rw [← List.take_append_drop 8 (b.drop 16)]
      rw [List.drop_drop]
    have h2 : b.drop 8 = (b.drop 8).take 8 ++ b.drop 16 := by
      conv_lhs => rw [← List.take_append_drop 8 (b.drop 8)]
      rw [List.drop_drop]
    have h3 : (b.drop 24).take 8 = b.drop 24 := List.take_of_length_le (by rw [List.length_drop]; omega)
    rw [h3, ← h1, ← h2, List.take_append_drop]
  have l1 : ((b.drop 8).take 8).length = 8 := by rw [List.length_take, List.length_drop]; omega
  have l2 : ((b.drop 16).take 8).length = 8 := by rw [List.length_take, List.length_drop]; omega
  have l3 : ((b.drop 24).take 8).length = 8 := by rw [List.length_take, List.length_drop]; omega
  conv_rhs => rw [e]
  rw [Bn.beNat_append, Bn.beNat_append, Bn.beNat_append]
  simp only [List.length_append, l1, l2, l3]
  simp only [bytes2native, val]
  rw [ldBe64_val (b := b) (by omega), ldBe64_val (by rw [List.length_drop]; omega), ldBe64_val (by rw [List.length_drop]; omega),
    ldBe64_val (by rw [List.length_drop]; omega)]
  ring

theorem native2bytes_spec {v : Vli} (h : v.length = 4) : native2bytes v = beBytes 32 (val v) := by
  obtain ⟨a, b, c, d, rfl⟩ := four h
  have h0 := a.toNat_lt; have h1 := b.toNat_lt; have h2 := c.toNat_lt; have h3 := d.toNat_lt
  have hv := val_lt4 h
  apply beNat_inj
  · simp [native2bytes]
  · rw [beNat_beBytes_of_lt (by omega)]
    unfold native2bytes
    rw [Bn.beNat_append, Bn.beNat_append, Bn.beNat_append]
    simp only [beBytes_length, dig, List.getD_cons_zero, List.getD_cons_succ, val]
    rw [beNat_beBytes_of_lt (by omega), beNat_beBytes_of_lt (by omega), beNat_beBytes_of_lt (by omega), beNat_beBytes_of_lt (by omega)]
    ring

theorem reduceN_spec {v : Vli} (h : v.length = 4) : (reduceN v).length = 4 ∧ val (reduceN v) = val v % n := by
  have hv := val_lt4 h
  have hn := n_eq
  unfold reduceN
  by_cases hc : vcmp curveN v ≠ 1
  · have hle : n ≤ val v := by
      have := mt (cmp_one curveN_length h).2 hc
      rw [val_curveN] at this; omega
    rw [if_pos hc]
    refine ⟨sub_length h curveN_length, ?_⟩
    rw [sub_le h curveN_length (by rw [val_curveN]; exact hle), val_curveN, Nat.mod_eq_sub_mod hle, Nat.mod_eq_of_lt (by omega)]
  · rw [if_neg hc]
    have := (cmp_one curveN_length h).1 (not_not.1 hc)
    rw [val_curveN] at this
    exact ⟨h, (Nat.mod_eq_of_lt this).symm⟩

theorem F_val {v : Vli} (h : Red v) : (F v).val = val v := by
  rw [F, ZMod.val_natCast, Nat.mod_eq_of_lt]
  rw [← P_p]; exact h.2

theorem encode_affine {q : Pt} {Q : Point} (h : Affine q Q) : encode Q = some (native2bytes q.x ++ native2bytes q.y) := by
  obtain ⟨h1, h2, h3, rfl⟩ := h
  rw [encode, F_val h1, F_val h2, native2bytes_spec h1.1, native2bytes_spec h2.1]

theorem zero_zero : ¬ curve.Nonsingular (0 : ZMod p) (0 : ZMod p) := by
  intro h
  have h1 := (equation_iff _ _).1 h.1
  rw [short.a1, short.a2, short.a3, short.a4] at h1
  have h2 : curve.a₆ = 0 := by linear_combination -h1
  have h3 : curve.a₆ = ((b : Nat) : ZMod p) := by unfold curve; rfl
  rw [h3] at h2
  have := cast_ne (a := b) (b := 0) (by decide +kernel) p_pos (by decide +kernel)
  rw [Nat.cast_zero] at this
  exact this h2

theorem affine_nonzero {q : Pt} {Q : Point} (h : Affine q Q) : ptIsZero q = false := by
  rw [Bool.eq_false_iff]
  intro hc
  rw [ptIsZero, Bool.and_eq_true, isZero_iff, isZero_iff] at hc
  obtain ⟨h1, h2, h3, -⟩ := h
  unfold F at h3
  rw [hc.1, hc.2, Nat.cast_zero] at h3
  exact zero_zero h3

/-- hsk_ecc_make_pubkey. -/
theorem makePubkey_spec {priv : Bytes} (h : priv.length = 32) :
    (beNat priv % n ≠ 0 → beNat priv % n ≠ 1 → beNat priv % n ≠ n - 1 → makePubkey priv = encode (beNat priv • G)) ∧
    (beNat priv % n = n - 1 → makePubkey priv = none) ∧
    (beNat priv % n = 1 → makePubkey priv = encode (3 • G)) ∧
    (beNat priv = n → makePubkey priv = encode (2 • G)) ∧
    (beNat priv = 0 → makePubkey priv = none) := by
  obtain ⟨b1, b2⟩ := bytes2native_spec h
  obtain ⟨r1, r2⟩ := reduceN_spec b1
  rw [b2] at r2
  have hn := n_eq
  have hlt : beNat priv % n < n := Nat.mod_lt _ (by omega)
  have nz : beNat priv ≠ 0 → isZero (bytes2native priv) = false := by
    intro hc
    rw [Bool.eq_false_iff, Ne, isZero_iff, b2]; exact hc
  have go : ∀ Q, beNat priv ≠ 0 → Affine (pointMult curveG (reduceN (bytes2native priv))) Q → makePubkey priv = encode Q := by
    intro Q h0 hQ
    unfold makePubkey
    dsimp only
    rw [nz h0, if_neg (by decide)]
    rw [affine_nonzero hQ, if_neg (by decide), encode_affine hQ]
  have pos : beNat priv % n ≠ 0 → beNat priv ≠ 0 := by
    intro hc h0; rw [h0, Nat.zero_mod] at hc; exact hc rfl
  refine ⟨fun h0 h1 h2 => ?_, fun h0 => ?_, fun h0 => ?_, fun h0 => ?_, fun h0 => ?_⟩
  · refine go _ (pos h0) ?_
    have := pointMult_spec r1 (by omega) (by omega)
    rwa [r2, nsmul_mod] at this
  · have ht := pointMult_top r1 (by omega)
    have ht' : ptIsZero (pointMult curveG (reduceN (bytes2native priv))) = true := by
      rw [ptIsZero, Bool.and_eq_true, isZero_iff, isZero_iff]
      exact ⟨val_eq_zero ht.1, val_eq_zero ht.2⟩
    unfold makePubkey
    dsimp only
    rw [nz (pos (by omega)), if_neg (by decide)]
    rw [ht', if_pos rfl]
  · refine go _ (pos (by omega)) ?_
    have := pointMult_small r1 (by omega)
    rwa [r2, h0] at this
  · refine go _ (by omega) ?_
    have := pointMult_small r1 (by rw [r2, h0, Nat.mod_self]; omega)
    rwa [r2, h0, Nat.mod_self] at this
  · unfold makePubkey
    dsimp only
    rw [(isZero_iff _).2 (b2.trans h0), if_pos rfl]

/-! ### Signing -/

/-- The result of the loop comes from a draw that is not zero, and the point for it has an abscissa that is not
zero modulo `n`. -/
theorem signLoop_ok (rand : Nat → Option Vli) : ∀ (left : Nat) (px : Option Vli) (k x : Vli),
    (∀ v, px = some v → isZero v = true) → signLoop rand left px = .ok (k, x) →
    ∃ i v, rand i = some v ∧ isZero v = false ∧ k = reduceN v ∧ x = reduceN (pointMult curveG (reduceN v)).x ∧ isZero x = false := by
  intro left
  induction left with
  | zero => intro px k x _ h; exact nomatch h
  | succ left ih =>
    intro px k x hpx h
    rw [signLoop] at h
    cases hr : rand (16 - (left + 1)) with
    | none => rw [hr] at h; exact nomatch h
    | some v =>
      rw [hr] at h
      dsimp only at h
      cases hz : isZero v with
      | true =>
        rw [hz, if_pos rfl] at h
        cases px with
        | none => exact nomatch h
        | some y =>
          dsimp only at h
          rw [hpx y rfl, if_pos rfl] at h
          exact ih _ k x hpx h
      | false =>
        rw [hz, if_neg (by decide)] at h
        cases hx : isZero (reduceN (pointMult curveG (reduceN v)).x) with
        | true =>
          rw [hx, if_pos rfl] at h
          refine ih _ k x ?_ h
          intro w hw
          cases hw; exact hx
        | false =>
          rw [hx, if_neg (by decide)] at h
          cases h
          exact ⟨_, v, hr, hz, rfl, rfl, hx⟩

/-- The last part of hsk_ecc_sign. -/
theorem sign_eq {rand : Nat → Option Vli} {priv hash sig : Bytes} (hp : priv.length = 32) (hh : hash.length = 32)
    (hl : ∀ i v, rand i = some v → v.length = 4) (h : sign rand priv hash = .ok sig) :
    ∃ i v x, rand i = some v ∧ val v ≠ 0 ∧ v.length = 4 ∧ x = reduceN (pointMult curveG (reduceN v)).x ∧ val x ≠ 0 ∧
      ∃ k', (val v % n ≠ 0 → k' * (val v % n) % n = 1) ∧ (val v % n = 0 → k' = 0) ∧
      (x.length = 4 → sig = beBytes 32 (val x) ++ beBytes 32 ((beNat hash + val x * beNat priv) * k' % n)) := by
  unfold sign at h
  cases hs : signLoop rand 16 none with
  | err e => rw [hs] at h; exact nomatch h
  | ub => rw [hs] at h; exact nomatch h
  | ok o =>
    obtain ⟨k, x⟩ := o
    rw [hs] at h
    have h := (Out.ok.inj h).symm
    obtain ⟨i, v, h1, h2, h3, h4, h5⟩ := signLoop_ok rand 16 none k x (fun v hv => nomatch hv) hs
    have hn := n_eq
    have hv4 := hl i v h1
    refine ⟨i, v, x, h1, ?_, hv4, h4, ?_, val (modInv k curveN), ?_, ?_, ?_⟩
    · intro hc; rw [(isZero_iff v).2 hc] at h2; cases h2
    · intro hc; rw [(isZero_iff x).2 hc] at h5; cases h5
    all_goals obtain ⟨r1, r2⟩ := reduceN_spec hv4
    all_goals rw [← h3] at r1 r2
    · intro hne
      have hco : Nat.Coprime (val k) (val curveN) := by
        rw [val_curveN]
        refine (Nat.Prime.coprime_iff_not_dvd n_prime).2 (fun hd => ?_) |>.symm
        have := Nat.le_of_dvd (by omega) hd
        have := Nat.mod_lt (val v) (show 0 < n by omega)
        omega
      have := (modInv_spec r1 curveN_length (by rw [val_curveN]; omega) (by rw [val_curveN]; omega) hco).2.2
      rwa [r2, val_curveN] at this
    · intro h0
      rw [h0] at r2
      rw [modInv_zero r2]; rfl
    · intro hx
      have k1 : (modInv k curveN).length = 4 := by
        by_cases h0 : val k = 0
        · rw [modInv_zero h0]; rfl
        · have hco : Nat.Coprime (val k) (val curveN) := by
            rw [val_curveN]
            refine (Nat.Prime.coprime_iff_not_dvd n_prime).2 (fun hd => ?_) |>.symm
            have := Nat.le_of_dvd (by omega) hd
            have := Nat.mod_lt (val v) (show 0 < n by omega)
            omega
          exact (modInv_spec r1 curveN_length (by rw [val_curveN]; omega) (by rw [val_curveN]; omega) hco).1
      obtain ⟨p1, p2⟩ := bytes2native_spec hp
      obtain ⟨q1, q2⟩ := bytes2native_spec hh
      obtain ⟨m1, m2⟩ := modMult_spec hx p1 curveN_length (by rw [val_curveN]; omega)
      obtain ⟨a1, a2, -⟩ := modAdd_spec q1 m1 curveN_length (by rw [m2]; exact Nat.mod_lt _ (by rw [val_curveN]; omega))
      obtain ⟨s1, s2⟩ := modMult_spec a1 k1 curveN_length (by rw [val_curveN]; omega)
      rw [h, native2bytes_spec hx, native2bytes_spec s1, s2]
      congr 2
      rw [val_curveN] at *
      have ha : val (modAdd (bytes2native hash) (modMult x (bytes2native priv) curveN) curveN) % n = (beNat hash + val x * beNat priv) % n := by
        rw [q2, m2, p2] at a2
        rcases a2 with e | e
        · rw [e, Nat.add_mod_mod]
        · rw [← Nat.add_mod_right, e, Nat.add_mod_mod]
      rw [Nat.mul_mod, ha, ← Nat.mul_mod]

theorem cast_n {a b : Nat} (h : a % n = b % n) : (a : ZMod n) = b := (ZMod.natCast_eq_natCast_iff' _ _ n).2 h
theorem of_cast_n {a b : Nat} (h : (a : ZMod n) = b) : a % n = b % n := (ZMod.natCast_eq_natCast_iff' _ _ n).1 h

instance : Fact (Nat.Prime n) := ⟨n_prime⟩

/-- Inverses modulo `n`. -/
theorem exists_inv {s : Nat} (h0 : 0 < s) (h : s < n) : ∃ w, s * w % n = 1 := by
  have hn := n_eq
  have hs : (s : ZMod n) ≠ 0 := by
    intro hc
    have := of_cast_n (a := s) (b := 0) (by rw [hc, Nat.cast_zero])
    rw [Nat.mod_eq_of_lt h, Nat.zero_mod] at this; omega
  refine ⟨((s : ZMod n)⁻¹).val, ?_⟩
  have := of_cast_n (a := s * ((s : ZMod n)⁻¹).val) (b := 1) (by
    rw [Nat.cast_mul, ZMod.natCast_val, ZMod.cast_id', id, mul_inv_cancel₀ hs, Nat.cast_one])
  rwa [Nat.mod_eq_of_lt (show 1 < n by omega)] at this

/-- The check of a signature made with the point `K` for the number `k`. -/
theorem combine {e r d k s w k' : Nat} (hk' : k' * k % n = 1) (hs : s = (e + r * d) * k' % n) (hw : s * w % n = 1) :
    (e * w % n) • G + (r * w % n) • (d • G) = k • G := by
  have hn := n_eq
  rw [nsmul_mod, ← mul_nsmul', ← nsmul_mod (r * w % n * d), ← nsmul_mod (e * w), ← add_nsmul, ← nsmul_mod, ← nsmul_mod k]
  congr 1
  apply of_cast_n
  have c1 : ((k' * k : Nat) : ZMod n) = ((1 : Nat) : ZMod n) := cast_n (by rw [hk', Nat.mod_eq_of_lt (by omega)])
  have c2 : (s : ZMod n) = (((e + r * d) * k' : Nat) : ZMod n) := by rw [hs, ZMod.natCast_mod]
  have c3 : ((s * w : Nat) : ZMod n) = ((1 : Nat) : ZMod n) := cast_n (by rw [hw, Nat.mod_eq_of_lt (by omega)])
  push_cast at c1 c2 c3 ⊢
  rw [ZMod.natCast_mod, ZMod.natCast_mod]
  push_cast
  rw [ZMod.natCast_mod]
  push_cast
  rw [c2] at c3
  linear_combination (-(e * w + r * w * d) : ZMod n) * c1 + (k : ZMod n) * c3

/-- A signature with a draw whose multiple is right, and whose second part is not zero, is valid. -/
theorem sign_valid {rand : Nat → Option Vli} {priv hash sig : Bytes} (hp : priv.length = 32) (hh : hash.length = 32)
    (hl : ∀ i v, rand i = some v → v.length = 4) (hr : ∀ i v, rand i = some v → val v % n ≠ 0 ∧ val v % n ≠ 1)
    (h : sign rand priv hash = .ok sig) (hs : beNat (sig.drop 32) ≠ 0) : Valid (beNat priv • G) hash sig := by
  obtain ⟨i, v, x, h1, h2, h3, h4, h5, k', h6, -, h8⟩ := sign_eq hp hh hl h
  have hn := n_eq
  obtain ⟨hr0, hr1⟩ := hr i v h1
  have hlt := Nat.mod_lt (val v) (show 0 < n by omega)
  obtain ⟨r1, r2⟩ := reduceN_spec h3
  have hne : val v % n ≠ n - 1 := by
    intro hc
    have ht := pointMult_top r1 (by omega)
    have hx := (reduceN_spec ht.1.1.1).2
    rw [← h4, val_eq_zero ht.1, Nat.zero_mod] at hx
    exact h5 hx
  have hA := pointMult_spec r1 (by omega) (by omega)
  rw [r2] at hA
  obtain ⟨x1, x2⟩ := reduceN_spec hA.1.1
  rw [← h4] at x1 x2
  have hsig := h8 x1
  have hxn : val x < n := by rw [x2]; exact Nat.mod_lt _ (by omega)
  have e1 : sig.take 32 = beBytes 32 (val x) := by
    rw [hsig, List.take_append_of_le_length (by simp), List.take_of_length_le (by simp)]
  have e2 : sig.drop 32 = beBytes 32 ((beNat hash + val x * beNat priv) * k' % n) := by
    rw [hsig, List.drop_append_of_le_length (by simp), List.drop_of_length_le (by simp), List.nil_append]
  have hslt := Nat.mod_lt ((beNat hash + val x * beNat priv) * k') (show 0 < n by omega)
  refine ⟨by rw [hsig]; simp, ?_⟩
  dsimp only
  rw [e2, beNat_beBytes_of_lt (by omega)] at hs
  rw [e1, e2, beNat_beBytes_of_lt (by omega), beNat_beBytes_of_lt (by omega)]
  refine ⟨by omega, hxn, by omega, hslt, ?_⟩
  obtain ⟨w, hw⟩ := exists_inv (Nat.pos_of_ne_zero hs) hslt
  obtain ⟨g1, g2, g3, g4⟩ := hA
  refine ⟨w, hw, _, _, g3, ?_, ?_⟩
  · rw [combine (h6 hr0) rfl hw, ← g4]
  · rw [F_val g1, x2]

/-- The first try succeeds unless the draw is zero or the abscissa is a multiple of `n`. -/
theorem sign_first {rand : Nat → Option Vli} (priv hash : Bytes) {v : Vli} (h : rand 0 = some v) (h0 : val v ≠ 0)
    (hx : val (reduceN (pointMult curveG (reduceN v)).x) ≠ 0) : ∃ sig, sign rand priv hash = .ok sig := by
  have hz : isZero v = false := by rw [Bool.eq_false_iff, Ne, isZero_iff]; exact h0
  have hz' : isZero (reduceN (pointMult curveG (reduceN v)).x) = false := by
    rw [Bool.eq_false_iff, Ne, isZero_iff]; exact hx
  have hl : signLoop rand 16 none = .ok (reduceN v, reduceN (pointMult curveG (reduceN v)).x) := by
    rw [signLoop]
    simp only [Nat.sub_self, h]
    rw [hz, if_neg (by decide), hz', if_neg (by decide)]
  unfold sign
  rw [hl]
  exact ⟨_, rfl⟩

/-- If the first draw is zero, the next condition reads a variable that has no value. -/
theorem sign_uninitialised {rand : Nat → Option Vli} (priv hash : Bytes) {v : Vli} (h : rand 0 = some v) (h0 : val v = 0) :
    sign rand priv hash = .ub := by
  have hl : signLoop rand 16 none = .ub := by
    rw [signLoop]
    simp only [Nat.sub_self, h]
    rw [(isZero_iff v).2 h0, if_pos rfl]
  unfold sign
  rw [hl]
  rfl

/-- A valid signature with `s = (e + r d) / k` has the abscissa of `k` times the base point as `r`. -/
theorem valid_r {hash : Bytes} {r d k k' s : Nat} (hk' : k' * k % n = 1) (hr : r < 256 ^ 32) (hs : s = (beNat hash + r * d) * k' % n)
    (h : Valid (d • G) hash (beBytes 32 r ++ beBytes 32 s)) : ∃ x y h, k • G = Point.some x y h ∧ x.val % n = r := by
  have hn := n_eq
  have hslt : s < n := by rw [hs]; exact Nat.mod_lt _ (by omega)
  obtain ⟨-, h⟩ := h
  dsimp only at h
  rw [List.take_append_of_le_length (by simp), List.take_of_length_le (by simp),
    List.drop_append_of_le_length (by simp), List.drop_of_length_le (by simp), List.nil_append,
    beNat_beBytes_of_lt hr, beNat_beBytes_of_lt (by omega)] at h
  obtain ⟨-, -, -, -, w, hw, x, y, hh, e, hx⟩ := h
  rw [combine hk' hs hw] at e
  exact ⟨x, y, hh, e, hx⟩

theorem encode_inj {A B : Point} (h : encode A = encode B) : A = B := by
  have hp : p < 256 ^ 32 := by rw [← P_p, P_eq]; decide +kernel
  match A, B, h with
  | .zero, .zero, _ => rfl
  | .some x y h1, .some u v h2, h =>
    have h := Option.some.inj h
    obtain ⟨e1, e2⟩ := List.append_inj h (by simp)
    have f1 := congrArg beNat e1
    have f2 := congrArg beNat e2
    rw [beNat_beBytes_of_lt (lt_trans (ZMod.val_lt _) hp), beNat_beBytes_of_lt (lt_trans (ZMod.val_lt _) hp)] at f1 f2
    rw [Point.some.injEq]
    exact ⟨ZMod.val_injective _ f1, ZMod.val_injective _ f2⟩

end Verif.Lemmas.EccSign
