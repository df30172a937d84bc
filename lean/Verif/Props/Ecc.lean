import Verif.Lemmas.EccSign
import Verif.Lemmas.EccKeys
import Verif.Model.Dnssec
/-
C73: public keys. C74: signatures.
-/
namespace Verif.Props.Ecc
open Verif Verif.Model.Ecc Verif.Spec.Ecc Verif.Lemmas.EccVli Verif.Lemmas.EccCurve Verif.Lemmas.EccOrder
open Verif.Lemmas.EccLadder Verif.Lemmas.EccSign Verif.Lemmas.EccKeys WeierstrassCurve.Affine

/-- C73. The constants of the program are those of P-256: both moduli are prime, and the base point has the prime
order `n` in the group of the curve. -/
theorem C73_parameters : val curveP = p ∧ p.Prime ∧ val curveN = n ∧ n.Prime ∧ addOrderOf G = n ∧
    encode G = some (native2bytes curveG.x ++ native2bytes curveG.y) :=
  ⟨Verif.Lemmas.EccMod.val_curveP.trans P_p, p_prime, val_curveN, n_prime, order_G, encode_affine G_affine⟩

/-- C73. The public key for a private key is the private key times the base point. Not for the keys 0, 1 and `n - 1`
modulo `n`. -/
theorem C73_pubkey_partial {priv : Bytes} (h : priv.length = 32) (h0 : beNat priv % n ≠ 0) (h1 : beNat priv % n ≠ 1)
    (h2 : beNat priv % n ≠ n - 1) : makePubkey priv = encode (beNat priv • G) :=
  (makePubkey_spec h).1 h0 h1 h2

/-- What it is for those: for 1, three times the base point; for `n`, two times the base point; for `n - 1` none. -/
theorem C73_exceptions {priv : Bytes} (h : priv.length = 32) :
    (beNat priv % n = 1 → makePubkey priv = encode (3 • G)) ∧ (beNat priv = n → makePubkey priv = encode (2 • G)) ∧
    (beNat priv % n = n - 1 → makePubkey priv = none) ∧ (beNat priv = 0 → makePubkey priv = none) := by
  obtain ⟨-, h2, h3, h4, h5⟩ := makePubkey_spec h
  exact ⟨h3, h4, h2, h5⟩

theorem enc_lt {k : Nat} (hk : k ≤ n) : k < 256 ^ 32 := by
  have := n_eq; omega

theorem n_mod {k : Nat} (hk : k < n) : k % n = k := Nat.mod_eq_of_lt hk

/-- The claim is false for private keys in the range of ECDSA: 1 and `n - 1` have other public keys. -/
theorem C73_wrong : ∀ k, k = 1 ∨ k = n - 1 → 0 < k ∧ k < n ∧ makePubkey (beBytes 32 k) ≠ encode (beNat (beBytes 32 k) • G) := by
  have hn := n_eq
  rintro k (rfl | rfl)
  · refine ⟨by omega, by omega, ?_⟩
    have e := beNat_beBytes_of_lt (enc_lt (k := 1) (by omega))
    rw [(C73_exceptions (beBytes_length 32 1)).1 (by rw [e, n_mod (by omega)]), e]
    intro hc
    have := encode_inj hc
    rw [one_nsmul, succ_nsmul, add_eq_right] at this
    exact nz (k := 2) (by omega) (by omega) this
  · refine ⟨by omega, by omega, ?_⟩
    have e := beNat_beBytes_of_lt (enc_lt (k := n - 1) (by omega))
    rw [(C73_exceptions (beBytes_length 32 (n - 1))).2.2.1 (by rw [e, n_mod (by omega)]), e]
    intro hc
    have hz : encode (0 : Spec.Ecc.Point) = none := rfl
    rw [← hz] at hc
    exact nz (k := n - 1) (by omega) (by omega) (encode_inj hc).symm

/-- The keys of src/dnssec.h are not among the exceptions. -/
example : (Dnssec.kskPriv.length = 32 ∧ beNat Dnssec.kskPriv % n ≠ 0 ∧ beNat Dnssec.kskPriv % n ≠ 1 ∧ beNat Dnssec.kskPriv % n ≠ n - 1) ∧
    (Dnssec.zskPriv.length = 32 ∧ beNat Dnssec.zskPriv % n ≠ 0 ∧ beNat Dnssec.zskPriv % n ≠ 1 ∧ beNat Dnssec.zskPriv % n ≠ n - 1) := by
  decide +kernel

/-- C74. A signature the program makes is valid under the public key of the private key, if none of the numbers drawn
is 0 or 1 modulo `n` and the second half is not zero. -/
theorem C74_valid_partial {rand : Nat → Option Vli} {priv hash sig : Bytes} (hp : priv.length = 32) (hh : hash.length = 32)
    (hl : ∀ i v, rand i = some v → v.length = 4) (hr : ∀ i v, rand i = some v → val v % n ≠ 0 ∧ val v % n ≠ 1)
    (h : sign rand priv hash = .ok sig) (hs : beNat (sig.drop 32) ≠ 0) : Valid (beNat priv • G) hash sig :=
  sign_valid hp hh hl hr h hs

/-- C74. There is a signature if the first number drawn is neither 0, 1 nor `n - 1` modulo `n`, and the abscissa of its
multiple of the base point is no multiple of `n`. -/
theorem C74_signs {rand : Nat → Option Vli} (priv hash : Bytes) {v : Vli} (h : rand 0 = some v) (hl : v.length = 4)
    (h0 : val v % n ≠ 0) (h1 : val v % n ≠ 1) (h2 : val v % n ≠ n - 1)
    (hx : ∀ x y hh, val v • G = Point.some x y hh → x.val % n ≠ 0) : ∃ sig, sign rand priv hash = .ok sig := by
  have hn := n_eq
  have hlt := Nat.mod_lt (val v) (show 0 < n by omega)
  obtain ⟨r1, r2⟩ := reduceN_spec hl
  have hA := pointMult_spec r1 (by omega) (by omega)
  rw [r2, nsmul_mod] at hA
  obtain ⟨g1, g2, g3, g4⟩ := hA
  refine sign_first priv hash h ?_ ?_
  · intro hc; rw [hc, Nat.zero_mod] at h0; exact h0 rfl
  · rw [(reduceN_spec g1.1).2, ← F_val g1]
    exact hx _ _ g3 g4

theorem F_cast {a : Nat} (h : a < p) : ((a : Nat) : ZMod p).val = a := by
  rw [ZMod.val_natCast, Nat.mod_eq_of_lt h]

/-- The abscissa where the program computes two or three times the base point. -/
theorem small_x {v : Vli} {k X Y : Nat} (hX : X < p) (hk : ∃ h, k • G = Point.some (X : ZMod p) (Y : ZMod p) h)
    (hA : Affine (pointMult curveG (reduceN v)) (k • G)) :
    (reduceN (pointMult curveG (reduceN v)).x).length = 4 ∧ val (reduceN (pointMult curveG (reduceN v)).x) = X % n := by
  obtain ⟨h, hk⟩ := hk
  obtain ⟨g1, g2, g3, g4⟩ := hA
  rw [hk, Point.some.injEq] at g4
  obtain ⟨x1, x2⟩ := reduceN_spec g1.1
  refine ⟨x1, ?_⟩
  rw [x2, ← F_val g1, ← g4.1, F_cast hX]

/-- The claim is false if 1 is drawn: the signature is never valid, for any private key and message. -/
theorem C74_draw_one {priv hash : Bytes} (hp : priv.length = 32) (hh : hash.length = 32) :
    ∃ sig, sign (fun _ => some [1, 0, 0, 0]) priv hash = .ok sig ∧ ¬ Valid (beNat priv • G) hash sig := by
  have hn := n_eq
  have v1 : val [1, 0, 0, 0] = 1 := rfl
  have hl : ∀ (i : Nat) (v : Vli), (fun _ : Nat => some ([1, 0, 0, 0] : Vli)) i = some v → v.length = 4 := by
    intro i v h; cases h; rfl
  obtain ⟨r1, r2⟩ := reduceN_spec (v := [1, 0, 0, 0]) rfl
  rw [v1, Nat.mod_eq_of_lt (by omega)] at r2
  have hA := pointMult_small r1 (by omega)
  rw [r2] at hA
  obtain ⟨x1, x2⟩ := small_x (v := [1, 0, 0, 0]) (by decide +kernel) three_point hA
  have x3 : threeX % n ≠ 0 ∧ threeX % n ≠ gx % n := by decide +kernel
  obtain ⟨sig, hs⟩ := sign_first (rand := fun _ => some [1, 0, 0, 0]) priv hash rfl (by rw [v1]; omega) (by rw [x2]; exact x3.1)
  refine ⟨sig, hs, fun hv => ?_⟩
  obtain ⟨i, v, x, h1, h2, h3, h4, h5, k', h6, -, h8⟩ := sign_eq hp hh hl hs
  cases h1
  rw [← h4] at x1 x2
  rw [h8 x1] at hv
  have hk' := h6 (by rw [v1, Nat.mod_eq_of_lt (by omega)]; omega)
  rw [v1, Nat.mod_eq_of_lt (show 1 < n by omega)] at hk'
  have hxlt : val x < 256 ^ 32 := by
    have := val_lt4 x1; omega
  obtain ⟨x', y', hh', e, hx'⟩ := valid_r hk' hxlt rfl hv
  rw [one_nsmul, G, Point.some.injEq] at e
  rw [← e.1, F_cast gx_lt, x2] at hx'
  exact x3.2 hx'.symm

/-- The claim is false if a draw is the order of the base point: `s` is zero. -/
theorem C74_draw_order {priv hash : Bytes} (hp : priv.length = 32) (hh : hash.length = 32) :
    ∃ sig, sign (fun _ => some curveN) priv hash = .ok sig ∧ beNat (sig.drop 32) = 0 ∧ ¬ Valid (beNat priv • G) hash sig := by
  have hn := n_eq
  have v1 : val curveN = n := val_curveN
  have hl : ∀ i v, (fun _ : Nat => some curveN) i = some v → v.length = 4 := by
    intro i v h; cases h; rfl
  obtain ⟨r1, r2⟩ := reduceN_spec (v := curveN) rfl
  rw [v1, Nat.mod_self] at r2
  have hA := pointMult_small r1 (by omega)
  rw [r2] at hA
  obtain ⟨x1, x2⟩ := small_x (v := curveN) (by decide +kernel) two_point hA
  have x3 : twoX % n ≠ 0 := by decide +kernel
  obtain ⟨sig, hs⟩ := sign_first (rand := fun _ => some curveN) priv hash rfl (by rw [v1]; omega) (by rw [x2]; exact x3)
  obtain ⟨i, v, x, h1, h2, h3, h4, h5, k', -, h7, h8⟩ := sign_eq hp hh hl hs
  cases h1
  rw [← h4] at x1 x2
  have h0 : beNat (sig.drop 32) = 0 := by
    rw [h8 x1, h7 (by rw [v1, Nat.mod_self]), List.drop_append_of_le_length (by simp), List.drop_of_length_le (by simp),
      List.nil_append, Nat.mul_zero, Nat.zero_mod]
    decide +kernel
  refine ⟨sig, hs, h0, fun hv => ?_⟩
  obtain ⟨-, -, -, h, -⟩ := hv
  omega

/-- The claim is false for every private key: there is a message whose signature, with 2 drawn, has a second half of
zero, which the program does not check. -/
theorem C74_second_zero {priv : Bytes} (hp : priv.length = 32) : ∃ hash sig, hash.length = 32 ∧
    sign (fun _ => some [2, 0, 0, 0]) priv hash = .ok sig ∧ beNat (sig.drop 32) = 0 ∧ ¬ Valid (beNat priv • G) hash sig := by
  have hn := n_eq
  have v1 : val [2, 0, 0, 0] = 2 := rfl
  have hl : ∀ (i : Nat) (v : Vli), (fun _ : Nat => some ([2, 0, 0, 0] : Vli)) i = some v → v.length = 4 := by
    intro i v h; cases h; rfl
  obtain ⟨r1, r2⟩ := reduceN_spec (v := [2, 0, 0, 0]) rfl
  rw [v1, Nat.mod_eq_of_lt (by omega)] at r2
  have hA := pointMult_spec r1 (by omega) (by omega)
  rw [r2] at hA
  obtain ⟨x1, x2⟩ := small_x (v := [2, 0, 0, 0]) (by decide +kernel) two_point hA
  have x3 : twoX % n ≠ 0 := by decide +kernel
  have hlt := Nat.mod_lt (twoX % n * beNat priv) (show 0 < n by omega)
  refine ⟨beBytes 32 (n - twoX % n * beNat priv % n), ?_⟩
  generalize hhash : beBytes 32 (n - twoX % n * beNat priv % n) = hash
  have hh : hash.length = 32 := by rw [← hhash, beBytes_length]
  have he : beNat hash = n - twoX % n * beNat priv % n := by rw [← hhash, beNat_beBytes_of_lt (enc_lt (by omega))]
  obtain ⟨sig, hs⟩ := sign_first (rand := fun _ => some [2, 0, 0, 0]) priv hash rfl (by rw [v1]; omega) (by rw [x2]; exact x3)
  obtain ⟨i, v, x, h1, h2, h3, h4, h5, k', -, -, h8⟩ := sign_eq hp hh hl hs
  cases h1
  rw [← h4] at x1 x2
  have hz : (beNat hash + val x * beNat priv) % n = 0 := by
    rw [he, x2, ← Nat.add_mod_mod, Nat.sub_add_cancel (by omega), Nat.mod_self]
  have h0 : beNat (sig.drop 32) = 0 := by
    rw [h8 x1, List.drop_append_of_le_length (by simp), List.drop_of_length_le (by simp), List.nil_append, Nat.mul_mod, hz,
      Nat.zero_mul, Nat.zero_mod]
    decide +kernel
  refine ⟨sig, hh, hs, h0, fun hv => ?_⟩
  obtain ⟨-, -, -, h, -⟩ := hv
  omega

/-- If the first number drawn is zero, the program reads a variable that has no value. -/
theorem C74_draw_zero {rand : Nat → Option Vli} (priv hash : Bytes) {v : Vli} (h : rand 0 = some v) (h0 : val v = 0) :
    sign rand priv hash = .ub := sign_uninitialised priv hash h h0

/-- The key of src/dnssec.h signs any digest with 2 drawn, and the signature is valid unless its second half is zero. -/
example (hash : Bytes) (hh : hash.length = 32) : ∃ sig, sign (fun _ => some [2, 0, 0, 0]) Dnssec.zskPriv hash = .ok sig ∧
    (beNat (sig.drop 32) ≠ 0 → Valid (beNat Dnssec.zskPriv • G) hash sig) := by
  have hn := n_eq
  have v1 : val [2, 0, 0, 0] = 2 := rfl
  have v2 : val [2, 0, 0, 0] % n = 2 := by rw [v1, Nat.mod_eq_of_lt (by omega)]
  obtain ⟨sig, hs⟩ := C74_signs (rand := fun _ => some [2, 0, 0, 0]) Dnssec.zskPriv hash rfl rfl (by omega) (by omega) (by omega) (by
    intro x y h e
    obtain ⟨h', e'⟩ := two_point
    rw [v1, e', Point.some.injEq] at e
    rw [← e.1, F_cast (by decide +kernel)]
    decide +kernel)
  refine ⟨sig, hs, C74_valid_partial rfl hh ?_ ?_ hs⟩
  · intro i v h; cases h; rfl
  · intro i v h; cases h; omega

end Verif.Props.Ecc
