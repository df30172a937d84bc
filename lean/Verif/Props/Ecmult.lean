import Verif.Lemmas.EcdsaVerifyWords
import Verif.Props.EcdsaWords
/-
C90: the sum of two multiples, and the check of signatures, in the program's words. `value`, `Digit`, `Odds`: Spec/Ecmult; `IsJac`:
Spec/Group52; `Holds`: Spec/Scalar64; `Valid`, `Low`: Spec/Secdsa; `compress`: Spec/Secp.
-/
namespace Verif.Props.Ecmult
open Verif Verif.Spec.Secp Verif.Spec.Secdsa Verif.Field52 Verif.Ec52 Verif.EcmultConst Verif.EcmultGen Verif.Ecmult Verif.Spec.Ecmult Verif.Spec.Scalar64 Verif.Lemmas

attribute [local irreducible] Spec.Sha256.sha256 Spec.Hmac.hmac Elligator.sqrt

/-- C90. A number is written with digits that are 0, or odd and within the table, in any window; the digits beyond the count are 0; what
they write is the number, modulo the order. -/
theorem C90_digits {w : Nat} (hw : 2 ≤ w ∧ w ≤ 31) {s : Scalar64.Sc} {x : ZMod n} (hs : Holds s x) :
    (wnaf w s).1.length = 256 ∧ (∀ d ∈ (wnaf w s).1, Digit w d) ∧ (∃ c : Int, value (wnaf w s).1 = x.val + c * n) ∧
    ∀ j d, (wnaf w s).1[j]? = some d → (wnaf w s).2 ≤ j → d = 0 := by
  obtain ⟨h1, h2, h3, -, h5⟩ := EcmultDigits.wnaf_spec hw.1 hw.2 hs
  refine ⟨h1, h2, ?_, h5⟩
  rcases h3 with e | e
  · exact ⟨0, by rw [e]; ring⟩
  · exact ⟨-1, by rw [e]; ring⟩

/-- C90. The table the program computes holds the odd multiples of the base point, up to 32767. -/
theorem C90_table (J : Junk) : Odds (preG J) := Ecmult.preG_spec J

/-- C90. The sum of a multiple of a point and a multiple of the base point, for all points (infinity too), all numbers (0 too), and
whatever the memory held before: also where the two parts are equal, opposite, or infinity on the way. -/
theorem C90_sum (J J' : Junk) {a : Gej} {P : Point} (ha : IsJac 1 a P) {s t : Scalar64.Sc} {x y : ZMod n} (hs : Holds s x) (ht : Holds t y) :
    IsJac 1 (ecmult J (preG J') a s t) (x.val • P + y.val • G) := Ecmult.ecmult_spec (C90_table J') ha hs ht

/-- C90. Signatures are checked on words as on residues and points (C78). -/
theorem C90_same (J J' : Junk) (pub : Bytes) {msg sig : Bytes} (hm : msg.length = 32) (hl : sig.length = 64) :
    verifyMsg J (preG J') pub msg sig = Ecdsa.verifyMsg pub msg sig := EcdsaVerifyWords.verifyMsg_spec J (C90_table J') pub hm hl

/-- C90. So the check ends well and accepts just the valid signatures with the smaller second number, under keys on the curve. -/
theorem C90_verify (J J' : Junk) (pub : Bytes) {msg sig : Bytes} (hm : msg.length = 32) (hl : sig.length = 64) :
    ∃ b, verifyMsg J (preG J') pub msg sig = .ok b ∧ (b = true ↔ ∃ Q, compress Q = some pub ∧ Valid Q msg sig ∧ Low sig) := by
  rw [C90_same J J' pub hm hl]; exact Ecdsa.C78_verify pub msg sig hl

/-- C90. What one node signs another accepts, with all of it on words, unless the first number is 0 (C78). -/
theorem C90_accepts (J J' : Junk) {c1 c2 : Ctx} (h1 : Spec.EcmultGen.Made c1) (h2 : Spec.EcmultGen.Made c2) {mem : Nat → Bytes} (he : ∀ i, (mem i).length = 64)
    {fuel rec : Nat} {key msg sig pub : Bytes} (hk : key.length = 32) (hm : msg.length = 32)
    (h : EcdsaWords.signMsg c1 mem fuel key msg = .ok (some (sig, rec))) (hp : createPubkey c2 key = .ok pub) (hr : rOf sig ≠ 0) :
    verifyMsg J (preG J') pub msg sig = .ok true := by
  obtain ⟨a, -, b⟩ := EcdsaWords.C89_valid h1 h2 he hk hm h hp
  rw [C90_same J J' pub hm a]
  exact (b hr).2

/-! ### Cases -/

/-- The digits of 47 and of the order less 3. -/
example : (wnaf 5 (Scalar64.setInt 47)).1.take 8 = [15, 0, 0, 0, 0, 1, 0, 0] ∧ (wnaf 5 (Scalar64.setInt 47)).2 = 6 := by decide +kernel
example : (wnaf 5 (Scalar64.setInt 19)).1.take 8 = [-13, 0, 0, 0, 0, 1, 0, 0] := by decide +kernel
example : (wnaf 5 (Scalar64.negate (Scalar64.setInt 3))).1.take 2 = [-3, 0] ∧ (wnaf 5 (Scalar64.negate (Scalar64.setInt 3))).2 = 1 := by decide +kernel

/-- A table of four: the third entry is five times the base point. -/
def small : List Pubkey := storageTable EcmultConst.junk 3 (gejSetGe constG)

example : Field52.getB32 (normalize (geFromStorage (small.getD 2 (pubkeySave constG))).x) =
    beBytes 32 0x2f8bde4d1a07209355b4a7250a5c5128e88b84bddc619ab7cba8d569b240efe4 := by decide +kernel
/-- Twice the base point and once the base point are three times the base point; the base point and its opposite are infinity. -/
example : Field52.getB32 (normalize (geSetGej (ecmult EcmultConst.junk small (gejSetGe constG) (Scalar64.setInt 2) (Scalar64.setInt 1))).x) =
    beBytes 32 0xf9308a019258c31049344f85f89d5229b531c845836f99b08601f113bce036f9 := by decide +kernel
example : (ecmult EcmultConst.junk small (gejSetGe constG) (Scalar64.negate (Scalar64.setInt 1)) (Scalar64.setInt 1)).infinity = true := by decide +kernel
/-- The published vector is accepted, under the public key of the private key 1. -/
example (J J' : Junk) : verifyMsg J (preG J') Elligator.gKey Ecdsa.vMsg Ecdsa.vSig = .ok true := by
  obtain ⟨rec, h⟩ := Ecdsa.v_sign
  rw [C90_same J J' _ (by decide +kernel) (by decide +kernel)]
  exact Ecdsa.C78_accepts_partial h (by decide +kernel) Ec.one_pub
/-- So it is where the key and the signature were made on words. -/
example (J J' : Junk) (m : Ctx) : ∃ c rec, Spec.EcmultGen.Made c ∧ createPubkey c Ec.one = .ok Elligator.gKey ∧
    EcdsaWords.signMsg c (fun _ => List.replicate 64 0) 1 Ec.one Ecdsa.vMsg = .ok (some (Ecdsa.vSig, rec)) ∧
    verifyMsg J (preG J') Elligator.gKey Ecdsa.vMsg Ecdsa.vSig = .ok true := by
  obtain ⟨c, hc⟩ := EcmultGenVector.build_some m
  obtain ⟨rec, hs⟩ := Ecdsa.v_sign
  have h1 : Ec.one.length = 32 := by decide +kernel
  have h2 : Ecdsa.vMsg.length = 32 := by decide +kernel
  have hm : ∀ i : Nat, ((fun _ => List.replicate 64 0 : Nat → Bytes) i).length = 64 := fun _ => rfl
  have hp : createPubkey c Ec.one = .ok Elligator.gKey := by rw [(EcmultGen.C88_pubkey (.build hc) h1).1, Ec.one_pub]
  have e := EcdsaWords.C89_same (.build hc) hm 1 h1 h2
  rw [hs] at e
  exact ⟨c, rec, .build hc, hp, e, C90_accepts J J' (.build hc) (.build hc) hm h1 h2 e hp (by decide +kernel)⟩
/-- Rubbish is not. -/
example : verifyMsg EcmultConst.junk small (2 :: beBytes 32 gx) (beBytes 32 7) (List.replicate 64 255) = .ok false ∧
    verifyMsg EcmultConst.junk small (2 :: beBytes 32 gx) (beBytes 32 7) (beBytes 64 1) = .ok false := by decide +kernel

end Verif.Props.Ecmult
