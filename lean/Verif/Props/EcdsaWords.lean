import Verif.Lemmas.EcdsaWords
import Verif.Props.EcmultGen
import Verif.Props.Ecdsa
/-
C89: signatures in the program's words. `Made`: Spec/EcmultGen; `Valid`, `Low`, `rOf`, `sOf`: Spec/Secdsa.
-/
namespace Verif.Props.EcdsaWords
open Verif Verif.Spec.Secp Verif.Spec.Secdsa Verif.EcmultGen Verif.EcdsaWords Verif.Spec.EcmultGen Verif.Lemmas

attribute [local irreducible] Spec.Sha256.sha256 Spec.Hmac.hmac Elligator.sqrt

/-- C89. The signature on words is that on residues and points of C78: for every context the program can have, every earlier contents of
its memory, and as many turns of the loop. Nothing ends the process. -/
theorem C89_same {c : Ctx} (hc : Made c) {mem : Nat → Bytes} (hm : ∀ i, (mem i).length = 64) (fuel : Nat) {key msg : Bytes}
    (hk : key.length = 32) (hl : msg.length = 32) : signMsg c mem fuel key msg = .ok (Ecdsa.signMsg fuel key msg) := by
  obtain ⟨b, -, hb⟩ := EcmultGen.made_blinded hc
  exact EcdsaWords.signMsg_spec hb hm fuel hk hl

/-- C89. So the signature tells nothing of the blinding: two nodes with the same key sign the same. -/
theorem C89_blinding {c1 c2 : Ctx} (h1 : Made c1) (h2 : Made c2) {m1 m2 : Nat → Bytes} (e1 : ∀ i, (m1 i).length = 64) (e2 : ∀ i, (m2 i).length = 64)
    (fuel : Nat) {key msg : Bytes} (hk : key.length = 32) (hl : msg.length = 32) : signMsg c1 m1 fuel key msg = signMsg c2 m2 fuel key msg := by
  rw [C89_same h1 e1 fuel hk hl, C89_same h2 e2 fuel hk hl]

/-- C89. A signature has 64 bytes and the smaller second number; unless the first is 0 it is valid for the digest under the key's
multiple of the base point, and is accepted with the public key that was made on words. -/
theorem C89_valid {c1 c2 : Ctx} (h1 : Made c1) (h2 : Made c2) {mem : Nat → Bytes} (hm : ∀ i, (mem i).length = 64) {fuel rec : Nat}
    {key msg sig pub : Bytes} (hk : key.length = 32) (hl : msg.length = 32) (h : signMsg c1 mem fuel key msg = .ok (some (sig, rec)))
    (hp : createPubkey c2 key = .ok pub) :
    sig.length = 64 ∧ Low sig ∧ (rOf sig ≠ 0 → Valid (beNat key • G) msg sig ∧ Ecdsa.verifyMsg pub msg sig = .ok true) := by
  rw [C89_same h1 hm fuel hk hl] at h
  rw [(EcmultGen.C88_pubkey h2 hk).1] at hp
  have h := Out.ok.inj h
  obtain ⟨a, b, -, -⟩ := Ecdsa.C78_form h
  exact ⟨a, b, fun hr => ⟨(Ecdsa.C78_sign_partial h hr).1, Ecdsa.C78_accepts_partial h hr hp⟩⟩

/-- C89. Numbers that are no private key sign nothing. -/
theorem C89_key {c : Ctx} (hc : Made c) {mem : Nat → Bytes} (hm : ∀ i, (mem i).length = 64) (fuel : Nat) {key msg : Bytes}
    (hk : key.length = 32) (hl : msg.length = 32) (hv : ¬ (0 < beNat key ∧ beNat key < n)) : signMsg c mem fuel key msg = .ok none := by
  rw [C89_same hc hm fuel hk hl, Ecdsa.C78_key fuel hv]

/-! ### Cases -/

/-- The published vector: private key 1, message "Satoshi Nakamoto". -/
example (mem : Ctx) (m : Nat → Bytes) (hm : ∀ i, (m i).length = 64) :
    ∃ c rec, Made c ∧ signMsg c m 1 Ec.one Ecdsa.vMsg = .ok (some (Ecdsa.vSig, rec)) ∧ rOf Ecdsa.vSig ≠ 0 := by
  obtain ⟨c, h⟩ := EcmultGenVector.build_some mem
  obtain ⟨rec, hs⟩ := Ecdsa.v_sign
  exact ⟨c, rec, .build h, by rw [C89_same (.build h) hm 1 (by decide +kernel) (by decide +kernel), hs], by decide +kernel⟩

/-- Private key 5, digest 7, random number 3: the second number is negated. With the digest that makes it 0 there is no signature. -/
example : (sigSign EcmultGen.plain (Scalar64.setInt 5) (Scalar64.setInt 7) (Scalar64.setInt 3)).map serializeCompact =
    some (beBytes 32 0xf9308a019258c31049344f85f89d5229b531c845836f99b08601f113bce036f9 ++
      beBytes 32 0xb59c4a80c16bae4db537b760c4f21b85e7b2261f3bf0ae80b060bc9cae4bbcb, 1) := by decide +kernel
example : sigSign EcmultGen.plain (Scalar64.setInt 5)
    (Scalar64.setB32 (beBytes 32 0x220d4df8244430ae91fa726224ed65291b716725db3d20b82112235d60ae3368)).1 (Scalar64.setInt 3) = none := by decide +kernel

end Verif.Props.EcdsaWords
