import Verif.Lemmas.EcmultGenVector
import Verif.Props.EcmultConst
/-
C88: the product of the base point and a secret number, and public keys, in the program's words. `IsJac`: Spec/Group52;
`Holds`: Spec/Scalar64; `Made`, `Blinded`: Spec/EcmultGen; `compress`: Spec/Secp.
-/
namespace Verif.Props.EcmultGen
open Verif Verif.Spec.Secp Verif.Field52 Verif.Ec52 Verif.EcmultGen Verif.Spec.Scalar64 Verif.Spec.EcmultGen Verif.Lemmas

/-- C88. The table in the source: the entry `i` of row `j` is the multiple `i 16^j` of the base point and a point of that row, and
the points of the rows add up to nothing. All 1024 entries. -/
theorem C88_table : ∃ U : Nat → Point, (Finset.range 64).sum U = 0 ∧ table.length = 64 ∧
    ∀ (j : Nat) (row : List Pubkey), table[j]? = some row → row.length = 16 ∧
      ∀ (i : Nat) (e : Pubkey), row[i]? = some e → IsAff 1 (geFromStorage e) (U j + (i * 16 ^ j) • G) := by
  obtain ⟨U, h1, h2, h3⟩ := EcmultGen.table_spec
  exact ⟨U, h1, h2, fun j row hr => ⟨(h3 j row hr).1, fun i e he => ((h3 j row hr).2 i e he).2.2⟩⟩

/-- C88. With any blinding, the product of the base point and any number. -/
theorem C88_product {c : Ctx} {b : ZMod n} (hc : Blinded c b) {s : Scalar64.Sc} {x : ZMod n} (hs : Holds s x) :
    IsJac 1 (ecmultGen c s) (x.val • G) :=
  EcmultGen.gen_spec hc hs

/-- C88. Every context the program can have is blinded, and not with 0, whatever the seeds. -/
theorem C88_context {c : Ctx} (h : Made c) : ∃ b, b ≠ 0 ∧ Blinded c b := EcmultGen.made_blinded h

/-- C88. So the product does not depend on the context. -/
theorem C88_made {c : Ctx} (h : Made c) {s : Scalar64.Sc} {x : ZMod n} (hs : Holds s x) : IsJac 1 (ecmultGen c s) (x.val • G) := by
  obtain ⟨b, -, hb⟩ := EcmultGen.made_blinded h
  exact EcmultGen.gen_spec hb hs

/-- C88. The public key of a private key, on words, is that on points of C77: the compressed multiple of the base point. Numbers that
are 0 or not below the order are refused. -/
theorem C88_pubkey {c : Ctx} (h : Made c) {key : Bytes} (hk : key.length = 32) :
    createPubkey c key = Ec.createPubkey key ∧
    (0 < beNat key → beNat key < n → ∃ b, compress (beNat key • G) = some b ∧ createPubkey c key = .ok b) ∧
    (¬ (0 < beNat key ∧ beNat key < n) → createPubkey c key = .err ()) := by
  obtain ⟨b, -, hb⟩ := EcmultGen.made_blinded h
  rw [EcmultGen.create_spec hb hk]
  refine ⟨rfl, fun h1 h2 => ?_, fun hv => ?_⟩
  · obtain ⟨b, e1, e2⟩ := EcKeys.createPubkey_ok (key := key) ⟨h1, h2⟩
    exact ⟨b, e2, e1⟩
  · rw [Ec.createPubkey, if_neg fun hc => hv ((EcKeys.verify_iff key).1 hc)]

/-- C88. Two nodes whose contexts were blinded with any seeds come to the same secret from each other's public keys, all on words. -/
theorem C88_agree {c1 c2 : Ctx} (h1 : Made c1) (h2 : Made c2) (J1 J2 : EcmultConst.Junk) {m1 m2 a b pa pb : Bytes} (hm1 : m1.length = 64)
    (hm2 : m2.length = 64) (ha : a.length = 32) (hb : b.length = 32) (ea : createPubkey c1 a = .ok pa) (eb : createPubkey c2 b = .ok pb) :
    ∃ s, compress ((beNat a * beNat b) • G) = some s ∧ EcWords.ecdh J1 m1 pb a = .ok (Spec.Sha256.sha256 s) ∧
      EcWords.ecdh J2 m2 pa b = .ok (Spec.Sha256.sha256 s) := by
  rw [(C88_pubkey h1 ha).1] at ea
  rw [(C88_pubkey h2 hb).1] at eb
  rw [EcWords.ecdh_words hm1 ha, EcWords.ecdh_words hm2 hb]
  have va := (EcKeys.createPubkey_some ea).1
  have vb := (EcKeys.createPubkey_some eb).1
  obtain ⟨s, h1, h2⟩ := EcKeys.ecdh_keys va vb ea
  obtain ⟨t, h3, h4⟩ := EcKeys.ecdh_keys vb va eb
  rw [Nat.mul_comm, h1] at h3
  cases h3
  exact ⟨s, h1, h4, h2⟩

/-! ### Cases -/

/-- A new context exists. -/
example (mem : Ctx) : ∃ c, Made c := by
  obtain ⟨c, h⟩ := EcmultGenVector.build_some mem
  exact ⟨c, .build h⟩

/-- The context before its first randomization: the number 1 and the opposite of the base point. -/
def plain : Ctx := ⟨Scalar64.setInt 1, gejNeg (gejSetGe constG)⟩

example : Blinded plain 1 := EcmultGen.start_blinded
example : Field52.getB32 (normalize (geSetGej (ecmultGen plain EcmultConst.three)).x) =
    beBytes 32 0xf9308a019258c31049344f85f89d5229b531c845836f99b08601f113bce036f9 := by decide +kernel
example : (ecmultGen plain ⟨0, 0, 0, 0⟩).infinity = true := by decide +kernel
example : createPubkey plain (beBytes 32 1) = .ok (2 :: beBytes 32 gx) ∧ createPubkey plain (beBytes 32 (n - 1)) = .ok (3 :: beBytes 32 gx) ∧
    createPubkey plain (beBytes 32 0) = .err () ∧ createPubkey plain (beBytes 32 n) = .err () := by decide +kernel

end Verif.Props.EcmultGen
