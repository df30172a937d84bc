import Verif.Lemmas.EcRecover
import Verif.Props.Ecmult
/-
C91: the public key from a signature. `Recovers`: Spec/EcRecover; `Valid`, `Low`, `rOf`: Spec/Secdsa; `compress`: Spec/Secp.
-/
namespace Verif.Props.EcRecover
open Verif Verif.Spec.Secp Verif.Spec.Secdsa Verif.Spec.EcRecover Verif.Field52 Verif.Ec52 Verif.EcmultConst Verif.EcmultGen Verif.Ecmult Verif.EcRecover Verif.Lemmas

attribute [local irreducible] Spec.Sha256.sha256 Spec.Hmac.hmac Elligator.sqrt

/-- C91. For every digest, signature and number from 0 to 3, the key that comes out is the one of SEC 1, 4.1.6, and where there is none the
answer is no. Nothing ends the process. -/
theorem C91_recover (J J' : Junk) {msg sig : Bytes} (hm : msg.length = 32) (hl : sig.length = 64) {rec : Nat} (h : rec ≤ 3) :
    (∀ pub, recover J (preG J') msg sig rec = .ok pub ↔ ∃ Q, compress Q = some pub ∧ Recovers Q msg sig rec) ∧
    (recover J (preG J') msg sig rec = .err () ↔ ∀ Q, ¬ Recovers Q msg sig rec) ∧ recover J (preG J') msg sig rec ≠ .ub := by
  rcases EcRecover.recover_spec (J := J) (Ecmult.C90_table J') hm hl h with ⟨Q, pub, h1, h2, h3⟩ | ⟨h1, h2⟩
  · rw [h3]
    refine ⟨fun pub' => ⟨fun e => ?_, fun ⟨Q', e1, e2⟩ => ?_⟩, ⟨fun e => (by cases e), fun e => absurd h1 (e Q)⟩, fun e => (by cases e)⟩
    · cases e; exact ⟨Q, h2, h1⟩
    · rw [EcRecover.unique e2 h1, h2] at e1
      cases e1; rfl
  · rw [h2]
    exact ⟨fun pub => ⟨fun e => (by cases e), fun ⟨Q, _, e⟩ => absurd e (h1 Q)⟩, ⟨fun _ => h1, fun _ => rfl⟩, fun e => (by cases e)⟩

/-- C91. The digest, the signature and the number determine the key. -/
theorem C91_unique {Q Q' : Point} {msg sig : Bytes} {rec : Nat} (h : Recovers Q msg sig rec) (h' : Recovers Q' msg sig rec) : Q = Q' :=
  EcRecover.unique h h'

/-- C91. The keys that come out with some number are just those under which the signature is valid. -/
theorem C91_valid (J J' : Junk) {msg sig : Bytes} (hm : msg.length = 32) (hl : sig.length = 64) (pub : Bytes) :
    (∃ rec : Nat, rec ≤ 3 ∧ recover J (preG J') msg sig rec = .ok pub) ↔ ∃ Q, compress Q = some pub ∧ Valid Q msg sig := by
  constructor
  · rintro ⟨rec, h, e⟩
    obtain ⟨Q, h1, h2⟩ := ((C91_recover J J' hm hl h).1 pub).1 e
    exact ⟨Q, h1, EcRecover.valid_of hl h2⟩
  · rintro ⟨Q, h1, h2⟩
    obtain ⟨rec, h, h3⟩ := EcRecover.of_valid (by rintro rfl; cases h1) h2
    exact ⟨rec, h, ((C91_recover J J' hm hl h).1 pub).2 ⟨Q, h1, h3⟩⟩

/-- C91. So the check of C90 accepts the key that comes out, if the second number of the signature is the smaller one. -/
theorem C91_verify (J J' : Junk) {msg sig pub : Bytes} (hm : msg.length = 32) (hl : sig.length = 64) {rec : Nat} (h : rec ≤ 3)
    (hp : recover J (preG J') msg sig rec = .ok pub) : verifyMsg J (preG J') pub msg sig = .ok (decide (sOf sig ≤ n / 2)) := by
  obtain ⟨b, h1, h2⟩ := Ecmult.C90_verify J J' pub hm hl
  rw [h1]
  congr 1
  rw [Bool.eq_iff_iff, h2, decide_eq_true_iff]
  exact ⟨fun ⟨_, _, _, e⟩ => e, fun e => by
    obtain ⟨Q, q1, q2⟩ := (C91_valid J J' hm hl pub).1 ⟨rec, h, hp⟩
    exact ⟨Q, q1, q2, e⟩⟩

/-- C91. From its own signature and the number that goes with it, a node gets its own public key, unless the first number is 0. -/
theorem C91_own (J J' : Junk) {c1 c2 : Ctx} (h1 : Spec.EcmultGen.Made c1) (h2 : Spec.EcmultGen.Made c2) {mem : Nat → Bytes} (he : ∀ i, (mem i).length = 64)
    {fuel rec : Nat} {key msg sig pub : Bytes} (hk : key.length = 32) (hm : msg.length = 32)
    (h : EcdsaWords.signMsg c1 mem fuel key msg = .ok (some (sig, rec))) (hp : createPubkey c2 key = .ok pub) (hr : rOf sig ≠ 0) :
    rec ≤ 3 ∧ recover J (preG J') msg sig rec = .ok pub := by
  rw [EcdsaWords.C89_same h1 he fuel hk hm] at h
  rw [(EcmultGen.C88_pubkey h2 hk).1] at hp
  have h := Out.ok.inj h
  obtain ⟨a, b⟩ := EcRecover.made h hr
  exact ⟨a, ((C91_recover J J' hm (Ecdsa.C78_form h).1 a).1 pub).2 ⟨_, (EcKeys.createPubkey_some hp).2, b⟩⟩

/-- C91. The check of a hash of the key says whether it is the hash of the key that comes out. -/
theorem C91_hash (J J' : Junk) (hash : Bytes → Bytes) {msg sig : Bytes} (hm : msg.length = 32) (hl : sig.length = 64) {rec : Nat} (h : rec ≤ 3) (kh : Bytes) :
    ∃ b, verifyHash J (preG J') hash msg sig rec kh = .ok b ∧ (b = true ↔ ∃ Q pub, Recovers Q msg sig rec ∧ compress Q = some pub ∧ hash pub = kh) := by
  obtain ⟨h1, h2, h3⟩ := C91_recover J J' hm hl h
  rw [verifyHash]
  cases hr : recover J (preG J') msg sig rec with
  | ok pub =>
    rw [hr] at h1
    refine ⟨_, rfl, ?_⟩
    rw [beq_iff_eq]
    constructor
    · intro e
      obtain ⟨Q, q1, q2⟩ := (h1 pub).1 rfl
      exact ⟨Q, pub, q2, q1, e⟩
    · rintro ⟨Q, pub', q1, q2, e⟩
      have := (h1 pub').2 ⟨Q, q2, q1⟩
      cases this
      exact e
  | err u =>
    refine ⟨false, rfl, fun e => (by cases e), fun ⟨Q, _, q, _⟩ => absurd q (h2.1 hr Q)⟩
  | ub => exact (h3 hr).elim

/-- C91. Any other number ends the process. -/
theorem C91_abort (J : Junk) (pg : List Pubkey) (msg sig : Bytes) {rec : Int} (h : ¬ (0 ≤ rec ∧ rec ≤ 3)) : recover J pg msg sig rec = .ub := by
  rw [recover, if_neg h]

/-! ### Cases -/

/-- The published vector gives the base point with its number. -/
example (J J' : Junk) (m : Ctx) : ∃ rec ≤ 3, recover J (preG J') Ecdsa.vMsg Ecdsa.vSig (rec : Nat) = .ok Elligator.gKey := by
  obtain ⟨c, hc⟩ := EcmultGenVector.build_some m
  obtain ⟨rec, hs⟩ := Ecdsa.v_sign
  have h1 : Ec.one.length = 32 := by decide +kernel
  have h2 : Ecdsa.vMsg.length = 32 := by decide +kernel
  have hm : ∀ i : Nat, ((fun _ => List.replicate 64 0 : Nat → Bytes) i).length = 64 := fun _ => rfl
  have hp : createPubkey c Ec.one = .ok Elligator.gKey := by rw [(EcmultGen.C88_pubkey (.build hc) h1).1, Ec.one_pub]
  have e := EcdsaWords.C89_same (.build hc) hm 1 h1 h2
  rw [hs] at e
  exact ⟨rec, C91_own J J' (.build hc) (.build hc) hm h1 h2 e hp (by decide +kernel)⟩
/-- The numbers 0 are refused, and so is an abscissa that would be too large. -/
example : recover EcmultConst.junk Ecmult.small (beBytes 32 7) (beBytes 64 1) 0 = .err () := by decide +kernel
example : recoverX (Scalar64.setInt 5) 2 ≠ none ∧ recoverX (Scalar64.negate (Scalar64.setInt 5)) 2 = none ∧ recoverX (Scalar64.negate (Scalar64.setInt 5)) 1 ≠ none := by
  decide +kernel
example : recover EcmultConst.junk Ecmult.small (beBytes 32 7) (beBytes 64 1) 4 = .ub := by decide +kernel

end Verif.Props.EcRecover
