import Verif.Lemmas.HeaderHash
import Verif.Model.Network
import Verif.Props.Header
import Verif.Props.Proof
import Verif.Lemmas.Eval
/-
C70: the block hash and the proof checks with the hash functions as they are. `HeaderHash.hashed al h` is what the routines of src/header.c,
src/blake2b.c and src/sha3.c leave as the hash of the header `h`.
-/
namespace Verif.Props.BlockHash
open Verif.Header Verif.HeaderHash Verif.Spec.BlockHash

attribute [local irreducible] Spec.Blake2b.blake2b Spec.Sha3.sha3

/-- C70. For every header decoded from any bytes, the hash computed is the block hash of the protocol; no
assertion fails, whatever the alignment of the buffers. -/
theorem C70_block_hash (al : Bool × Bool) (s r : Bytes) (h : Hdr) (hr : read s = .ok (h, r)) :
    cache al h = .ok (blockHash h) ∧ hashed al h = blockHash h ∧ (blockHash h).length = 32 := by
  obtain ⟨_, wf⟩ := read_eq_ok.1 hr
  have e := cache_eq al h wf.prevBlock wf.nameRoot wf.mask
  obtain ⟨e1, e2⟩ := cache_ok al al h
  rw [e] at e1
  have e3 := (Out.ok.inj e1).symm
  exact ⟨e, e3, e3 ▸ e2⟩

/-- C70. It passes the proof-of-work check iff its difficulty field expands and its block hash, read as a
big-endian integer, is at most the target. -/
theorem C70_pow (al : Bool × Bool) (s r : Bytes) (h : Hdr) (hr : read s = .ok (h, r)) :
    verifyPowHash h.bits (hashed al h) = .ok () ↔ ∃ t, powToTarget h.bits = some t ∧ beNat (blockHash h) ≤ beNat t := by
  obtain ⟨_, wf⟩ := read_eq_ok.1 hr
  have e := headerHash_eq h wf.prevBlock wf.nameRoot
  have := Header.C17_pow_check hashes h blake256_length wf.mask
  unfold verifyPow at this
  rw [e] at this
  rw [(C70_block_hash al s r h hr).2.1]
  exact this

/-- C70. Two decoded headers with the same block hash and the same mask are equal, or a collision of BLAKE2b is
at hand: either of the last strings hashed, or of strings hashed on the way. -/
theorem C70_hash_determines_header (s r s' r' : Bytes) (h g : Hdr) (hr : read s = .ok (h, r)) (hr' : read s' = .ok (g, r'))
    (hm : h.mask = g.mask) (heq : blockHash h = blockHash g) :
    h = g ∨ (finalInput hashes h ≠ finalInput hashes g ∧ blake256 (finalInput hashes h) = blake256 (finalInput hashes g)) ∨
      Header.HashBroken hashes h g := by
  obtain ⟨_, wh⟩ := read_eq_ok.1 hr
  obtain ⟨_, wg⟩ := read_eq_ok.1 hr'
  by_cases he : finalInput hashes h = finalInput hashes g
  · rcases Header.C17_preimage_determines_header hashes h g wh wg blake256_length blake512_length he with h | h
    · exact .inl h
    · exact .inr (.inr h)
  · refine .inr (.inl ⟨he, ?_⟩)
    rw [← headerHash_eq h wh.prevBlock wh.nameRoot, ← headerHash_eq g wg.prevBlock wg.nameRoot] at heq
    unfold headerHash at heq
    rw [hm] at heq
    have cancel : ∀ (a b m : Bytes), a.length = m.length → b.length = m.length →
        List.zipWith (· ^^^ ·) a m = List.zipWith (· ^^^ ·) b m → a = b := by
      intro a
      induction a with
      | nil => intro b m ha hb _; exact (List.length_eq_zero_iff.1 (by rw [hb, ← ha]; rfl)).symm
      | cons x a ih =>
        intro b m ha hb hz
        match m, b, ha, hb, hz with
        | y :: m, z :: b, ha, hb, hz =>
          rw [List.zipWith_cons_cons, List.zipWith_cons_cons] at hz
          obtain ⟨h1, h2⟩ := List.cons.inj hz
          have : x = z := by
            have := congrArg (· ^^^ y) h1
            simpa [UInt8.xor_assoc] using this
          rw [this, ih b m (by simpa using ha) (by simpa using hb) h2]
    exact cancel _ _ _ (by rw [wg.mask]; exact blake256_length _) (by rw [wg.mask]; exact blake256_length _) heq

open Verif.Proof in
/-- C70. The proof check with BLAKE2b-256 for the hash: two proofs accepted for the same root and key report
the same, or two of the strings hashed collide, or one has the digest zero. -/
theorem C70_outcome_unique (root key : Bytes) (hk : key.length = 32) (s s' r r' : Bytes) (p q : Proof.Proof)
    (hp : Proof.read s = .ok (p, r)) (hq : Proof.read s' = .ok (q, r')) (a b : Answer)
    (ha : verify blake256 root key p = .ok a) (hb : verify blake256 root key q = .ok b) :
    a = b ∨ Proof.HashBroken blake256 (hashed blake256 key p ++ hashed blake256 key q) :=
  Proof.C01_outcome_unique blake256 blake256_length root key hk s s' r r' p q hp hq a b ha hb

-- A header that decodes: the genesis block of the main network.
example : ∃ h r, read Network.mainGenesis = .ok (h, r) ∧ h.bits = 0x1c00ffff := by
  have e := okWith_spec (r := read Network.mainGenesis) (p := fun x => decide (x.1.bits = 0x1c00ffff)) (by decide +kernel)
  obtain ⟨⟨h, r⟩, e1, e2⟩ := e
  exact ⟨h, r, e1, by simpa using e2⟩

end Verif.Props.BlockHash
