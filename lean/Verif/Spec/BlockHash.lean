import Verif.Spec.Blake2b
import Verif.Spec.Sha3
import Verif.Model.Header
/-
The hash of a block header in the Handshake protocol. Integers are little-endian. The fields are hashed in
two groups, so that a miner's pool can hide the mask: what identifies the miner's work and the block's
contents (`sub`), and the mask.
-/
namespace Verif.Spec.BlockHash
open Verif.Header (Hdr)

def blake256 : Bytes → Bytes := Spec.Blake2b.blake2b 32
def blake512 : Bytes → Bytes := Spec.Blake2b.blake2b 64
def sha3 : Bytes → Bytes := Spec.Sha3.sha3 256

/-- The first `n` bytes of the exclusive or of the parent's hash and the name root, repeated. -/
def pad (h : Hdr) (n : Nat) : Bytes :=
  (List.zipWith (· ^^^ ·) (h.prevBlock ++ h.prevBlock) (h.nameRoot ++ h.nameRoot)).take n

def sub (h : Hdr) : Bytes :=
  h.extraNonce ++ h.reservedRoot ++ h.witnessRoot ++ h.merkleRoot ++ leBytes 4 h.version ++ leBytes 4 h.bits

/-- The commitment to everything the miner's device need not see. -/
def commitment (h : Hdr) : Bytes := blake256 (blake256 (sub h) ++ blake256 (h.prevBlock ++ h.mask))

/-- The 128 bytes the miner's device works on. -/
def work (h : Hdr) : Bytes :=
  leBytes 4 h.nonce ++ leBytes 8 h.time ++ pad h 20 ++ h.prevBlock ++ h.nameRoot ++ commitment h

/-- The block hash. -/
def blockHash (h : Hdr) : Bytes :=
  List.zipWith (· ^^^ ·) (blake256 (blake512 (work h) ++ pad h 32 ++ sha3 (work h ++ pad h 8))) h.mask

end Verif.Spec.BlockHash
