import Verif.Model.Header
import Verif.Model.Blake2b
import Verif.Model.Sha3
/-
The header hash of src/header.c again, now with the hash routines of src/blake2b.c and src/sha3.c.
`al` tells the alignment of the buffers handed to the SHA-3 routine.
-/
namespace Verif.HeaderHash
open Verif.Header Verif.Bio

/-- hsk_header_sub_hash (src/header.c:323-329). -/
def subHash (h : Hdr) : Out Unit Bytes := Blake2b.hashOf 32 [subEncode h]

/-- hsk_header_mask_hash (src/header.c:331-338). -/
def maskHash (h : Hdr) : Out Unit Bytes := Blake2b.hashOf 32 [h.prevBlock, h.mask]

/-- hsk_header_commit_hash (src/header.c:340-353). -/
def commitHash (h : Hdr) : Out Unit Bytes :=
  (subHash h).bind fun s => (maskHash h).bind fun m => Blake2b.hashOf 32 [s, m]

/-- hsk_header_pre_write (src/header.c:273-289). -/
def preWrite (h : Hdr) : Out Unit Bytes :=
  (commitHash h).bind fun c => .ok (writeU32 h.nonce ++ writeU64 h.time ++ padding h 20 ++ h.prevBlock ++ h.nameRoot ++ c)

/-- hsk_header_cache (src/header.c:370-415), of a header not yet hashed. -/
def cache (al : Bool × Bool) (h : Hdr) : Out Unit Bytes :=
  (preWrite h).bind fun pre =>
  (Blake2b.hashOf 64 [pre]).bind fun left =>
  (Sha3.hashOf 256 [(al.1, pre), (al.2, padding h 8)]).bind fun right =>
  (Blake2b.hashOf 32 [left, padding h 32, right]).bind fun hash =>
    .ok ((List.range 32).map fun i => hash.getD i 0 ^^^ h.mask.getD i 0)

/-- What the chain stores as a header's hash (src/header.c:370-420). -/
def hashed (al : Bool × Bool) (h : Hdr) : Bytes :=
  match cache al h with
  | .ok x => x
  | _ => []

end Verif.HeaderHash
