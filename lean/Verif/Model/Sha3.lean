import Verif.Model.Words
/-
Model of src/sha3.c. On a little-endian machine le2me_64 is nothing, me64_to_le_str is memcpy, and the bytes
of an array of words are the words' bytes one after another. `hsk_keccak_final` and `hsk_cshake_final` are
not called.
-/
namespace Verif.Sha3
open Verif.Words

/-- ROTL64 (src/sha3.c:46). -/
def rotl (q n : UInt64) : UInt64 := q <<< n ^^^ q >>> (64 - n)

/-- hsk_keccak_round_constants (src/sha3.c:123-136). -/
def roundConstants : List UInt64 :=
  [0x0000000000000001, 0x0000000000008082, 0x800000000000808A, 0x8000000080008000,
   0x000000000000808B, 0x0000000080000001, 0x8000000080008081, 0x8000000000008009,
   0x000000000000008A, 0x0000000000000088, 0x0000000080008009, 0x000000008000000A,
   0x000000008000808B, 0x800000000000008B, 0x8000000000008089, 0x8000000000008003,
   0x8000000000008002, 0x8000000000000080, 0x000000000000800A, 0x800000008000000A,
   0x8000000080008081, 0x8000000000008080, 0x0000000080000001, 0x8000000080008008]

/-- hsk_sha3_ctx (src/sha3.h:30-35); `message` as the 192 bytes it is. -/
structure Ctx where
  hash : List UInt64
  message : Bytes
  rest : Nat
  blockSize : Nat
  deriving DecidableEq, Repr

/-- hsk_keccak_init (src/sha3.c:138-145), as hsk_sha3_256_init (src/sha3.c:152-155) and its siblings call it. -/
def init (bits : Nat) : Out Unit Ctx :=
  let rate := 1600 - bits * 2
  if rate ≤ 1600 ∧ rate % 64 = 0 then .ok ⟨List.replicate 25 0, List.replicate 192 0, 0, rate / 8⟩ else .ub

/-- `A[i] ^= w`. -/
def xorAt (A : List UInt64) (i : Nat) (w : UInt64) : List UInt64 := A.set i (A.getD i 0 ^^^ w)

/-- hsk_keccak_theta (src/sha3.c:167-188). -/
def theta (A : List UInt64) : List UInt64 :=
  let a := fun i => A.getD i 0
  let C := [0, 1, 2, 3, 4].map fun x => a x ^^^ a (x + 5) ^^^ a (x + 10) ^^^ a (x + 15) ^^^ a (x + 20)
  let c := fun i => C.getD i 0
  let D := [rotl (c 1) 1 ^^^ c 4, rotl (c 2) 1 ^^^ c 0, rotl (c 3) 1 ^^^ c 1, rotl (c 4) 1 ^^^ c 2, rotl (c 0) 1 ^^^ c 3]
  [0, 1, 2, 3, 4].foldl (fun A x => [x, x + 5, x + 10, x + 15, x + 20].foldl (fun A i => xorAt A i (D.getD x 0)) A) A

/-- The rotations (src/sha3.c:239-262): place and distance. -/
def rotations : List (Nat × UInt64) :=
  [(1, 1), (2, 62), (3, 28), (4, 27), (5, 36), (6, 44), (7, 6), (8, 55), (9, 20), (10, 3), (11, 10), (12, 43), (13, 25), (14, 39),
   (15, 41), (16, 45), (17, 15), (18, 21), (19, 8), (20, 18), (21, 2), (22, 61), (23, 56), (24, 14)]

/-- src/sha3.c:239-262. -/
def rho (A : List UInt64) : List UInt64 := rotations.foldl (fun A p => A.set p.1 (rotl (A.getD p.1 0) p.2)) A

/-- The assignments of hsk_keccak_pi but the last (src/sha3.c:193-216): to and from. -/
def moves : List (Nat × Nat) :=
  [(1, 6), (6, 9), (9, 22), (22, 14), (14, 20), (20, 2), (2, 12), (12, 13), (13, 19), (19, 23), (23, 15), (15, 4), (4, 24), (24, 21),
   (21, 8), (8, 16), (16, 5), (5, 3), (3, 18), (18, 17), (17, 11), (11, 7), (7, 10)]

/-- hsk_keccak_pi (src/sha3.c:190-218). -/
def pi (A : List UInt64) : List UInt64 :=
  let A1 := A.getD 1 0
  (moves.foldl (fun A p => A.set p.1 (A.getD p.2 0)) A).set 10 A1

/-- The body of the loop in hsk_keccak_chi (src/sha3.c:223-230). -/
def chiRow (A : List UInt64) (i : Nat) : List UInt64 :=
  let A0 := A.getD i 0
  let A1 := A.getD (1 + i) 0
  let A := xorAt A i (~~~A1 &&& A.getD (2 + i) 0)
  let A := xorAt A (1 + i) (~~~(A.getD (2 + i) 0) &&& A.getD (3 + i) 0)
  let A := xorAt A (2 + i) (~~~(A.getD (3 + i) 0) &&& A.getD (4 + i) 0)
  let A := xorAt A (3 + i) (~~~(A.getD (4 + i) 0) &&& A0)
  xorAt A (4 + i) (~~~A0 &&& A1)

/-- hsk_keccak_chi (src/sha3.c:220-231). -/
def chi (A : List UInt64) : List UInt64 := [0, 5, 10, 15, 20].foldl chiRow A

/-- The body of the loop in hsk_sha3_permutation (src/sha3.c:236-268). -/
def round (A : List UInt64) (r : Nat) : List UInt64 := xorAt (chi (pi (rho (theta A)))) 0 (roundConstants.getD r 0)

/-- hsk_sha3_permutation (src/sha3.c:233-269). -/
def permutation (A : List UInt64) : List UInt64 := (List.range 24).foldl round A

/-- How many words hsk_sha3_process_block takes from a block (src/sha3.c:277-313). -/
def wordCount (blockSize : Nat) : Nat :=
  if blockSize > 72 then
    if blockSize > 104 then
      if blockSize > 136 then
        if blockSize > 144 then 25 else 18
      else 17
    else 13
  else 9

/-- hsk_sha3_process_block (src/sha3.c:271-316). -/
def processBlock (hash : List UInt64) (block : Bytes) (blockSize : Nat) : Out Unit (List UInt64) :=
  let n := wordCount blockSize
  if 8 * n ≤ block.length then .ok (permutation ((List.range n).foldl (fun A i => xorAt A i (ld64 (block.drop (8 * i)))) hash)) else .ub

/-- The loop over whole blocks and what follows it (src/sha3.c:340-356). `al` is IS_ALIGNED_64. -/
def blocks (al : Bool) : Nat → Ctx → Bytes → Out Unit Ctx
  | 0, _, _ => .ub
  | fuel + 1, c, msg =>
    if msg.length ≥ c.blockSize then
      if al then
        (processBlock c.hash (msg.take c.blockSize) c.blockSize).bind fun h => blocks al fuel { c with hash := h } (msg.drop c.blockSize)
      else (memcpy c.message 0 (msg.take c.blockSize)).bind fun m =>
        (processBlock c.hash m c.blockSize).bind fun h => blocks al fuel { c with message := m, hash := h } (msg.drop c.blockSize)
    else if msg.length > 0 then (memcpy c.message 0 msg).bind fun m => .ok { c with message := m }
    else .ok c

/-- `ctx->rest & HSK_SHA3_FINALIZED`. -/
def finalized (c : Ctx) : Bool := c.rest / 2 ^ 31 % 2 = 1

/-- hsk_sha3_update (src/sha3.c:318-357). The sum of `rest` and the size does not overflow (what is in
memory is far smaller). -/
def update (al : Bool) (c : Ctx) (msg : Bytes) : Out Unit Ctx :=
  let index := c.rest
  if finalized c then .ok c
  else if c.blockSize = 0 then .ub
  else
    let c := { c with rest := (c.rest + msg.length) % c.blockSize }
    if index > 0 then
      let left := c.blockSize - index
      (memcpy c.message index (msg.take (if msg.length < left then msg.length else left))).bind fun m =>
        let c := { c with message := m }
        if msg.length < left then .ok c
        else (processBlock c.hash c.message c.blockSize).bind fun h => blocks al (msg.length + 1) { c with hash := h } (msg.drop left)
    else blocks al (msg.length + 1) c msg

/-- `message[i] |= b` on bytes. -/
def orAt (m : Bytes) (i : Nat) (b : UInt8) : Out Unit Bytes := if i < m.length then .ok (m.set i (m.getD i 0 ||| b)) else .ub

/-- hsk_sha3_final (src/sha3.c:359-377): the bytes stored in `result`. -/
def final (c : Ctx) : Out Unit Bytes :=
  let digestLength := 100 - c.blockSize / 2
  (if finalized c then .ok c
    else (memcpy c.message c.rest (List.replicate (c.blockSize - c.rest) 0)).bind fun m => (orAt m c.rest 0x06).bind fun m =>
      (orAt m (c.blockSize - 1) 0x80).bind fun m => (processBlock c.hash m c.blockSize).bind fun h =>
        .ok { c with message := m, hash := h, rest := 2 ^ 31 }).bind fun c =>
  if c.blockSize > digestLength then .ok ((c.hash.flatMap st64).take digestLength) else .ub

/-- A run of updates. -/
def updates : List (Bool × Bytes) → Ctx → Out Unit Ctx
  | [], c => .ok c
  | x :: l, c => (update x.1 c x.2).bind fun c => updates l c

/-- Init, updates and final, as in hsk_hash_sha3 (src/hash.c:66-73) and in hsk_header_cache
(src/header.c:391-395). -/
def hashOf (bits : Nat) (l : List (Bool × Bytes)) : Out Unit Bytes :=
  (init bits).bind fun c => (updates l c).bind fun c => final c

/-- hsk_hash_name (src/hash.c:144-147). -/
def hashName (al : Bool) (name : Bytes) : Out Unit Bytes := hashOf 256 [(al, name)]

end Verif.Sha3
