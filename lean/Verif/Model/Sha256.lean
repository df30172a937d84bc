import Verif.Model.Words
/-
Model of src/sha256.c. The context's memory has arbitrary contents before it is written; the
alignment of the caller's pointers is an argument.
-/
namespace Verif.Sha256
open Verif.Words

/-- bswap_32 (src/sha256.c:26-29). -/
def bswap (x : UInt32) : UInt32 :=
  let y := ((x <<< (8 : UInt32)) &&& (0xff00ff00 : UInt32)) ||| ((x >>> (8 : UInt32)) &&& (0x00ff00ff : UInt32))
  (y >>> (16 : UInt32)) ||| (y <<< (16 : UInt32))

/-- ROTR32 (src/sha256.c:63). -/
def rotr (x n : UInt32) : UInt32 := x >>> n ^^^ x <<< (32 - n)

/-- k256 (src/sha256.c:65-77). -/
def k256 : List UInt32 :=
  [0x428a2f98, 0x71374491, 0xb5c0fbcf, 0xe9b5dba5, 0x3956c25b, 0x59f111f1,
   0x923f82a4, 0xab1c5ed5, 0xd807aa98, 0x12835b01, 0x243185be, 0x550c7dc3,
   0x72be5d74, 0x80deb1fe, 0x9bdc06a7, 0xc19bf174, 0xe49b69c1, 0xefbe4786,
   0x0fc19dc6, 0x240ca1cc, 0x2de92c6f, 0x4a7484aa, 0x5cb0a9dc, 0x76f988da,
   0x983e5152, 0xa831c66d, 0xb00327c8, 0xbf597fc7, 0xc6e00bf3, 0xd5a79147,
   0x06ca6351, 0x14292967, 0x27b70a85, 0x2e1b2138, 0x4d2c6dfc, 0x53380d13,
   0x650a7354, 0x766a0abb, 0x81c2c92e, 0x92722c85, 0xa2bfe8a1, 0xa81a664b,
   0xc24b8b70, 0xc76c51a3, 0xd192e819, 0xd6990624, 0xf40e3585, 0x106aa070,
   0x19a4c116, 0x1e376c08, 0x2748774c, 0x34b0bcb5, 0x391c0cb3, 0x4ed8aa4a,
   0x5b9cca4f, 0x682e6ff3, 0x748f82ee, 0x78a5636f, 0x84c87814, 0x8cc70208,
   0x90befffa, 0xa4506ceb, 0xbef9a3f7, 0xc67178f2]

/-- Ch, Maj, Sigma0, Sigma1, sigma0 and sigma1 (src/sha256.c:79-85). -/
def ch (x y z : UInt32) : UInt32 := z ^^^ (x &&& (y ^^^ z))
def maj (x y z : UInt32) : UInt32 := (x &&& y) ^^^ (z &&& (x ^^^ y))
def bigSigma0 (x : UInt32) : UInt32 := rotr x 2 ^^^ rotr x 13 ^^^ rotr x 22
def bigSigma1 (x : UInt32) : UInt32 := rotr x 6 ^^^ rotr x 11 ^^^ rotr x 25
def sigma0 (x : UInt32) : UInt32 := rotr x 7 ^^^ rotr x 18 ^^^ x >>> 3
def sigma1 (x : UInt32) : UInt32 := rotr x 17 ^^^ rotr x 19 ^^^ x >>> 10

/-- RECALCULATE_W (src/sha256.c:87-90). -/
def recalc (w : List UInt32) (n : Nat) : List UInt32 :=
  w.set n (w.getD n 0 + (sigma1 (w.getD ((n + 14) % 16) 0) + w.getD ((n + 9) % 16) 0 + sigma0 (w.getD ((n + 1) % 16) 0)))

/-- Which of the variables `A` to `H` the `j`-th argument of the `n`-th call of a macro is
(src/sha256.c:132-166): from call to call the arguments move on by one place. -/
def arg (n j : Nat) : Nat := (j + 8 - n % 8) % 8

/-- ROUND (src/sha256.c:92-96), with the arguments of the `n`-th call. -/
def round (n : Nat) (v : List UInt32) (k data : UInt32) : List UInt32 :=
  let x := fun j => v.getD (arg n j) 0
  let t1 := x 7 + bigSigma1 (x 4) + ch (x 4) (x 5) (x 6) + k + data
  let v := v.set (arg n 3) (x 3 + t1)
  v.set (arg n 7) (t1 + bigSigma0 (x 0) + maj (x 0) (x 1) (x 2))

/-- The first sixteen rounds, ROUND_1_16 (src/sha256.c:98-99, 132-147): variables and `W`. -/
def rounds1 (block : Bytes) : Nat → List UInt32 × List UInt32 → List UInt32 × List UInt32
  | 0, s => s
  | n + 1, s =>
    let s := rounds1 block n s
    let w := s.2.set n (bswap (ld32 (block.drop (4 * n))))
    (round n s.1 (k256.getD n 0) (w.getD n 0), w)

/-- Sixteen rounds of the loop, ROUND_17_64 (src/sha256.c:101-102, 149-166), with `k` at the place
`base` of the table. -/
def rounds2 (base : Nat) : Nat → List UInt32 × List UInt32 → List UInt32 × List UInt32
  | 0, s => s
  | n + 1, s =>
    let s := rounds2 base n s
    let w := recalc s.2 n
    (round n s.1 (k256.getD (base + n) 0) (w.getD n 0), w)

/-- hsk_sha256_process_block (src/sha256.c:121-170). `W` is set before it is read. -/
def processBlock (hash : List UInt32) (block : Bytes) : List UInt32 :=
  let s := rounds1 block 16 (hash, List.replicate 16 0)
  let s := rounds2 16 16 s
  let s := rounds2 32 16 s
  let s := rounds2 48 16 s
  List.zipWith (· + ·) hash s.1

/-- hsk_sha256_ctx (src/sha256.h:27-32); `message` as the 64 bytes it is. `digest_length` is 32. -/
structure Ctx where
  message : Bytes
  length : Nat
  hash : List UInt32
  deriving DecidableEq, Repr

/-- hsk_sha256_init (src/sha256.c:104-119), on memory `mem`. -/
def init (mem : Bytes) : Ctx :=
  ⟨mem, 0, [0x6a09e667, 0xbb67ae85, 0x3c6ef372, 0xa54ff53a, 0x510e527f, 0x9b05688c, 0x1f83d9ab, 0x5be0cd19]⟩

/-- The loop over whole blocks and what follows it (src/sha256.c:191-211). `al` is IS_ALIGNED_32. -/
def blocks (al : Bool) : Nat → Ctx → Bytes → Out Unit Ctx
  | 0, _, _ => .ub
  | fuel + 1, c, msg =>
    if msg.length ≥ 64 then
      if al then blocks al fuel { c with hash := processBlock c.hash (msg.take 64) } (msg.drop 64)
      else (memcpy c.message 0 (msg.take 64)).bind fun m =>
        blocks al fuel { c with message := m, hash := processBlock c.hash m } (msg.drop 64)
    else if msg.length > 0 then (memcpy c.message 0 msg).bind fun m => .ok { c with message := m }
    else .ok c

/-- hsk_sha256_update (src/sha256.c:172-212). -/
def update (al : Bool) (c : Ctx) (msg : Bytes) : Out Unit Ctx :=
  let index := c.length % 64
  let c := { c with length := (c.length + msg.length) % 2 ^ 64 }
  if index > 0 then
    let left := 64 - index
    (memcpy c.message index (msg.take left)).bind fun m =>
      let c := { c with message := m }
      if msg.length < left then .ok c
      else blocks al (msg.length + 1) { c with hash := processBlock c.hash c.message } (msg.drop left)
  else blocks al (msg.length + 1) c msg

/-- A word of the message (src/sha256.c:220-239): reading and writing it. -/
def getWord (m : Bytes) (i : Nat) : Out Unit UInt32 := if 4 * i + 4 ≤ m.length then .ok (ld32 (m.drop (4 * i))) else .ub
def setWord (m : Bytes) (i : Nat) (w : UInt32) : Out Unit Bytes := memcpy m (4 * i) (st32 w)

/-- `while (index < n) ctx->message[index++] = 0` (src/sha256.c:228-229, 235-236); the first argument
is how many rounds there are. -/
def zeroTo : Nat → Nat → Bytes → Out Unit Bytes
  | 0, _, m => .ok m
  | k + 1, i, m => (setWord m i 0).bind fun m => zeroTo k (i + 1) m

/-- The result (src/sha256.c:31-47, 242-243): word by word if the pointers are aligned, else byte by
byte. -/
def output (al : Bool) (hash : List UInt32) : Bytes :=
  if al then hash.flatMap fun w => st32 (bswap w)
  else (List.range 32).map fun i => (hash.flatMap st32).getD (i ^^^ 3) 0

/-- The last blocks (src/sha256.c:223-240), the message having been ended with 0x80 and `index`
being the next word. -/
def lastBlocks (c : Ctx) (index : Nat) : Out Unit Ctx :=
  (if index > 14 then
    (zeroTo (16 - index) index c.message).bind fun m => .ok ({ c with message := m, hash := processBlock c.hash m }, 0)
  else .ok (c, index)).bind fun x =>
    (zeroTo (14 - x.2) x.2 x.1.message).bind fun m =>
    (setWord m 14 (bswap (UInt32.ofNat (c.length / 2 ^ 29)))).bind fun m =>
    (setWord m 15 (bswap (UInt32.ofNat (c.length * 8)))).bind fun m =>
      .ok { x.1 with message := m, hash := processBlock x.1.hash m }

/-- hsk_sha256_final (src/sha256.c:214-244). -/
def final (al : Bool) (c : Ctx) : Out Unit Bytes :=
  let index := c.length % 64 / 4
  let shift := UInt32.ofNat (c.length % 4 * 8)
  (getWord c.message index).bind fun w =>
  (setWord c.message index (w &&& ~~~(0xffffffff <<< shift))).bind fun m =>
  (getWord m index).bind fun w =>
  (setWord m index (w ^^^ 0x80 <<< shift)).bind fun m =>
  (lastBlocks { c with message := m } (index + 1)).bind fun c => .ok (output al c.hash)

/-- A run of updates, as the callers make them (for instance src/brontide.c:247-255). -/
def updates : List (Bool × Bytes) → Ctx → Out Unit Ctx
  | [], c => .ok c
  | x :: l, c => (update x.1 c x.2).bind fun c => updates l c

/-- Init, updates and final (for instance src/hash.c:147-155). -/
def hashOf (mem : Bytes) (l : List (Bool × Bytes)) (al : Bool) : Out Unit Bytes :=
  (updates l (init mem)).bind fun c => final al c

end Verif.Sha256
