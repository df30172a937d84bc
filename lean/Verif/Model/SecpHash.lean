import Verif.Model.Words
import Verif.Base
/-
Model of src/secp256k1/hash_impl.h: SHA-256, HMAC and the generator of RFC 6979 as the library for signatures has them,
beside those of src/sha256.c and src/hash.c. Contexts on the stack have arbitrary contents (`mem`) before they are written.
-/
namespace Verif.SecpHash
open Verif.Words

/-- `(x) >> n | (x) << (32 - n)`, as the macros have it (src/secp256k1/hash_impl.h:18-21). -/
def rotr (x n : UInt32) : UInt32 := x >>> n ||| x <<< (32 - n)

/-- Ch, Maj, Sigma0, Sigma1, sigma0 and sigma1 (src/secp256k1/hash_impl.h:16-21). -/
def ch (x y z : UInt32) : UInt32 := z ^^^ (x &&& (y ^^^ z))
def maj (x y z : UInt32) : UInt32 := (x &&& y) ||| (z &&& (x ||| y))
def bigSigma0 (x : UInt32) : UInt32 := rotr x 2 ^^^ rotr x 13 ^^^ rotr x 22
def bigSigma1 (x : UInt32) : UInt32 := rotr x 6 ^^^ rotr x 11 ^^^ rotr x 25
def sigma0 (x : UInt32) : UInt32 := rotr x 7 ^^^ rotr x 18 ^^^ x >>> 3
def sigma1 (x : UInt32) : UInt32 := rotr x 17 ^^^ rotr x 19 ^^^ x >>> 10

/-- BE32 (src/secp256k1/hash_impl.h:33). -/
def be32 (p : UInt32) : UInt32 :=
  ((p &&& 0xFF) <<< (24 : UInt32)) ||| ((p &&& 0xFF00) <<< (8 : UInt32)) ||| ((p &&& 0xFF0000) >>> (8 : UInt32)) |||
    ((p &&& 0xFF000000) >>> (24 : UInt32))

/-- The constants in the lines of the transformation (src/secp256k1/hash_impl.h:53-119). -/
def k : List UInt32 :=
  [0x428a2f98, 0x71374491, 0xb5c0fbcf, 0xe9b5dba5, 0x3956c25b, 0x59f111f1,
   0x923f82a4, 0xab1c5ed5, 0xd807aa98, 0x12835b01, 0x243185be, 0x550c7dc3,
   0x72be5d74, 0x80deb1fe, 0x9bdc06a7, 0xc19bf174, 0xe49b69c1, 0xefbe4786,
   0x0fc19dc6, 0x240ca1cc, 0x2de92c6f, 0x4a7484aa, 0x5cb0a9dc, 0x76f988da,
   0x983e5152, 0xa831c66d, 0xb00327c8, 0xbf597fc7, 0xc6e00bf3, 0xd5a79147,
   0x06ca6351, 0x14292967, 0x27b70a85, 0x2e1b2138, 0x4d2c6dfc, 0x53380d13,
   0x650a7354, 0x766a0abb, 0x81c2c92e, 0x92722c85, 0xa2bfe8a1, 0xa81a664b,
   0xc24b8b70, 0xc76c51a3, 0xd192e819, 0xd6990624, 0xf40e3585, 0x106aa070,
   0x19a4c116, 0x1e376c08, 0x2748774c, 0x34b0bcb5, 0x391c0cb3, 0x4ed8aa4a,
   0x5b9cca4f, 0x682e6ff3, 0x748f82ee, 0x78a5636f, 0x84c87814, 0x8cc70208,
   0x90befffa, 0xa4506ceb, 0xbef9a3f7, 0xc67178f2]

/-- Which of the variables `a` to `h` the `j`-th argument in the `n`-th line is (src/secp256k1/hash_impl.h:53-119): from line to
line the arguments move on by one place. -/
def arg (n j : Nat) : Nat := (j + 8 - n % 8) % 8

/-- Round (src/secp256k1/hash_impl.h:23-28), with the arguments of the `n`-th line. -/
def round (n : Nat) (v : List UInt32) (k w : UInt32) : List UInt32 :=
  let x := fun j => v.getD (arg n j) 0
  let t1 := x 7 + bigSigma1 (x 4) + ch (x 4) (x 5) (x 6) + k + w
  let t2 := bigSigma0 (x 0) + maj (x 0) (x 1) (x 2)
  let v := v.set (arg n 3) (x 3 + t1)
  v.set (arg n 7) (t1 + t2)

/-- The first sixteen lines (src/secp256k1/hash_impl.h:53-68): variables and `w0` to `w15`. -/
def rounds1 (chunk : Bytes) : Nat → List UInt32 × List UInt32 → List UInt32 × List UInt32
  | 0, s => s
  | n + 1, s =>
    let s := rounds1 chunk n s
    let w := s.2.set n (be32 (ld32 (chunk.drop (4 * n))))
    (round n s.1 (k.getD n 0) (w.getD n 0), w)

/-- The next lines, sixteen and sixteen (src/secp256k1/hash_impl.h:70-85, 87-102, 104-117), with the constants from the place
`base` of the table on. -/
def rounds2 (base : Nat) : Nat → List UInt32 × List UInt32 → List UInt32 × List UInt32
  | 0, s => s
  | n + 1, s =>
    let s := rounds2 base n s
    let w := s.2.set n (s.2.getD n 0 + (sigma1 (s.2.getD ((n + 14) % 16) 0) + s.2.getD ((n + 9) % 16) 0 +
      sigma0 (s.2.getD ((n + 1) % 16) 0)))
    (round n s.1 (k.getD (base + n) 0) (w.getD n 0), w)

/-- The last two lines, which store no word (src/secp256k1/hash_impl.h:118-119). -/
def rounds3 (s : List UInt32 × List UInt32) : List UInt32 :=
  let w := fun i => s.2.getD i 0
  let v := round 14 s.1 (k.getD 62 0) (w 14 + sigma1 (w 12) + w 7 + sigma0 (w 15))
  round 15 v (k.getD 63 0) (w 15 + sigma1 (w 13) + w 8 + sigma0 (w 0))

/-- sha256_transform (src/secp256k1/hash_impl.h:48-129). The words `w0` to `w15` are set before they are read. -/
def transform (s : List UInt32) (chunk : Bytes) : List UInt32 :=
  let r := rounds1 chunk 16 (s, List.replicate 16 0)
  let r := rounds2 16 16 r
  let r := rounds2 32 16 r
  let r := rounds2 48 14 r
  List.zipWith (· + ·) s (rounds3 r)

/-- hsk_secp256k1_sha256 (src/secp256k1/hash.h:13-17); `buf` as the 64 bytes it is. -/
structure Ctx where
  s : List UInt32
  buf : Bytes
  bytes : Nat
  deriving DecidableEq, Repr

/-- sha256_initialize (src/secp256k1/hash_impl.h:36-46). -/
def sha256Init (mem : Bytes) : Ctx :=
  ⟨[0x6a09e667, 0xbb67ae85, 0x3c6ef372, 0xa54ff53a, 0x510e527f, 0x9b05688c, 0x1f83d9ab, 0x5be0cd19], mem, 0⟩

/-- The loop and the rest (src/secp256k1/hash_impl.h:134-146). -/
def writeLoop : Nat → Ctx → Nat → Bytes → Out Unit Ctx
  | 0, _, _, _ => .ub
  | fuel + 1, c, bufsize, data =>
    if bufsize + data.length ≥ 64 then
      let len := 64 - bufsize
      (memcpy c.buf bufsize (data.take len)).bind fun m =>
        writeLoop fuel { c with buf := m, s := transform c.s m } 0 (data.drop len)
    else if data.length ≠ 0 then (memcpy c.buf bufsize data).bind fun m => .ok { c with buf := m }
    else .ok c

/-- sha256_write (src/secp256k1/hash_impl.h:131-147). -/
def sha256Write (c : Ctx) (data : Bytes) : Out Unit Ctx :=
  let bufsize := c.bytes % 64
  writeLoop (data.length + 1) { c with bytes := (c.bytes + data.length) % 2 ^ 64 } bufsize data

/-- The array `pad` (src/secp256k1/hash_impl.h:150). -/
def pad : Bytes := 0x80 :: List.replicate 63 0

/-- sha256_finalize (src/secp256k1/hash_impl.h:149-163). -/
def sha256Final (c : Ctx) : Out Unit Bytes :=
  let sizedesc := st32 (be32 (UInt32.ofNat (c.bytes / 2 ^ 29))) ++ st32 (be32 (UInt32.ofNat (c.bytes * 2 ^ 3)))
  let len := 1 + (119 - c.bytes % 64) % 64
  if len ≤ pad.length then
    (sha256Write c (pad.take len)).bind fun c =>
    (sha256Write c sizedesc).bind fun c =>
      .ok (c.s.flatMap fun w => st32 (be32 w))
  else .ub

/-- A run of writes. -/
def writes : List Bytes → Ctx → Out Unit Ctx
  | [], c => .ok c
  | x :: l, c => (sha256Write c x).bind fun c => writes l c

/-- Initialize, writes and finalize (for instance src/secp256k1/ecdh_impl.h:43-46). -/
def sha256 (mem : Bytes) (l : List Bytes) : Out Unit Bytes := (writes l (sha256Init mem)).bind sha256Final

/-- hsk_secp256k1_hmac_sha256 (src/secp256k1/hash.h:23-25). -/
structure Hmac where
  inner : Ctx
  outer : Ctx

/-- hmac_sha256_initialize (src/secp256k1/hash_impl.h:165-191); `mem` for the contexts. -/
def hmacInit (mem : Nat → Bytes) (key : Bytes) : Out Unit Hmac :=
  (if key.length ≤ 64 then .ok (key ++ List.replicate (64 - key.length) 0)
    else (sha256 (mem 0) [key]).bind fun d => .ok (d ++ List.replicate 32 0)).bind fun rkey =>
  let rkey := rkey.map (· ^^^ 0x5c)
  (sha256Write (sha256Init (mem 1)) rkey).bind fun outer =>
  let rkey := rkey.map (· ^^^ (0x5c ^^^ 0x36))
  (sha256Write (sha256Init (mem 2)) rkey).bind fun inner => .ok ⟨inner, outer⟩

/-- hmac_sha256_write (src/secp256k1/hash_impl.h:193-195), so many times. -/
def hmacWrites (h : Hmac) (l : List Bytes) : Out Unit Hmac := (writes l h.inner).bind fun c => .ok { h with inner := c }

/-- hmac_sha256_finalize (src/secp256k1/hash_impl.h:197-203). -/
def hmacFinal (h : Hmac) : Out Unit Bytes :=
  (sha256Final h.inner).bind fun temp =>
  (sha256Write h.outer temp).bind fun outer => sha256Final outer

/-- Initialize, writes and finalize (for instance src/secp256k1/hash_impl.h:215-219). -/
def hmac (mem : Nat → Bytes) (key : Bytes) (l : List Bytes) : Out Unit Bytes :=
  (hmacInit mem key).bind fun h => (hmacWrites h l).bind hmacFinal

/-- hsk_secp256k1_rfc6979_hmac_sha256 (src/secp256k1/hash.h:31-35). -/
structure Rng where
  v : Bytes
  k : Bytes
  retry : Bool

/-- rfc6979_hmac_sha256_initialize (src/secp256k1/hash_impl.h:206-234). -/
def rngInit (mem : Nat → Bytes) (key : Bytes) : Out Unit Rng :=
  let v := List.replicate 32 0x01
  let k := List.replicate 32 0x00
  (hmac mem k [v, [0x00], key]).bind fun k =>
  (hmac mem k [v]).bind fun v =>
  (hmac mem k [v, [0x01], key]).bind fun k =>
  (hmac mem k [v]).bind fun v => .ok ⟨v, k, false⟩

/-- The loop (src/secp256k1/hash_impl.h:250-262); the first argument bounds the rounds. -/
def genLoop (mem : Nat → Bytes) (k : Bytes) : Nat → Bytes → Nat → Out Unit (Bytes × Bytes)
  | 0, v, _ => .ok (v, [])
  | fuel + 1, v, outlen =>
    if outlen > 0 then
      (hmac mem k [v]).bind fun v =>
      let now := if outlen > 32 then 32 else outlen
      (genLoop mem k fuel v (outlen - now)).bind fun r => .ok (r.1, v.take now ++ r.2)
    else .ok (v, [])

/-- rfc6979_hmac_sha256_generate (src/secp256k1/hash_impl.h:236-265). -/
def rngGenerate (mem : Nat → Bytes) (g : Rng) (outlen : Nat) : Out Unit (Rng × Bytes) :=
  (if g.retry then
    (hmac mem g.k [g.v, [0x00]]).bind fun k => (hmac mem k [g.v]).bind fun v => .ok (k, v)
  else .ok (g.k, g.v)).bind fun kv =>
  (genLoop mem kv.1 outlen kv.2 outlen).bind fun r => .ok (⟨r.1, kv.1, true⟩, r.2)

/-- The loop of nonce_function_rfc6979 (src/secp256k1/secp256k1.c:350-352). -/
def nonceLoop (mem : Nat → Bytes) (g : Rng) : Nat → Out Unit Bytes
  | 0 => (rngGenerate mem g 32).bind fun r => .ok r.2
  | n + 1 => (rngGenerate mem g 32).bind fun r => nonceLoop mem r.1 n

/-- nonce_function_rfc6979 (src/secp256k1/secp256k1.c:327-355), without extra data, without an algorithm's name. -/
def nonce (mem : Nat → Bytes) (msg key : Bytes) (counter : Nat) : Out Unit Bytes :=
  (rngInit mem (key ++ msg)).bind fun g => nonceLoop mem g counter

end Verif.SecpHash
