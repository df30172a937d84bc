import Verif.Base
/-
SHA-256 as FIPS 180-4 defines it, on whole messages.
-/
namespace Verif.Spec.Sha256

/-- The greatest `r` below 2^bits with `r ^ k ≤ n`. -/
def root (k n : Nat) : Nat → Nat → Nat
  | 0, r => r
  | bits + 1, r => root k n bits (if (r + 2 ^ bits) ^ k ≤ n then r + 2 ^ bits else r)

def isPrime (n : Nat) : Bool := n ≥ 2 && (List.range n).all fun d => d < 2 || n % d != 0

/-- The first 64 primes. -/
def primes : List Nat := (List.range 312).filter isPrime

/-- §4.2.2: the first 32 bits of the fractional parts of the cube roots of the first 64 primes. -/
def K (t : Nat) : UInt32 := UInt32.ofNat (root 3 (primes.getD t 0 * 2 ^ 96) 40 0)

/-- §5.3.3: the same of the square roots of the first eight. -/
def H0 (i : Nat) : UInt32 := UInt32.ofNat (root 2 (primes.getD i 0 * 2 ^ 64) 40 0)

/-- §3.2, §4.1.2: the functions. -/
def rotr (n : Nat) (x : UInt32) : UInt32 := ⟨x.toBitVec.rotateRight n⟩
def shr (n : Nat) (x : UInt32) : UInt32 := ⟨x.toBitVec >>> n⟩
def Ch (x y z : UInt32) : UInt32 := (x &&& y) ^^^ (~~~x &&& z)
def Maj (x y z : UInt32) : UInt32 := (x &&& y) ^^^ (x &&& z) ^^^ (y &&& z)
def bigSigma0 (x : UInt32) : UInt32 := rotr 2 x ^^^ rotr 13 x ^^^ rotr 22 x
def bigSigma1 (x : UInt32) : UInt32 := rotr 6 x ^^^ rotr 11 x ^^^ rotr 25 x
def sigma0 (x : UInt32) : UInt32 := rotr 7 x ^^^ rotr 18 x ^^^ shr 3 x
def sigma1 (x : UInt32) : UInt32 := rotr 17 x ^^^ rotr 19 x ^^^ shr 10 x

/-- §5.1.1, for messages of whole bytes: a one bit, as few zero bits as there can be, and the
number of bits, so that the length is a multiple of 512 bits. -/
def pad (m : Bytes) : Bytes := m ++ [0x80] ++ List.replicate ((119 - m.length % 64) % 64) 0 ++ beBytes 8 (8 * m.length)

/-- §5.2.1: the words of a block. -/
def words (block : Bytes) : List UInt32 := (List.range 16).map fun i => UInt32.ofNat (beNat ((block.drop (4 * i)).take 4))

/-- §6.2.2, 1: the message schedule, one word longer. -/
def extend (w : List UInt32) : List UInt32 :=
  let t := w.length
  w ++ [sigma1 (w.getD (t - 2) 0) + w.getD (t - 7) 0 + sigma0 (w.getD (t - 15) 0) + w.getD (t - 16) 0]

/-- The message schedule of so many words. -/
def schedule (block : Bytes) : Nat → List UInt32
  | 0 => words block
  | n + 1 => extend (schedule block n)

/-- The working variables. -/
structure Vars where
  a : UInt32
  b : UInt32
  c : UInt32
  d : UInt32
  e : UInt32
  f : UInt32
  g : UInt32
  h : UInt32
  deriving DecidableEq, Repr

/-- §6.2.2, 3. -/
def round (k w : UInt32) (v : Vars) : Vars :=
  let t1 := v.h + bigSigma1 v.e + Ch v.e v.f v.g + k + w
  let t2 := bigSigma0 v.a + Maj v.a v.b v.c
  ⟨t1 + t2, v.a, v.b, v.c, v.d + t1, v.e, v.f, v.g⟩

/-- So many rounds. -/
def rounds (w : List UInt32) : Nat → Vars → Vars
  | 0, v => v
  | t + 1, v => round (K t) (w.getD t 0) (rounds w t v)

/-- §6.2.2: one block. -/
def compress (v : Vars) (block : Bytes) : Vars :=
  let r := rounds (schedule block 48) 64 v
  ⟨v.a + r.a, v.b + r.b, v.c + r.c, v.d + r.d, v.e + r.e, v.f + r.f, v.g + r.g, v.h + r.h⟩

/-- §5.3.3. -/
def start : Vars := ⟨H0 0, H0 1, H0 2, H0 3, H0 4, H0 5, H0 6, H0 7⟩

/-- §5.2: a message cut into so many blocks of 64 bytes. -/
def split : Nat → Bytes → List Bytes
  | 0, _ => []
  | n + 1, m => m.take 64 :: split n (m.drop 64)

/-- §6.2: the digest of a message. -/
def sha256 (m : Bytes) : Bytes :=
  let v := (split ((pad m).length / 64) (pad m)).foldl compress start
  [v.a, v.b, v.c, v.d, v.e, v.f, v.g, v.h].flatMap fun w => beBytes 4 w.toNat

end Verif.Spec.Sha256
