import Verif.Spec.Blake2b
import Verif.Spec.Sha3
/-
Keyed BLAKE2b as RFC 7693 defines it, on top of the compression function in Spec/Blake2b; KMAC256 as
NIST SP 800-185 defines it, on top of Keccak-f in Spec/Sha3; and Keccak as it was before FIPS 202.
-/
namespace Verif.Spec.KeyedHash

/-- RFC 7693, 3.3: the state at first, for a digest of `nn` bytes and a key of `kk`. -/
def start (nn kk : Nat) : List UInt64 :=
  [Blake2b.IV 0 ^^^ 0x01010000 ^^^ (UInt64.ofNat kk <<< (8 : UInt64)) ^^^ UInt64.ofNat nn, Blake2b.IV 1, Blake2b.IV 2, Blake2b.IV 3, Blake2b.IV 4, Blake2b.IV 5,
    Blake2b.IV 6, Blake2b.IV 7]

/-- 3.3: a key, padded with zeros, is the first block. -/
def keyed (key m : Bytes) : Bytes := if key = [] then m else key ++ List.replicate (128 - key.length) 0 ++ m

/-- 3.3: the state after `n` blocks that are not the last. -/
def state (nn kk : Nat) (d : Bytes) : Nat → List UInt64
  | 0 => start nn kk
  | n + 1 => Blake2b.F (state nn kk d n) (Blake2b.block d n) (128 * (n + 1)) false

/-- 3.3: the digest of `nn` bytes of a message under a key, which may be empty. -/
def blake2b (nn : Nat) (key m : Bytes) : Bytes :=
  let d := keyed key m
  let last := (d.length - 1) / 128
  ((Blake2b.F (state nn key.length d last) (Blake2b.block d last) d.length true).flatMap fun w => leBytes 8 w.toNat).take nn

/-- FIPS 202, 4 and 5.1, with a rate of `r` bytes: the bits of a suffix and the first 1 of the padding are in the
byte `first`; as many bytes of output as asked for. -/
def pad (first : UInt8) (r : Nat) (m : Bytes) : Bytes :=
  let q := r - m.length % r
  m ++ if q = 1 then [first ||| 0x80] else [first] ++ List.replicate (q - 2) 0 ++ [0x80]

def squeeze (r : Nat) : Nat → List UInt64 → Bytes
  | 0, _ => []
  | n + 1, A => (A.flatMap fun w => leBytes 8 w.toNat).take r ++ squeeze r n (Sha3.keccak A)

def sponge (first : UInt8) (r n : Nat) (m : Bytes) : Bytes :=
  let A := (Sha3.split r ((pad first r m).length / r) (pad first r m)).foldl Sha3.absorb (List.replicate 25 0)
  (squeeze r (n / r + 1) A).take n

/-- Keccak with a digest of `d` bits and a capacity of `2 d`, without a suffix. -/
def keccak (d : Nat) (m : Bytes) : Bytes := sponge 0x01 ((1600 - 2 * d) / 8) (d / 8) m

/-- SP 800-185, 2.3.1: the least number of bytes, at least one, that hold a number. -/
def width : Nat → Nat → Nat
  | 0, _ => 1
  | fuel + 1, x => if x < 256 then 1 else width fuel (x / 256) + 1

def leftEncode (x : Nat) : Bytes := UInt8.ofNat (width x x) :: beBytes (width x x) x
def rightEncode (x : Nat) : Bytes := beBytes (width x x) x ++ [UInt8.ofNat (width x x)]

/-- 2.3.2. -/
def encodeString (s : Bytes) : Bytes := leftEncode (8 * s.length) ++ s

/-- 2.3.3: up to a multiple of `w`. -/
def bytepad (x : Bytes) (w : Nat) : Bytes :=
  let z := leftEncode w ++ x
  z ++ List.replicate ((w - z.length % w) % w) 0

/-- 3.3: cSHAKE256 with a name that is not empty; the suffix is 00. -/
def cshake256 (x : Bytes) (l : Nat) (n s : Bytes) : Bytes := sponge 0x04 136 (l / 8) (bytepad (encodeString n ++ encodeString s) 136 ++ x)

/-- 4.3: KMAC256 of `x` under the key `k`, `l` bits long, customised by `s`. -/
def kmac256 (k x : Bytes) (l : Nat) (s : Bytes) : Bytes :=
  cshake256 (bytepad (encodeString k) 136 ++ x ++ rightEncode l) l "KMAC".toUTF8.toList s

end Verif.Spec.KeyedHash
