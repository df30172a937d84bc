import Verif.Model.Field52
/-
Model of `src/secp256k1/scalar_4x64_impl.h` and `scalar_impl.h`: the arithmetic modulo the order n of the base point on four
words of 64 bits, as it is built where the compiler has 128-bit integers and the assembler routines are not used. A word is a
number; `w64` and `w128` are what remains of a result in a word of 64 and of 128 bits. A flag that is 0 or 1 in the code and only
used in `&`, `|` and `~` with others is a Bool here. The checks with VERIFY_CHECK exist in debug builds only. scalar_clear stores
zeros. Not modelled: scalar_mul_shift_var, scalar_split_128 and scalar_split_lambda, which are used with the endomorphism only.
-/
namespace Verif.Scalar64
open Verif Verif.Field52

/-- hsk_secp256k1_scalar (src/secp256k1/scalar_4x64.h:12-15). -/
structure Sc where
  d0 : Nat
  d1 : Nat
  d2 : Nat
  d3 : Nat
  deriving DecidableEq, Repr

/-- Limbs of the order (src/secp256k1/scalar_4x64_impl.h:11-14). -/
def N0 : Nat := 0xBFD25E8CD0364141
def N1 : Nat := 0xBAAEDCE6AF48A03B
def N2 : Nat := 0xFFFFFFFFFFFFFFFE
def N3 : Nat := 0xFFFFFFFFFFFFFFFF

/-- The complement of a word. -/
def not64 (x : Nat) : Nat := 0xFFFFFFFFFFFFFFFF - x

/-- Limbs of 2^256 minus the order (src/secp256k1/scalar_4x64_impl.h:17-19). -/
def C0 : Nat := w64 (not64 N0 + 1)
def C1 : Nat := not64 N1
def C2 : Nat := 1

/-- Limbs of half the order (src/secp256k1/scalar_4x64_impl.h:22-25). -/
def H0 : Nat := 0xDFE92F46681B20A0
def H1 : Nat := 0x5D576E7357A4501D
def H2 : Nat := 0xFFFFFFFFFFFFFFFF
def H3 : Nat := 0x7FFFFFFFFFFFFFFF

/-- scalar_set_int (src/secp256k1/scalar_4x64_impl.h:34-39). -/
def setInt (v : Nat) : Sc := ⟨v, 0, 0, 0⟩

/-- `a->d[i]`; the index is within the array where the theorems use it. -/
def word (a : Sc) (i : Nat) : Nat := [a.d0, a.d1, a.d2, a.d3].getD i 0

/-- scalar_get_bits (src/secp256k1/scalar_4x64_impl.h:41-44). -/
def getBits (a : Sc) (offset count : Nat) : Nat :=
  ((word a (offset >>> 6) >>> (offset &&& 0x3F)) &&& (w64 (1 <<< count) - 1)) % 2 ^ 32

/-- scalar_get_bits_var (src/secp256k1/scalar_4x64_impl.h:46-55). -/
def getBitsVar (a : Sc) (offset count : Nat) : Nat :=
  if (offset + count - 1) >>> 6 = offset >>> 6 then getBits a offset count
  else (((word a (offset >>> 6) >>> (offset &&& 0x3F)) ||| w64 (word a ((offset >>> 6) + 1) <<< (64 - (offset &&& 0x3F)))) &&&
    (w64 (1 <<< count) - 1)) % 2 ^ 32

/-- scalar_check_overflow (src/secp256k1/scalar_4x64_impl.h:57-67). -/
def checkOverflow (a : Sc) : Nat :=
  let no := decide (a.d3 < N3)
  let no := no || decide (a.d2 < N2)
  let yes := decide (a.d2 > N2) && !no
  let no := no || decide (a.d1 < N1)
  let yes := yes || (decide (a.d1 > N1) && !no)
  let yes := yes || (decide (a.d0 ≥ N0) && !no)
  yes.toNat

/-- scalar_reduce (src/secp256k1/scalar_4x64_impl.h:69-81). The products with `overflow` are of 64 bits, the one with
N_C_2 of 32. -/
def reduce (r : Sc) (overflow : Nat) : Sc :=
  let t := w128 (r.d0 + w64 (overflow * C0))
  let d0 := w64 t
  let t := t >>> 64
  let t := w128 (t + (r.d1 + w64 (overflow * C1)))
  let d1 := w64 t
  let t := t >>> 64
  let t := w128 (t + (r.d2 + overflow * C2 % 2 ^ 32))
  let d2 := w64 t
  let t := t >>> 64
  let t := w128 (t + r.d3)
  let d3 := w64 t
  ⟨d0, d1, d2, d3⟩

/-- scalar_add (src/secp256k1/scalar_4x64_impl.h:83-97). -/
def add (a b : Sc) : Sc × Nat :=
  let t := w128 (a.d0 + b.d0)
  let d0 := w64 t
  let t := t >>> 64
  let t := w128 (t + (a.d1 + b.d1))
  let d1 := w64 t
  let t := t >>> 64
  let t := w128 (t + (a.d2 + b.d2))
  let d2 := w64 t
  let t := t >>> 64
  let t := w128 (t + (a.d3 + b.d3))
  let d3 := w64 t
  let t := t >>> 64
  let r : Sc := ⟨d0, d1, d2, d3⟩
  let overflow := (t + checkOverflow r) % 2 ^ 32
  (reduce r overflow, overflow)

/-- `((uint64_t)((bit >> 6) == i)) << (bit & 0x3F)`. -/
def bitAt (bit i : Nat) : Nat := w64 ((if bit >>> 6 = i then 1 else 0) <<< (bit &&& 0x3F))

/-- scalar_cadd_bit (src/secp256k1/scalar_4x64_impl.h:99-115); `flag` is 0 or 1. -/
def caddBit (r : Sc) (bit flag : Nat) : Sc :=
  let bit := bit + (((flag + 2 ^ 32 - 1) % 2 ^ 32) &&& 0x100)
  let t := w128 (r.d0 + bitAt bit 0)
  let d0 := w64 t
  let t := t >>> 64
  let t := w128 (t + (r.d1 + bitAt bit 1))
  let d1 := w64 t
  let t := t >>> 64
  let t := w128 (t + (r.d2 + bitAt bit 2))
  let d2 := w64 t
  let t := t >>> 64
  let t := w128 (t + (r.d3 + bitAt bit 3))
  let d3 := w64 t
  ⟨d0, d1, d2, d3⟩

/-- scalar_set_b32 (src/secp256k1/scalar_4x64_impl.h:117-127). -/
def setB32 (s : Bytes) : Sc × Nat :=
  let b := fun i => (s.getD i 0).toNat
  let r : Sc := ⟨
    b 31 ||| (b 30 <<< 8) ||| (b 29 <<< 16) ||| (b 28 <<< 24) ||| (b 27 <<< 32) ||| (b 26 <<< 40) ||| (b 25 <<< 48) ||| (b 24 <<< 56),
    b 23 ||| (b 22 <<< 8) ||| (b 21 <<< 16) ||| (b 20 <<< 24) ||| (b 19 <<< 32) ||| (b 18 <<< 40) ||| (b 17 <<< 48) ||| (b 16 <<< 56),
    b 15 ||| (b 14 <<< 8) ||| (b 13 <<< 16) ||| (b 12 <<< 24) ||| (b 11 <<< 32) ||| (b 10 <<< 40) ||| (b 9 <<< 48) ||| (b 8 <<< 56),
    b 7 ||| (b 6 <<< 8) ||| (b 5 <<< 16) ||| (b 4 <<< 24) ||| (b 3 <<< 32) ||| (b 2 <<< 40) ||| (b 1 <<< 48) ||| (b 0 <<< 56)⟩
  let over := checkOverflow r
  (reduce r over, over)

/-- The eight bytes of a word, as scalar_get_b32 writes them. -/
def wordBytes (x : Nat) : Bytes :=
  [x >>> 56, x >>> 48, x >>> 40, x >>> 32, x >>> 24, x >>> 16, x >>> 8, x].map UInt8.ofNat

/-- scalar_get_b32 (src/secp256k1/scalar_4x64_impl.h:129-134). -/
def getB32 (a : Sc) : Bytes := wordBytes a.d3 ++ wordBytes a.d2 ++ wordBytes a.d1 ++ wordBytes a.d0

/-- scalar_is_zero (src/secp256k1/scalar_4x64_impl.h:136-138). -/
def isZero (a : Sc) : Bool := (a.d0 ||| a.d1 ||| a.d2 ||| a.d3) == 0

/-- scalar_negate (src/secp256k1/scalar_4x64_impl.h:140-150). -/
def negate (a : Sc) : Sc :=
  let nonzero := w64 (0xFFFFFFFFFFFFFFFF * (!isZero a).toNat)
  let t := w128 (not64 a.d0 + N0 + 1)
  let d0 := t &&& nonzero
  let t := t >>> 64
  let t := w128 (t + (not64 a.d1 + N1))
  let d1 := t &&& nonzero
  let t := t >>> 64
  let t := w128 (t + (not64 a.d2 + N2))
  let d2 := t &&& nonzero
  let t := t >>> 64
  let t := w128 (t + (not64 a.d3 + N3))
  let d3 := t &&& nonzero
  ⟨d0, d1, d2, d3⟩

/-- scalar_is_one (src/secp256k1/scalar_4x64_impl.h:152-154). -/
def isOne (a : Sc) : Bool := ((a.d0 ^^^ 1) ||| a.d1 ||| a.d2 ||| a.d3) == 0

/-- scalar_is_high (src/secp256k1/scalar_4x64_impl.h:156-166). -/
def isHigh (a : Sc) : Bool :=
  let no := decide (a.d3 < H3)
  let yes := decide (a.d3 > H3) && !no
  let no := no || (decide (a.d2 < H2) && !yes)
  let no := no || (decide (a.d1 < H1) && !yes)
  let yes := yes || (decide (a.d1 > H1) && !no)
  let yes := yes || (decide (a.d0 > H0) && !no)
  yes

/-- scalar_cond_negate (src/secp256k1/scalar_4x64_impl.h:168-182); the result 1 or -1 says whether it was left as it was. -/
def condNegate (r : Sc) (flag : Bool) : Sc × Int :=
  let mask := if flag then 0xFFFFFFFFFFFFFFFF else 0
  let nonzero := if isZero r then 0 else 0xFFFFFFFFFFFFFFFF
  let t := w128 ((r.d0 ^^^ mask) + ((N0 + 1) &&& mask))
  let d0 := t &&& nonzero
  let t := t >>> 64
  let t := w128 (t + ((r.d1 ^^^ mask) + (N1 &&& mask)))
  let d1 := t &&& nonzero
  let t := t >>> 64
  let t := w128 (t + ((r.d2 ^^^ mask) + (N2 &&& mask)))
  let d2 := t &&& nonzero
  let t := t >>> 64
  let t := w128 (t + ((r.d3 ^^^ mask) + (N3 &&& mask)))
  let d3 := t &&& nonzero
  (⟨d0, d1, d2, d3⟩, 2 * (if mask = 0 then 1 else 0) - 1)

/-- The accumulator `c0`, `c1`, `c2`. -/
structure Acc where
  c0 : Nat
  c1 : Nat
  c2 : Nat

/-- `(x < y) ? 1 : 0`. -/
def less (x y : Nat) : Nat := if x < y then 1 else 0

/-- `x == 0` as a number. -/
def zero (x : Nat) : Nat := if x = 0 then 1 else 0

/-- muladd (src/secp256k1/scalar_4x64_impl.h:187-199); `k` is the number of bits of `c2`. -/
def muladd (k : Nat) (c : Acc) (a b : Nat) : Acc :=
  let t := w128 (a * b)
  let th := w64 (t >>> 64)
  let tl := w64 t
  let c0 := w64 (c.c0 + tl)
  let th := w64 (th + less c0 tl)
  let c1 := w64 (c.c1 + th)
  let c2 := (c.c2 + less c1 th) % 2 ^ k
  ⟨c0, c1, c2⟩

/-- muladd_fast (src/secp256k1/scalar_4x64_impl.h:202-213). -/
def muladdFast (c : Acc) (a b : Nat) : Acc :=
  let t := w128 (a * b)
  let th := w64 (t >>> 64)
  let tl := w64 t
  let c0 := w64 (c.c0 + tl)
  let th := w64 (th + less c0 tl)
  let c1 := w64 (c.c1 + th)
  ⟨c0, c1, c.c2⟩

/-- muladd2 (src/secp256k1/scalar_4x64_impl.h:216-235). -/
def muladd2 (k : Nat) (c : Acc) (a b : Nat) : Acc :=
  let t := w128 (a * b)
  let th := w64 (t >>> 64)
  let tl := w64 t
  let th2 := w64 (th + th)
  let c2 := (c.c2 + less th2 th) % 2 ^ k
  let tl2 := w64 (tl + tl)
  let th2 := w64 (th2 + less tl2 tl)
  let c0 := w64 (c.c0 + tl2)
  let th2 := w64 (th2 + less c0 tl2)
  let c2 := (c2 + (less c0 tl2 &&& zero th2)) % 2 ^ k
  let c1 := w64 (c.c1 + th2)
  let c2 := (c2 + less c1 th2) % 2 ^ k
  ⟨c0, c1, c2⟩

/-- sumadd (src/secp256k1/scalar_4x64_impl.h:238-244). -/
def sumadd (k : Nat) (c : Acc) (a : Nat) : Acc :=
  let c0 := w64 (c.c0 + a)
  let over := less c0 a
  let c1 := w64 (c.c1 + over)
  let c2 := (c.c2 + less c1 over) % 2 ^ k
  ⟨c0, c1, c2⟩

/-- sumadd_fast (src/secp256k1/scalar_4x64_impl.h:247-252). -/
def sumaddFast (c : Acc) (a : Nat) : Acc :=
  let c0 := w64 (c.c0 + a)
  let c1 := w64 (c.c1 + less c0 a)
  ⟨c0, c1, c.c2⟩

/-- extract (src/secp256k1/scalar_4x64_impl.h:255-260): what is left; the word taken is `c0`. -/
def extract (c : Acc) : Acc := ⟨c.c1, c.c2, 0⟩

/-- extract_fast (src/secp256k1/scalar_4x64_impl.h:263-268). -/
def extractFast (c : Acc) : Acc := ⟨c.c1, 0, c.c2⟩

/-- Eight words. -/
structure Wide where
  l0 : Nat
  l1 : Nat
  l2 : Nat
  l3 : Nat
  l4 : Nat
  l5 : Nat
  l6 : Nat
  l7 : Nat

/-- 512 to 385 bits (src/secp256k1/scalar_4x64_impl.h:515-540): the words m0 to m6, the last cut to 32 bits. -/
def fold1 (l : Wide) : Wide :=
  let c : Acc := ⟨l.l0, 0, 0⟩
  let c := muladdFast c l.l4 C0
  let m0 := c.c0
  let c := extractFast c
  let c := sumaddFast c l.l1
  let c := muladd 64 c l.l5 C0
  let c := muladd 64 c l.l4 C1
  let m1 := c.c0
  let c := extract c
  let c := sumadd 64 c l.l2
  let c := muladd 64 c l.l6 C0
  let c := muladd 64 c l.l5 C1
  let c := sumadd 64 c l.l4
  let m2 := c.c0
  let c := extract c
  let c := sumadd 64 c l.l3
  let c := muladd 64 c l.l7 C0
  let c := muladd 64 c l.l6 C1
  let c := sumadd 64 c l.l5
  let m3 := c.c0
  let c := extract c
  let c := muladd 64 c l.l7 C1
  let c := sumadd 64 c l.l6
  let m4 := c.c0
  let c := extract c
  let c := sumaddFast c l.l7
  let m5 := c.c0
  let c := extractFast c
  ⟨m0, m1, m2, m3, m4, m5, c.c0 % 2 ^ 32, 0⟩

/-- 385 to 258 bits (src/secp256k1/scalar_4x64_impl.h:542-562): the words p0 to p4, the last cut to 32 bits. -/
def fold2 (m : Wide) : Wide :=
  let c : Acc := ⟨m.l0, 0, 0⟩
  let c := muladdFast c m.l4 C0
  let p0 := c.c0
  let c := extractFast c
  let c := sumaddFast c m.l1
  let c := muladd 64 c m.l5 C0
  let c := muladd 64 c m.l4 C1
  let p1 := c.c0
  let c := extract c
  let c := sumadd 64 c m.l2
  let c := muladd 64 c m.l6 C0
  let c := muladd 64 c m.l5 C1
  let c := sumadd 64 c m.l4
  let p2 := c.c0
  let c := extract c
  let c := sumaddFast c m.l3
  let c := muladdFast c m.l6 C1
  let c := sumaddFast c m.l5
  let p3 := c.c0
  let c := extractFast c
  ⟨p0, p1, p2, p3, (c.c0 + m.l6) % 2 ^ 32, 0, 0, 0⟩

/-- 258 to 256 bits (src/secp256k1/scalar_4x64_impl.h:564-573): four words and the carry. -/
def fold3 (q : Wide) : Sc × Nat :=
  let c := w128 (q.l0 + C0 * q.l4)
  let d0 := w64 c
  let c := c >>> 64
  let c := w128 (c + (q.l1 + C1 * q.l4))
  let d1 := w64 c
  let c := c >>> 64
  let c := w128 (c + (q.l2 + q.l4))
  let d2 := w64 c
  let c := c >>> 64
  let c := w128 (c + q.l3)
  let d3 := w64 c
  let c := c >>> 64
  (⟨d0, d1, d2, d3⟩, c)

/-- scalar_reduce_512 (src/secp256k1/scalar_4x64_impl.h:270-577). -/
def reduce512 (l : Wide) : Sc :=
  let (r, c) := fold3 (fold2 (fold1 l))
  reduce r ((c + checkOverflow r) % 2 ^ 32)

/-- scalar_mul_512 (src/secp256k1/scalar_4x64_impl.h:579-744). -/
def mul512 (a b : Sc) : Wide :=
  let c : Acc := ⟨0, 0, 0⟩
  let c := muladdFast c a.d0 b.d0
  let l0 := c.c0
  let c := extractFast c
  let c := muladd 32 c a.d0 b.d1
  let c := muladd 32 c a.d1 b.d0
  let l1 := c.c0
  let c := extract c
  let c := muladd 32 c a.d0 b.d2
  let c := muladd 32 c a.d1 b.d1
  let c := muladd 32 c a.d2 b.d0
  let l2 := c.c0
  let c := extract c
  let c := muladd 32 c a.d0 b.d3
  let c := muladd 32 c a.d1 b.d2
  let c := muladd 32 c a.d2 b.d1
  let c := muladd 32 c a.d3 b.d0
  let l3 := c.c0
  let c := extract c
  let c := muladd 32 c a.d1 b.d3
  let c := muladd 32 c a.d2 b.d2
  let c := muladd 32 c a.d3 b.d1
  let l4 := c.c0
  let c := extract c
  let c := muladd 32 c a.d2 b.d3
  let c := muladd 32 c a.d3 b.d2
  let l5 := c.c0
  let c := extract c
  let c := muladdFast c a.d3 b.d3
  let l6 := c.c0
  let c := extractFast c
  ⟨l0, l1, l2, l3, l4, l5, l6, c.c0⟩

/-- scalar_sqr_512 (src/secp256k1/scalar_4x64_impl.h:746-881). -/
def sqr512 (a : Sc) : Wide :=
  let c : Acc := ⟨0, 0, 0⟩
  let c := muladdFast c a.d0 a.d0
  let l0 := c.c0
  let c := extractFast c
  let c := muladd2 32 c a.d0 a.d1
  let l1 := c.c0
  let c := extract c
  let c := muladd2 32 c a.d0 a.d2
  let c := muladd 32 c a.d1 a.d1
  let l2 := c.c0
  let c := extract c
  let c := muladd2 32 c a.d0 a.d3
  let c := muladd2 32 c a.d1 a.d2
  let l3 := c.c0
  let c := extract c
  let c := muladd2 32 c a.d1 a.d3
  let c := muladd 32 c a.d2 a.d2
  let l4 := c.c0
  let c := extract c
  let c := muladd2 32 c a.d2 a.d3
  let l5 := c.c0
  let c := extract c
  let c := muladdFast c a.d3 a.d3
  let l6 := c.c0
  let c := extractFast c
  ⟨l0, l1, l2, l3, l4, l5, l6, c.c0⟩

/-- scalar_mul (src/secp256k1/scalar_4x64_impl.h:891-895). -/
def mul (a b : Sc) : Sc := reduce512 (mul512 a b)

/-- scalar_sqr (src/secp256k1/scalar_4x64_impl.h:909-913). -/
def sqr (a : Sc) : Sc := reduce512 (sqr512 a)

/-- scalar_shr_int (src/secp256k1/scalar_4x64_impl.h:897-907): what is left, and the bits that went out. -/
def shrInt (r : Sc) (k : Nat) : Sc × Nat :=
  let ret := r.d0 &&& ((1 <<< k) - 1)
  let d0 := w64 ((r.d0 >>> k) + w64 (r.d1 <<< (64 - k)))
  let d1 := w64 ((r.d1 >>> k) + w64 (r.d2 <<< (64 - k)))
  let d2 := w64 ((r.d2 >>> k) + w64 (r.d3 <<< (64 - k)))
  let d3 := r.d3 >>> k
  (⟨d0, d1, d2, d3⟩, ret)

/-- scalar_eq (src/secp256k1/scalar_4x64_impl.h:928-930). -/
def eq (a b : Sc) : Bool := ((a.d0 ^^^ b.d0) ||| (a.d1 ^^^ b.d1) ||| (a.d2 ^^^ b.d2) ||| (a.d3 ^^^ b.d3)) == 0

/-- scalar_is_even (src/secp256k1/scalar_impl.h:192-194). -/
def isEven (a : Sc) : Bool := (a.d0 &&& 1) == 0

/-- `k` squarings in a row. -/
def sqrs (k : Nat) (x : Sc) : Sc := Nat.repeat sqr k x

/-- The first part of scalar_inverse (src/secp256k1/scalar_impl.h:45-101): u5, u9, u11, u13, x2, x3, x6, x8, x126. -/
def invStart (x : Sc) : Sc × Sc × Sc × Sc × Sc × Sc × Sc × Sc × Sc :=
  let u2 := sqr x
  let x2 := mul u2 x
  let u5 := mul u2 x2
  let x3 := mul u5 u2
  let u9 := mul x3 u2
  let u11 := mul u9 u2
  let u13 := mul u11 u2
  let x6 := mul (sqr (sqr u13)) u11
  let x8 := mul (sqr (sqr x6)) x2
  let x14 := mul (sqrs 5 (sqr x8)) x6
  let x28 := mul (sqrs 13 (sqr x14)) x14
  let x56 := mul (sqrs 27 (sqr x28)) x28
  let x112 := mul (sqrs 55 (sqr x56)) x56
  let x126 := mul (sqrs 13 (sqr x112)) x14
  (u5, u9, u11, u13, x2, x3, x6, x8, x126)

/-- scalar_inverse (src/secp256k1/scalar_impl.h:27-190). -/
def inverse (x : Sc) : Sc :=
  let (u5, u9, u11, u13, x2, x3, x6, x8, x126) := invStart x
  let t := x126
  let t := mul (sqrs 3 t) u5
  let t := mul (sqrs 4 t) x3
  let t := mul (sqrs 4 t) u5
  let t := mul (sqrs 5 t) u11
  let t := mul (sqrs 4 t) u11
  let t := mul (sqrs 4 t) x3
  let t := mul (sqrs 5 t) x3
  let t := mul (sqrs 6 t) u13
  let t := mul (sqrs 4 t) u5
  let t := mul (sqrs 3 t) x3
  let t := mul (sqrs 5 t) u9
  let t := mul (sqrs 6 t) u5
  let t := mul (sqrs 10 t) x3
  let t := mul (sqrs 4 t) x3
  let t := mul (sqrs 9 t) x8
  let t := mul (sqrs 5 t) u9
  let t := mul (sqrs 6 t) u11
  let t := mul (sqrs 4 t) u13
  let t := mul (sqrs 5 t) x2
  let t := mul (sqrs 6 t) u13
  let t := mul (sqrs 10 t) u13
  let t := mul (sqrs 4 t) u9
  let t := mul (sqrs 6 t) x
  mul (sqrs 8 t) x6

end Verif.Scalar64
