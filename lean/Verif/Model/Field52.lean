import Verif.Model.Mem
/-
Model of `src/secp256k1/field_5x52_impl.h` and `field_5x52_int128_impl.h`: the arithmetic modulo
p = 2^256 - 0x1000003D1 on five words in base 2^52, as it is built where the compiler has 128-bit integers and the
assembler routines are not used. A word is a number; `w64` and `w128` are what remains of a result in a word of 64 and of 128
bits. Sums and products of one statement are cut once, at the end, which makes no difference modulo a power of two. The fields
`magnitude` and `normalized` and the checks on them exist in debug builds only. fe_set_int and fe_clear store constants.
-/
namespace Verif.Field52
open Verif

/-- hsk_secp256k1_fe (src/secp256k1/field_5x52.h:12-19). -/
structure Fe where
  n0 : Nat
  n1 : Nat
  n2 : Nat
  n3 : Nat
  n4 : Nat
  deriving DecidableEq, Repr

def w64 (x : Nat) : Nat := x % 2 ^ 64
def w128 (x : Nat) : Nat := x % 2 ^ 128

/-- The constants M and R (src/secp256k1/field_5x52_int128_impl.h:22). -/
def M : Nat := 0xFFFFFFFFFFFFF
def R : Nat := 0x1000003D10

/-- fe_mul_inner (src/secp256k1/field_5x52_int128_impl.h:18-153). -/
def mulInner (a b : Fe) : Fe :=
  let d := w128 (a.n0 * b.n3 + a.n1 * b.n2 + a.n2 * b.n1 + a.n3 * b.n0)
  let c := w128 (a.n4 * b.n4)
  let d := w128 (d + (c &&& M) * R)
  let c := c >>> 52
  let t3 := d &&& M
  let d := d >>> 52
  let d := w128 (d + (a.n0 * b.n4 + a.n1 * b.n3 + a.n2 * b.n2 + a.n3 * b.n1 + a.n4 * b.n0))
  let d := w128 (d + c * R)
  let t4 := d &&& M
  let d := d >>> 52
  let tx := t4 >>> 48
  let t4 := t4 &&& (M >>> 4)
  let c := w128 (a.n0 * b.n0)
  let d := w128 (d + (a.n1 * b.n4 + a.n2 * b.n3 + a.n3 * b.n2 + a.n4 * b.n1))
  let u0 := d &&& M
  let d := d >>> 52
  let u0 := w64 (u0 <<< 4) ||| tx
  let c := w128 (c + u0 * (R >>> 4))
  let r0 := c &&& M
  let c := c >>> 52
  let c := w128 (c + (a.n0 * b.n1 + a.n1 * b.n0))
  let d := w128 (d + (a.n2 * b.n4 + a.n3 * b.n3 + a.n4 * b.n2))
  let c := w128 (c + (d &&& M) * R)
  let d := d >>> 52
  let r1 := c &&& M
  let c := c >>> 52
  let c := w128 (c + (a.n0 * b.n2 + a.n1 * b.n1 + a.n2 * b.n0))
  let d := w128 (d + (a.n3 * b.n4 + a.n4 * b.n3))
  let c := w128 (c + (d &&& M) * R)
  let d := d >>> 52
  let r2 := c &&& M
  let c := c >>> 52
  let c := w128 (c + (d * R + t3))
  let r3 := c &&& M
  let c := c >>> 52
  let c := w128 (c + t4)
  ⟨r0, r1, r2, r3, w64 c⟩

/-- fe_sqr_inner (src/secp256k1/field_5x52_int128_impl.h:155-275). -/
def sqrInner (a : Fe) : Fe :=
  let d := w128 (w64 (a.n0 * 2) * a.n3 + w64 (a.n1 * 2) * a.n2)
  let c := w128 (a.n4 * a.n4)
  let d := w128 (d + (c &&& M) * R)
  let c := c >>> 52
  let t3 := d &&& M
  let d := d >>> 52
  let a4 := w64 (a.n4 * 2)
  let d := w128 (d + (a.n0 * a4 + w64 (a.n1 * 2) * a.n3 + a.n2 * a.n2))
  let d := w128 (d + c * R)
  let t4 := d &&& M
  let d := d >>> 52
  let tx := t4 >>> 48
  let t4 := t4 &&& (M >>> 4)
  let c := w128 (a.n0 * a.n0)
  let d := w128 (d + (a.n1 * a4 + w64 (a.n2 * 2) * a.n3))
  let u0 := d &&& M
  let d := d >>> 52
  let u0 := w64 (u0 <<< 4) ||| tx
  let c := w128 (c + u0 * (R >>> 4))
  let r0 := c &&& M
  let c := c >>> 52
  let a0 := w64 (a.n0 * 2)
  let c := w128 (c + a0 * a.n1)
  let d := w128 (d + (a.n2 * a4 + a.n3 * a.n3))
  let c := w128 (c + (d &&& M) * R)
  let d := d >>> 52
  let r1 := c &&& M
  let c := c >>> 52
  let c := w128 (c + (a0 * a.n2 + a.n1 * a.n1))
  let d := w128 (d + a.n3 * a4)
  let c := w128 (c + (d &&& M) * R)
  let d := d >>> 52
  let r2 := c &&& M
  let c := c >>> 52
  let c := w128 (c + (d * R + t3))
  let r3 := c &&& M
  let c := c >>> 52
  let c := w128 (c + t4)
  ⟨r0, r1, r2, r3, w64 c⟩

/-- The first pass, as in fe_normalize_weak (src/secp256k1/field_5x52_impl.h:100-109); all the routines have it. -/
def pass (r : Fe) : Fe :=
  let x := r.n4 >>> 48
  let t4 := r.n4 &&& 0x0FFFFFFFFFFFF
  let t0 := w64 (r.n0 + x * 0x1000003D1)
  let t1 := w64 (r.n1 + t0 >>> 52)
  let t0 := t0 &&& 0xFFFFFFFFFFFFF
  let t2 := w64 (r.n2 + t1 >>> 52)
  let t1 := t1 &&& 0xFFFFFFFFFFFFF
  let t3 := w64 (r.n3 + t2 >>> 52)
  let t2 := t2 &&& 0xFFFFFFFFFFFFF
  let t4 := w64 (t4 + t3 >>> 52)
  let t3 := t3 &&& 0xFFFFFFFFFFFFF
  ⟨t0, t1, t2, t3, t4⟩

/-- fe_normalize_weak (src/secp256k1/field_5x52_impl.h:97-119). -/
def normalizeWeak (r : Fe) : Fe := pass r

/-- Whether the value is at least p (src/secp256k1/field_5x52_impl.h:72-73). -/
def over (t : Fe) : Nat :=
  (t.n4 >>> 48) ||| (if t.n4 = 0x0FFFFFFFFFFFF ∧ (t.n1 &&& t.n2 &&& t.n3) = 0xFFFFFFFFFFFFF ∧ t.n0 ≥ 0xFFFFEFFFFFC2F then 1 else 0)

/-- The final reduction (src/secp256k1/field_5x52_impl.h:76-86). -/
def reduce (t : Fe) (x : Nat) : Fe :=
  let t0 := w64 (t.n0 + x * 0x1000003D1)
  let t1 := w64 (t.n1 + t0 >>> 52)
  let t0 := t0 &&& 0xFFFFFFFFFFFFF
  let t2 := w64 (t.n2 + t1 >>> 52)
  let t1 := t1 &&& 0xFFFFFFFFFFFFF
  let t3 := w64 (t.n3 + t2 >>> 52)
  let t2 := t2 &&& 0xFFFFFFFFFFFFF
  let t4 := w64 (t.n4 + t3 >>> 52)
  let t3 := t3 &&& 0xFFFFFFFFFFFFF
  ⟨t0, t1, t2, t3, t4 &&& 0x0FFFFFFFFFFFF⟩

/-- fe_normalize (src/secp256k1/field_5x52_impl.h:54-95). -/
def normalize (r : Fe) : Fe :=
  let t := pass r
  reduce t (over t)

/-- fe_normalize_var (src/secp256k1/field_5x52_impl.h:121-163). -/
def normalizeVar (r : Fe) : Fe :=
  let t := pass r
  if over t ≠ 0 then reduce t 1 else t

/-- fe_normalizes_to_zero (src/secp256k1/field_5x52_impl.h:165-186). -/
def normalizesToZero (r : Fe) : Bool :=
  let t := pass r
  let z0 := t.n0 ||| t.n1 ||| t.n2 ||| t.n3 ||| t.n4
  let z1 := (t.n0 ^^^ 0x1000003D0) &&& t.n1 &&& t.n2 &&& t.n3 &&& (t.n4 ^^^ 0xF000000000000)
  decide (z0 = 0) || decide (z1 = 0xFFFFFFFFFFFFF)

/-- fe_normalizes_to_zero_var (src/secp256k1/field_5x52_impl.h:188-227). -/
def normalizesToZeroVar (r : Fe) : Bool :=
  let x := r.n4 >>> 48
  let t0 := w64 (r.n0 + x * 0x1000003D1)
  let z0 := t0 &&& 0xFFFFFFFFFFFFF
  let z1 := z0 ^^^ 0x1000003D0
  if z0 ≠ 0 ∧ z1 ≠ 0xFFFFFFFFFFFFF then false
  else
    let t4 := r.n4 &&& 0x0FFFFFFFFFFFF
    let t1 := w64 (r.n1 + t0 >>> 52)
    let t2 := w64 (r.n2 + t1 >>> 52)
    let t1 := t1 &&& 0xFFFFFFFFFFFFF
    let t3 := w64 (r.n3 + t2 >>> 52)
    let t2 := t2 &&& 0xFFFFFFFFFFFFF
    let t4 := w64 (t4 + t3 >>> 52)
    let t3 := t3 &&& 0xFFFFFFFFFFFFF
    let z0 := z0 ||| t1 ||| t2 ||| t3 ||| t4
    let z1 := z1 &&& t1 &&& t2 &&& t3 &&& (t4 ^^^ 0xF000000000000)
    decide (z0 = 0) || decide (z1 = 0xFFFFFFFFFFFFF)

/-- fe_is_zero (src/secp256k1/field_5x52_impl.h:239-246). -/
def isZero (t : Fe) : Bool := decide ((t.n0 ||| t.n1 ||| t.n2 ||| t.n3 ||| t.n4) = 0)

/-- fe_is_odd (src/secp256k1/field_5x52_impl.h:248-254). -/
def isOdd (a : Fe) : Nat := a.n0 &&& 1

/-- The loop of fe_cmp_var (src/secp256k1/field_5x52_impl.h:275-282), over the words from the last on. -/
def cmpLoop : List (Nat × Nat) → Int
  | [] => 0
  | (x, y) :: l => if x > y then 1 else if x < y then -1 else cmpLoop l

/-- fe_cmp_var (src/secp256k1/field_5x52_impl.h:267-284). -/
def cmpVar (a b : Fe) : Int := cmpLoop [(a.n4, b.n4), (a.n3, b.n3), (a.n2, b.n2), (a.n1, b.n1), (a.n0, b.n0)]

/-- The test of fe_set_b32 (src/secp256k1/field_5x52_impl.h:321-323): 0 when the number is at least p. -/
def inRange (r : Fe) : Bool :=
  !(decide (r.n4 = 0x0FFFFFFFFFFFF) && decide ((r.n3 &&& r.n2 &&& r.n1) = 0xFFFFFFFFFFFFF) && decide (r.n0 ≥ 0xFFFFEFFFFFC2F))

/-- fe_set_b32 (src/secp256k1/field_5x52_impl.h:286-330). -/
def setB32 (s : Bytes) : Fe × Bool :=
  let a := fun i => (s.getD i 0).toNat
  let r : Fe := ⟨
    a 31 ||| (a 30 <<< 8) ||| (a 29 <<< 16) ||| (a 28 <<< 24) ||| (a 27 <<< 32) ||| (a 26 <<< 40) ||| ((a 25 &&& 0xF) <<< 48),
    ((a 25 >>> 4) &&& 0xF) ||| (a 24 <<< 4) ||| (a 23 <<< 12) ||| (a 22 <<< 20) ||| (a 21 <<< 28) ||| (a 20 <<< 36) ||| (a 19 <<< 44),
    a 18 ||| (a 17 <<< 8) ||| (a 16 <<< 16) ||| (a 15 <<< 24) ||| (a 14 <<< 32) ||| (a 13 <<< 40) ||| ((a 12 &&& 0xF) <<< 48),
    ((a 12 >>> 4) &&& 0xF) ||| (a 11 <<< 4) ||| (a 10 <<< 12) ||| (a 9 <<< 20) ||| (a 8 <<< 28) ||| (a 7 <<< 36) ||| (a 6 <<< 44),
    a 5 ||| (a 4 <<< 8) ||| (a 3 <<< 16) ||| (a 2 <<< 24) ||| (a 1 <<< 32) ||| (a 0 <<< 40)⟩
  (r, inRange r)

/-- fe_get_b32 (src/secp256k1/field_5x52_impl.h:333-370). -/
def getB32 (a : Fe) : Bytes := [
  (a.n4 >>> 40) &&& 0xFF,
  (a.n4 >>> 32) &&& 0xFF,
  (a.n4 >>> 24) &&& 0xFF,
  (a.n4 >>> 16) &&& 0xFF,
  (a.n4 >>> 8) &&& 0xFF,
  a.n4 &&& 0xFF,
  (a.n3 >>> 44) &&& 0xFF,
  (a.n3 >>> 36) &&& 0xFF,
  (a.n3 >>> 28) &&& 0xFF,
  (a.n3 >>> 20) &&& 0xFF,
  (a.n3 >>> 12) &&& 0xFF,
  (a.n3 >>> 4) &&& 0xFF,
  ((a.n2 >>> 48) &&& 0xF) ||| ((a.n3 &&& 0xF) <<< 4),
  (a.n2 >>> 40) &&& 0xFF,
  (a.n2 >>> 32) &&& 0xFF,
  (a.n2 >>> 24) &&& 0xFF,
  (a.n2 >>> 16) &&& 0xFF,
  (a.n2 >>> 8) &&& 0xFF,
  a.n2 &&& 0xFF,
  (a.n1 >>> 44) &&& 0xFF,
  (a.n1 >>> 36) &&& 0xFF,
  (a.n1 >>> 28) &&& 0xFF,
  (a.n1 >>> 20) &&& 0xFF,
  (a.n1 >>> 12) &&& 0xFF,
  (a.n1 >>> 4) &&& 0xFF,
  ((a.n0 >>> 48) &&& 0xF) ||| ((a.n1 &&& 0xF) <<< 4),
  (a.n0 >>> 40) &&& 0xFF,
  (a.n0 >>> 32) &&& 0xFF,
  (a.n0 >>> 24) &&& 0xFF,
  (a.n0 >>> 16) &&& 0xFF,
  (a.n0 >>> 8) &&& 0xFF,
  a.n0 &&& 0xFF].map UInt8.ofNat

/-- `x - y` in a word of 64 bits. -/
def sub64 (x y : Nat) : Nat := w64 (w64 x + (2 ^ 64 - w64 y))

/-- fe_negate (src/secp256k1/field_5x52_impl.h:372-387). -/
def negate (a : Fe) (m : Nat) : Fe :=
  ⟨sub64 (0xFFFFEFFFFFC2F * 2 * (m + 1)) a.n0, sub64 (0xFFFFFFFFFFFFF * 2 * (m + 1)) a.n1, sub64 (0xFFFFFFFFFFFFF * 2 * (m + 1)) a.n2,
    sub64 (0xFFFFFFFFFFFFF * 2 * (m + 1)) a.n3, sub64 (0x0FFFFFFFFFFFF * 2 * (m + 1)) a.n4⟩

/-- fe_mul_int (src/secp256k1/field_5x52_impl.h:389-400), for `int`s that are not negative. -/
def mulInt (r : Fe) (a : Nat) : Fe := ⟨w64 (r.n0 * a), w64 (r.n1 * a), w64 (r.n2 * a), w64 (r.n3 * a), w64 (r.n4 * a)⟩

/-- fe_add (src/secp256k1/field_5x52_impl.h:402-416). -/
def add (r a : Fe) : Fe := ⟨w64 (r.n0 + a.n0), w64 (r.n1 + a.n1), w64 (r.n2 + a.n2), w64 (r.n3 + a.n3), w64 (r.n4 + a.n4)⟩

/-- fe_mul and fe_sqr (src/secp256k1/field_5x52_impl.h:418-445). -/
def mul (a b : Fe) : Fe := mulInner a b
def sqr (a : Fe) : Fe := sqrInner a

/-- One line of the conditional moves. -/
def sel (r a flag : Nat) : Nat :=
  let mask0 := w64 (flag + (2 ^ 64 - 1))
  let mask1 := (2 ^ 64 - 1) - mask0
  (r &&& mask0) ||| (a &&& mask1)

/-- fe_cmov (src/secp256k1/field_5x52_impl.h:447-462). -/
def cmov (r a : Fe) (flag : Nat) : Fe :=
  ⟨sel r.n0 a.n0 flag, sel r.n1 a.n1 flag, sel r.n2 a.n2 flag, sel r.n3 a.n3 flag, sel r.n4 a.n4 flag⟩

/-- hsk_secp256k1_fe_storage (src/secp256k1/field_5x52.h:36-38). -/
structure Storage where
  n0 : Nat
  n1 : Nat
  n2 : Nat
  n3 : Nat
  deriving DecidableEq, Repr

/-- fe_storage_cmov (src/secp256k1/field_5x52_impl.h:464-472). -/
def storageCmov (r a : Storage) (flag : Nat) : Storage :=
  ⟨sel r.n0 a.n0 flag, sel r.n1 a.n1 flag, sel r.n2 a.n2 flag, sel r.n3 a.n3 flag⟩

/-- fe_to_storage (src/secp256k1/field_5x52_impl.h:474-482). -/
def toStorage (a : Fe) : Storage :=
  ⟨a.n0 ||| w64 (a.n1 <<< 52), a.n1 >>> 12 ||| w64 (a.n2 <<< 40), a.n2 >>> 24 ||| w64 (a.n3 <<< 28), a.n3 >>> 36 ||| w64 (a.n4 <<< 16)⟩

/-- fe_from_storage (src/secp256k1/field_5x52_impl.h:484-494). -/
def fromStorage (a : Storage) : Fe :=
  ⟨a.n0 &&& 0xFFFFFFFFFFFFF, a.n0 >>> 52 ||| (w64 (a.n1 <<< 12) &&& 0xFFFFFFFFFFFFF), a.n1 >>> 40 ||| (w64 (a.n2 <<< 24) &&& 0xFFFFFFFFFFFFF),
    a.n2 >>> 28 ||| (w64 (a.n3 <<< 36) &&& 0xFFFFFFFFFFFFF), a.n3 >>> 16⟩

end Verif.Field52
