import Verif.Base
/-
The elliptic-curve code of src/ecc.c for the curve the build selects (secp256r1, src/ecc.h:40-42, so
NUM_ECC_DIGITS is 4), with the compiler's 128-bit integers (SUPPORTS_INT128). A number is the list of its digits,
least significant first; a routine that writes through a pointer returns what it writes. Loops whose number of
rounds depends on the data carry a number of rounds that the lemmas prove sufficient. hsk_ecc_make_key,
hsk_ecc_ecdh and hsk_ecc_verify are called nowhere and are not modelled.
-/
namespace Verif.Model.Ecc
open Verif

/-- uint64_t[NUM_ECC_DIGITS] (src/ecc.c:57-60), or twice as many digits. -/
abbrev Vli := List UInt64

/-- `vli[i]`. -/
def dig (v : Vli) (i : Nat) : UInt64 := v.getD i 0

/-- curve_p (src/ecc.c:74-78, 172). -/
def curveP : Vli := [0xFFFFFFFFFFFFFFFF, 0x00000000FFFFFFFF, 0x0000000000000000, 0xFFFFFFFF00000001]

/-- curve_n (src/ecc.c:158-162, 175). -/
def curveN : Vli := [0xF3B9CAC2FC632551, 0xBCE6FAADA7179E84, 0xFFFFFFFFFFFFFFFF, 0xFFFFFFFF00000000]

/-- ecc_point_t (src/ecc.c:57-60). -/
structure Pt where
  x : Vli
  y : Vli
  deriving DecidableEq, Repr

/-- curve_g (src/ecc.c:125-133, 174). -/
def curveG : Pt :=
  ⟨[0xF4A13945D898C296, 0x77037D812DEB33A0, 0xF8BCE6E563A440F2, 0x6B17D1F2E12C4247],
   [0xCBB6406837BF51F5, 0x2BCE33576B315ECE, 0x8EE7EB4A7C0F9E16, 0x4FE342E2FE1A7F9B]⟩

/-- vli_clear (src/ecc.c:248-253). -/
def clear : Vli := [0, 0, 0, 0]

/-- vli_is_zero (src/ecc.c:256-266), of a number of four digits. -/
def isZero (v : Vli) : Bool := v.all (· == 0)

/-- vli_test_bit (src/ecc.c:269-272). -/
def testBit (v : Vli) (bit : Nat) : UInt64 := dig v (bit / 64) &&& (1 <<< UInt64.ofNat (bit % 64))

/-- The loop of vli_num_digits (src/ecc.c:275-287), from digit `i - 1` down. -/
def numDigits (v : Vli) : Nat → Nat
  | 0 => 0
  | i + 1 => if dig v i = 0 then numDigits v i else i + 1

/-- The loop of vli_num_bits (src/ecc.c:302-303); a digit has at most 64 bits. -/
def bitsOf : Nat → UInt64 → Nat
  | 0, _ => 0
  | f + 1, d => if d = 0 then 0 else bitsOf f (d >>> 1) + 1

/-- vli_num_bits (src/ecc.c:290-306). -/
def numBits (v : Vli) : Nat :=
  let nd := numDigits v 4
  if nd = 0 then 0 else (nd - 1) * 64 + bitsOf 64 (dig v (nd - 1))

/-- The loop of vli_cmp (src/ecc.c:321-326), from digit `i - 1` down. -/
def vcmpFrom (l r : Vli) : Nat → Int
  | 0 => 0
  | i + 1 => if dig l i > dig r i then 1 else if dig l i < dig r i then -1 else vcmpFrom l r i

/-- vli_cmp (src/ecc.c:317-329). -/
def vcmp (l r : Vli) : Int := vcmpFrom l r 4

/-- vli_lshift (src/ecc.c:333-345): the result and the carry. -/
def lshift (s : UInt64) : Vli → UInt64 → Vli × UInt64
  | [], carry => ([], carry)
  | temp :: r, carry =>
    let next := lshift s r (temp >>> (64 - s))
    ((temp <<< s ||| carry) :: next.1, next.2)

/-- vli_rshift1 (src/ecc.c:348-360). The loop goes from the most significant digit down; what it carries into a
digit is the low bit of the next more significant one. -/
def rshift1 : Vli → Vli
  | [] => []
  | [temp] => [temp >>> 1]
  | temp :: above :: r => (temp >>> 1 ||| above <<< 63) :: rshift1 (above :: r)

/-- vli_add (src/ecc.c:364-379): the result and the carry. -/
def addGo : Vli → Vli → UInt64 → Vli × UInt64
  | l :: ls, r :: rs, carry =>
    let sum := l + r + carry
    let carry := if sum ≠ l then (if sum < l then 1 else 0) else carry
    let next := addGo ls rs carry
    (sum :: next.1, next.2)
  | _, _, carry => ([], carry)

/-- vli_add (src/ecc.c:364-379). -/
def add (l r : Vli) : Vli × UInt64 := addGo l r 0

/-- vli_sub (src/ecc.c:383-398): the result and the borrow. -/
def subGo : Vli → Vli → UInt64 → Vli × UInt64
  | l :: ls, r :: rs, borrow =>
    let diff := l - r - borrow
    let borrow := if diff ≠ l then (if diff > l then 1 else 0) else borrow
    let next := subGo ls rs borrow
    (diff :: next.1, next.2)
  | _, _, borrow => ([], borrow)

/-- vli_sub (src/ecc.c:383-398). -/
def sub (l r : Vli) : Vli × UInt64 := subGo l r 0

/-- The accumulators of vli_mult and vli_sqr (src/ecc.c:405-406): `r01` has 128 bits, `r2` 64. -/
structure Acc where
  r01 : Nat
  r2 : Nat

/-- `r01 += product; r2 += (r01 < product)` (src/ecc.c:417-418, 447-448). -/
def accAdd (a : Acc) (product : Nat) : Acc :=
  let r01 := (a.r01 + product) % 2 ^ 128
  ⟨r01, (a.r2 + if r01 < product then 1 else 0) % 2 ^ 64⟩

/-- The body of the inner loop of vli_mult (src/ecc.c:416-418). -/
def multTerm (l r : Vli) (k : Nat) (a : Acc) (i : Nat) : Acc :=
  accAdd a ((dig l i).toNat * (dig r (k - i)).toNat)

/-- The body of the inner loop of vli_sqr (src/ecc.c:440-448). -/
def sqrTerm (l : Vli) (k : Nat) (a : Acc) (i : Nat) : Acc :=
  let product := (dig l i).toNat * (dig l (k - i)).toNat
  if i < k - i then accAdd ⟨a.r01, (a.r2 + product / 2 ^ 127) % 2 ^ 64⟩ (product * 2 % 2 ^ 128)
  else accAdd a product

/-- What follows the inner loop (src/ecc.c:421-423, 451-453): the digit, and the accumulators of the next. -/
def accOut (a : Acc) : UInt64 × Acc := (UInt64.ofNat a.r01, ⟨a.r01 / 2 ^ 64 ||| a.r2 * 2 ^ 64 % 2 ^ 128, 0⟩)

/-- The values `i` takes in the inner loop of vli_mult (src/ecc.c:413-415). -/
def multRange (k : Nat) : List Nat :=
  (List.range 4).filter fun i => (if k < 4 then 0 else k + 1 - 4) ≤ i ∧ i ≤ k

/-- The values `i` takes in the inner loop of vli_sqr (src/ecc.c:437-439). -/
def sqrRange (k : Nat) : List Nat :=
  (List.range 4).filter fun i => (if k < 4 then 0 else k + 1 - 4) ≤ i ∧ i ≤ k ∧ i ≤ k - i

/-- The outer loops (src/ecc.c:412-426, 436-456), over the columns still to do. -/
def columns (term : Nat → Acc → Nat → Acc) (range : Nat → List Nat) : List Nat → Acc → Vli
  | [], a => [UInt64.ofNat a.r01]
  | k :: ks, a =>
    let o := accOut ((range k).foldl (term k) a)
    o.1 :: columns term range ks o.2

/-- vli_mult (src/ecc.c:403-427). -/
def mult (l r : Vli) : Vli := columns (multTerm l r) multRange [0, 1, 2, 3, 4, 5, 6] ⟨0, 0⟩

/-- vli_sqr (src/ecc.c:430-457). -/
def sqr (l : Vli) : Vli := columns (sqrTerm l) sqrRange [0, 1, 2, 3, 4, 5, 6] ⟨0, 0⟩

/-- vli_mod_add (src/ecc.c:558-571). -/
def modAdd (l r m : Vli) : Vli :=
  let s := add l r
  if s.2 ≠ 0 ∨ vcmp s.1 m ≥ 0 then (sub s.1 m).1 else s.1

/-- vli_mod_sub (src/ecc.c:576-590). -/
def modSub (l r m : Vli) : Vli :=
  let d := sub l r
  if d.2 ≠ 0 then (add d.1 m).1 else d.1

/-- `carry += vli_add(result, result, tmp)` in vli_mmod_fast. -/
def accPlus (s : Vli × Int) (tmp : Vli) : Vli × Int :=
  let r := add s.1 tmp
  (r.1, s.2 + r.2.toNat)

/-- `carry -= vli_sub(result, result, tmp)` in vli_mmod_fast. -/
def accMinus (s : Vli × Int) (tmp : Vli) : Vli × Int :=
  let r := sub s.1 tmp
  (r.1, s.2 - r.2.toNat)

/-- `carry += vli_lshift(tmp, tmp, 1); carry += vli_add(result, result, tmp)` in vli_mmod_fast. -/
def accPlusTwice (s : Vli × Int) (tmp : Vli) : Vli × Int :=
  let t := lshift 1 tmp 0
  accPlus (s.1, s.2 + t.2.toNat) t.1

/-- The mask of the upper half of a digit. -/
def hiMask : UInt64 := 0xffffffff00000000

/-- The mask of the lower half of a digit. -/
def loMask : UInt64 := 0xffffffff

/-- The sums of vli_mmod_fast (src/ecc.c:671-729). -/
def mmodSum (p : Vli) : Vli × Int :=
  let t := (p.take 4, (0 : Int))
  let s1 := accPlusTwice t [0, dig p 5 &&& hiMask, dig p 6, dig p 7]
  let s2 := accPlusTwice s1 [0, dig p 6 <<< 32, dig p 6 >>> 32 ||| dig p 7 <<< 32, dig p 7 >>> 32]
  let s3 := accPlus s2 [dig p 4, dig p 5 &&& loMask, 0, dig p 7]
  let s4 := accPlus s3 [dig p 4 >>> 32 ||| dig p 5 <<< 32, dig p 5 >>> 32 ||| (dig p 6 &&& hiMask), dig p 7,
    dig p 6 >>> 32 ||| dig p 4 <<< 32]
  let d1 := accMinus s4 [dig p 5 >>> 32 ||| dig p 6 <<< 32, dig p 6 >>> 32, 0,
    (dig p 4 &&& loMask) ||| dig p 5 <<< 32]
  let d2 := accMinus d1 [dig p 6, dig p 7, 0, dig p 4 >>> 32 ||| (dig p 5 &&& hiMask)]
  let d3 := accMinus d2 [dig p 6 >>> 32 ||| dig p 7 <<< 32, dig p 7 >>> 32 ||| dig p 4 <<< 32,
    dig p 4 >>> 32 ||| dig p 5 <<< 32, dig p 6 <<< 32]
  accMinus d3 [dig p 7, dig p 4 &&& hiMask, dig p 5, dig p 6 &&& hiMask]

/-- The first loop at the end of vli_mmod_fast (src/ecc.c:732-734). -/
def mmodUp : Nat → Vli × Int → Vli × Int
  | 0, s => s
  | f + 1, s =>
    let s := accPlus s curveP
    if s.2 < 0 then mmodUp f s else s

/-- The second loop at the end of vli_mmod_fast (src/ecc.c:736-737). -/
def mmodDown : Nat → Vli × Int → Vli × Int
  | 0, s => s
  | f + 1, s => if s.2 ≠ 0 ∨ vcmp curveP s.1 ≠ 1 then mmodDown f (accMinus s curveP) else s

/-- vli_mmod_fast (src/ecc.c:666-739). -/
def mmodFast (product : Vli) : Vli :=
  let s := mmodSum product
  if s.2 < 0 then (mmodUp 16 s).1 else (mmodDown 16 s).1

/-- vli_mod_mult_fast (src/ecc.c:816-821). -/
def mulP (l r : Vli) : Vli := mmodFast (mult l r)

/-- vli_mod_sqr_fast (src/ecc.c:824-829). -/
def sqrP (l : Vli) : Vli := mmodFast (sqr l)

/-- vli_mod_add with curve_p. -/
def addP (l r : Vli) : Vli := modAdd l r curveP

/-- vli_mod_sub with curve_p. -/
def subP (l r : Vli) : Vli := modSub l r curveP

/-- EVEN (src/ecc.c:832). -/
def even (v : Vli) : Bool := dig v 0 &&& 1 == 0

/-- `u[NUM_ECC_DIGITS - 1] |= bit`. -/
def orTop (u : Vli) (bit : UInt64) : Vli := u.set 3 (dig u 3 ||| bit)

/-- `if (!EVEN(u)) carry = vli_add(u, u, mod); vli_rshift1(u); if (carry) …` (src/ecc.c:860-866), which occurs four
times in vli_mod_inv. -/
def halve (u m : Vli) : Vli :=
  let s := if even u then (u, (0 : UInt64)) else add u m
  let r := rshift1 s.1
  if s.2 ≠ 0 then orTop r 0x8000000000000000 else r

/-- `if (vli_cmp(u, v) < 0) vli_add(u, u, mod); vli_sub(u, u, v)` (src/ecc.c:881-884). -/
def subInv (u v m : Vli) : Vli :=
  let u := if vcmp u v < 0 then (add u m).1 else u
  (sub u v).1

/-- The variables of vli_mod_inv (src/ecc.c:838-841). -/
structure Inv where
  a : Vli
  b : Vli
  u : Vli
  v : Vli

/-- The body of the loop of vli_mod_inv (src/ecc.c:855-909). -/
def invStep (m : Vli) (s : Inv) : Inv :=
  if even s.a then { s with a := rshift1 s.a, u := halve s.u m }
  else if even s.b then { s with b := rshift1 s.b, v := halve s.v m }
  else if vcmp s.a s.b > 0 then
    { s with a := rshift1 (sub s.a s.b).1, u := halve (subInv s.u s.v m) m }
  else { s with b := rshift1 (sub s.b s.a).1, v := halve (subInv s.v s.u m) m }

/-- The loop of vli_mod_inv (src/ecc.c:854-910). -/
def invLoop (m : Vli) : Nat → Inv → Inv
  | 0, s => s
  | f + 1, s => if vcmp s.a s.b ≠ 0 then invLoop m f (invStep m s) else s

/-- vli_mod_inv (src/ecc.c:836-913). -/
def modInv (input m : Vli) : Vli :=
  if isZero input then clear else (invLoop m 512 ⟨input, m, [1, 0, 0, 0], clear⟩).u

/-- ecc_point_is_zero (src/ecc.c:918-921). -/
def ptIsZero (p : Pt) : Bool := isZero p.x && isZero p.y

/-- Half of a number modulo curve_p, as ecc_point_double_jacobian computes it (src/ecc.c:952-958). -/
def halfP (x : Vli) : Vli :=
  if testBit x 0 ≠ 0 then
    let s := add x curveP
    orTop (rshift1 s.1) (s.2 <<< 63)
  else rshift1 x

/-- ecc_point_double_jacobian (src/ecc.c:928-971): the new X1, Y1 and Z1. -/
def doubleJacobian (x1 y1 z1 : Vli) : Vli × Vli × Vli :=
  if isZero z1 then (x1, y1, z1)
  else
    let t4 := sqrP y1
    let t5 := mulP x1 t4
    let t4 := sqrP t4
    let y1 := mulP y1 z1
    let z1 := sqrP z1
    let x1 := addP x1 z1
    let z1 := addP z1 z1
    let z1 := subP x1 z1
    let x1 := mulP x1 z1
    let z1 := addP x1 x1
    let x1 := addP x1 z1
    let x1 := halfP x1
    let z1 := sqrP x1
    let z1 := subP z1 t5
    let z1 := subP z1 t5
    let t5 := subP t5 z1
    let x1 := mulP x1 t5
    let t4 := subP x1 t4
    (z1, t4, y1)

/-- apply_z (src/ecc.c:974-982). -/
def applyZ (p : Pt) (z : Vli) : Pt :=
  let t1 := sqrP z
  let x1 := mulP p.x t1
  let t1 := mulP t1 z
  let y1 := mulP p.y t1
  ⟨x1, y1⟩

/-- xycz_initial_double (src/ecc.c:985-1009), with initial_z NULL as hsk_ecc_make_pubkey and hsk_ecc_sign call it:
the new (X1, Y1) and (X2, Y2). -/
def initialDouble (p : Pt) : Pt × Pt :=
  let z := [1, 0, 0, 0]
  let q := applyZ p z
  let d := doubleJacobian q.x q.y z
  (⟨d.1, d.2.1⟩, applyZ p d.2.2)

/-- xycz_add (src/ecc.c:1014-1035): the new (X1, Y1) and (X2, Y2). -/
def xyczAdd (p q : Pt) : Pt × Pt :=
  let t5 := subP q.x p.x
  let t5 := sqrP t5
  let x1 := mulP p.x t5
  let x2 := mulP q.x t5
  let y2 := subP q.y p.y
  let t5 := sqrP y2
  let t5 := subP t5 x1
  let t5 := subP t5 x2
  let x2 := subP x2 x1
  let y1 := mulP p.y x2
  let x2 := subP x1 t5
  let y2 := mulP y2 x2
  let y2 := subP y2 y1
  (⟨x1, y1⟩, ⟨t5, y2⟩)

/-- xycz_addc (src/ecc.c:1040-1071): the new (X1, Y1) and (X2, Y2). -/
def xyczAddc (p q : Pt) : Pt × Pt :=
  let t5 := subP q.x p.x
  let t5 := sqrP t5
  let x1 := mulP p.x t5
  let x2 := mulP q.x t5
  let t5 := addP q.y p.y
  let y2 := subP q.y p.y
  let t6 := subP x2 x1
  let y1 := mulP p.y t6
  let t6 := addP x1 x2
  let x2 := sqrP y2
  let x2 := subP x2 t6
  let t7 := subP x1 x2
  let y2 := mulP y2 t7
  let y2 := subP y2 y1
  let t7 := sqrP t5
  let t7 := subP t7 t6
  let t6 := subP t7 x1
  let t6 := mulP t6 t5
  let y1 := subP t6 y1
  (⟨t7, y1⟩, ⟨x2, y2⟩)

/-- One round of the loop of ecc_point_mult (src/ecc.c:1093-1095): the new R0 and R1. -/
def ladderStep (scalar : Vli) (i : Nat) (r : Pt × Pt) : Pt × Pt :=
  if testBit scalar i ≠ 0 then -- nb = 0
    let c := xyczAddc r.2 r.1
    xyczAdd c.2 c.1
  else -- nb = 1
    let c := xyczAddc r.1 r.2
    let a := xyczAdd c.2 c.1
    (a.2, a.1)

/-- The loop of ecc_point_mult (src/ecc.c:1092-1096), from `i` down to 1. -/
def ladder (scalar : Vli) : Nat → Pt × Pt → Pt × Pt
  | 0, r => r
  | i + 1, r => ladder scalar i (ladderStep scalar (i + 1) r)

/-- The end of ecc_point_mult (src/ecc.c:1098-1116). -/
def finish (point : Pt) (scalar : Vli) (r : Pt × Pt) : Pt :=
  let one := testBit scalar 0 ≠ 0 -- nb = 0
  -- the new R0 and R1
  let c := if one then let c := xyczAddc r.2 r.1; (c.2, c.1) else xyczAddc r.1 r.2
  let rb := if one then c.2 else c.1 -- R[1 - nb]
  let z := subP c.2.x c.1.x
  let z := mulP z rb.y
  let z := mulP z point.x
  let z := modInv z curveP
  let z := mulP z point.y
  let z := mulP z rb.x
  let r0 := if one then (xyczAdd c.1 c.2).1 else (xyczAdd c.2 c.1).2
  applyZ r0 z

/-- ecc_point_mult (src/ecc.c:1073-1117), with initial_z NULL. `vli_num_bits(scalar) - 2` is negative, and the loop
has no rounds, if the scalar has fewer than two bits. -/
def pointMult (point : Pt) (scalar : Vli) : Pt :=
  let d := initialDouble point
  finish point scalar (ladder scalar (numBits scalar - 2) (d.2, d.1))

/-- A digit of ecc_bytes2native (src/ecc.c:1127-1136). -/
def ldBe64 (b : Bytes) : UInt64 := UInt64.ofNat (beNat (b.take 8))

/-- ecc_bytes2native (src/ecc.c:1119-1138). -/
def bytes2native (b : Bytes) : Vli := [ldBe64 (b.drop 24), ldBe64 (b.drop 16), ldBe64 (b.drop 8), ldBe64 b]

/-- ecc_native2bytes (src/ecc.c:1140-1157). -/
def native2bytes (v : Vli) : Bytes :=
  beBytes 8 (dig v 3).toNat ++ beBytes 8 (dig v 2).toNat ++ beBytes 8 (dig v 1).toNat ++ beBytes 8 (dig v 0).toNat

/-- `if (vli_cmp(curve_n, v) != 1) vli_sub(v, v, curve_n)` (src/ecc.c:1244-1245, 1418-1419, 1425-1426). -/
def reduceN (v : Vli) : Vli := if vcmp curveN v ≠ 1 then (sub v curveN).1 else v

/-- hsk_ecc_make_pubkey (src/ecc.c:1231-1256); `none` where it returns 0. -/
def makePubkey (priv : Bytes) : Option Bytes :=
  let private_ := bytes2native priv
  if isZero private_ then none
  else
    let pub := pointMult curveG (reduceN private_)
    if ptIsZero pub then none else some (native2bytes pub.x ++ native2bytes pub.y)

/-- `vli_num_bits` of a number of eight digits (src/ecc.c:1329-1334). -/
def productBits (product : Vli) : Nat :=
  let b := numBits (product.drop 4)
  if b ≠ 0 then b + 256 else numBits product

/-- mod_multiple (src/ecc.c:1346-1356): `mod` shifted left by `s` bits, in eight digits. The top carry is written
only if a shift by whole digits leaves room for it, which the lemmas show. -/
def modMultiple (m : Vli) (s : Nat) : Vli :=
  let sh := List.replicate (s / 64) 0 ++
    (if s % 64 ≠ 0 then let t := lshift (UInt64.ofNat (s % 64)) m 0; t.1 ++ [t.2] else m)
  (sh ++ List.replicate 8 0).take 8

/-- The subtraction in the loop of vli_mod_mult (src/ecc.c:1370-1378). -/
def subWide (product mm : Vli) : Vli :=
  let lo := sub (product.take 4) (mm.take 4)
  let hi := if lo.2 ≠ 0 then (sub (product.drop 4) [1, 0, 0, 0]).1 else product.drop 4
  lo.1 ++ (sub hi (mm.drop 4)).1

/-- The shift in the loop of vli_mod_mult (src/ecc.c:1381-1386). -/
def shiftWide (mm : Vli) : Vli :=
  orTop (rshift1 (mm.take 4)) ((dig mm 4 &&& 1) <<< 63) ++ rshift1 (mm.drop 4)

/-- The loop of vli_mod_mult (src/ecc.c:1364-1389). -/
def modMultLoop (m : Vli) : Nat → Nat → Vli → Vli → Vli
  | 0, _, _, product => product
  | f + 1, bits, mm, product =>
    if bits > 256 ∨ vcmp mm m ≥ 0 then
      let c := vcmp (mm.drop 4) (product.drop 4)
      let product := if c < 0 ∨ (c = 0 ∧ vcmp mm product ≤ 0) then subWide product mm else product
      modMultLoop m f (bits - 1) (shiftWide mm) product
    else product

/-- vli_mod_mult (src/ecc.c:1314-1392). -/
def modMult (l r m : Vli) : Vli :=
  let modBits := numBits m
  let product := mult l r
  let bits := productBits product
  if bits < modBits then product.take 4
  else (modMultLoop m 512 bits (modMultiple m (bits - modBits)) product).take 4

/-- The loop of hsk_ecc_sign (src/ecc.c:1411-1427), with `left` tries left. `rand` gives the results of the calls of
get_rand_num (src/ecc.c:217-244): the number read from the system, or `none` where it returns 0. `px` is `p.x`, which
is not initialised before the first try: reading it then is undefined. The result is `k` and `p.x`. -/
def signLoop (rand : Nat → Option Vli) : Nat → Option Vli → Out Unit (Vli × Vli)
  | 0, _ => .err ()
  | left + 1, px =>
    match rand (16 - (left + 1)) with
    | none => .err ()
    | some k =>
      if isZero k then -- continue
        match px with
        | none => .ub
        | some x => if isZero x then signLoop rand left px else .ok (k, x)
      else
        let k := reduceN k
        let x := reduceN (pointMult curveG k).x
        if isZero x then signLoop rand left (some x) else .ok (k, x)

/-- hsk_ecc_sign (src/ecc.c:1399-1440); `err` where it returns 0. -/
def sign (rand : Nat → Option Vli) (priv hash : Bytes) : Out Unit Bytes := do
  let (k, px) ← signLoop rand 16 none
  let s := modMult px (bytes2native priv) curveN
  let s := modAdd (bytes2native hash) s curveN
  let k := modInv k curveN
  let s := modMult s k curveN
  pure (native2bytes px ++ native2bytes s)

end Verif.Model.Ecc
