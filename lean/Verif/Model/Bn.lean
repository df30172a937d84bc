import Verif.Base
/-
Model of the 512-bit big number routines (src/bn.c, src/bn.h) that the header
and chain code use.  A number is the C array of sixteen 32-bit words, least
significant first, as a list of naturals below 2^32.
Model/BnMore has hsk_bn_{to_int,neg,dec,rshift,mod,and,xor,pow}. Not modelled: hsk_bn_{from_string,
to_string}. Nothing outside bn.c calls any of them.
-/
namespace Verif.Bn

/-- HSK_BN_SIZE (src/bn.h:14). -/
def size : Nat := 16
/-- HSK_BN_MAX + 1, the word base (src/bn.h:16). -/
def B : Nat := 2 ^ 32

/-- hsk_bn_t (src/bn.h:18-20). -/
abbrev Num := List Nat

/-- hsk_bn_init (src/bn.c:22-29). -/
def init : Num := List.replicate 16 0

/-- hsk_bn_from_int (src/bn.c:31-39); the argument is a uint64. -/
def fromInt (i : Nat) : Num := (i % B) :: (i / B % B) :: List.replicate 14 0

/-- The big-endian words read by the loop of hsk_bn_from_array
(src/bn.c:139-144); the four bytes occupy disjoint bits, so `|` is `+`. -/
def beWords : Bytes → List Nat
  | a :: b :: c :: d :: r =>
    (a.toNat * 2 ^ 24 + b.toNat * 2 ^ 16 + c.toNat * 2 ^ 8 + d.toNat) :: beWords r
  | _ => []

/-- hsk_bn_from_array (src/bn.c:129-145): word `size/4 - 1` is read first. -/
def fromArray (bs : Bytes) : Num :=
  (beWords bs).reverse ++ List.replicate (16 - bs.length / 4) 0

/-- The four bytes of one word, most significant first (src/bn.c:156-159). -/
def wordBytes (w : Nat) : Bytes :=
  [UInt8.ofNat (w / 2 ^ 24), UInt8.ofNat (w / 2 ^ 16), UInt8.ofNat (w / 2 ^ 8), UInt8.ofNat w]

/-- hsk_bn_to_array (src/bn.c:147-161): the low `size/4` words. -/
def toArray (n : Num) (size : Nat) : Bytes :=
  ((n.take (size / 4)).reverse).flatMap wordBytes

/-- hsk_bn_inc (src/bn.c:196-212): stop at the first word that does not wrap. -/
def inc : Num → Num
  | [] => []
  | w :: ws =>
    let res := (w + 1) % B
    if res > w then res :: ws else res :: inc ws

/-- The loop of hsk_bn_add (src/bn.c:224-228). -/
def addC : Nat → Num → Num → Num
  | c, a :: as, b :: bs =>
    let tmp := a + b + c
    (tmp % B) :: addC (if tmp > B - 1 then 1 else 0) as bs
  | _, _, _ => []

/-- hsk_bn_add (src/bn.c:214-229). -/
def add (a b : Num) : Num := addC 0 a b

/-- The loop of hsk_bn_sub (src/bn.c:243-253). -/
def subB : Nat → Num → Num → Num
  | bw, a :: as, b :: bs =>
    let res := (a + B) - (b + bw)
    (res % B) :: subB (if res ≤ B - 1 then 1 else 0) as bs
  | _, _, _ => []

/-- hsk_bn_sub (src/bn.c:231-254). -/
def sub (a b : Num) : Num := subB 0 a b

/-- _lshift_word (src/bn.c:562-576). -/
def lshiftWord (a : Num) (n : Nat) : Num := (List.replicate n 0 ++ a).take 16

/-- The inner loop of hsk_bn_mul (src/bn.c:272-283), over the words of `b`
from index `j`. -/
def mulRow (ai i : Nat) : Nat → List Nat → Num → Num
  | _, [], row => row
  | j, bj :: bs, row =>
    mulRow ai i (j + 1) bs
      (if i + j < 16 then add (lshiftWord (fromInt (ai * bj)) (i + j)) row else row)

/-- The outer loop of hsk_bn_mul (src/bn.c:269-286), over the words of `a`
from index `i`. -/
def mulRows (b : Num) : Nat → List Nat → Num → Num
  | _, [], cc => cc
  | i, ai :: as, cc => mulRows b (i + 1) as (add cc (mulRow ai i 0 b init))

/-- hsk_bn_mul (src/bn.c:256-289). -/
def mul (a b : Num) : Num := mulRows b 0 a init

/-- _lshift_one_bit (src/bn.c:578-589): `prev` is the next lower word. -/
def shl1 : Nat → Num → Num
  | _, [] => []
  | prev, w :: ws => ((w <<< 1) % B ||| (prev >>> 31)) :: shl1 w ws

/-- _lshift_one_bit (src/bn.c:578-589). -/
def lshiftOneBit (a : Num) : Num := shl1 0 a

/-- _rshift_one_bit (src/bn.c:591-602). -/
def rshiftOneBit : Num → Num
  | [] => []
  | [w] => [w >>> 1]
  | w :: v :: ws => ((w >>> 1) ||| ((v <<< 31) % B)) :: rshiftOneBit (v :: ws)

/-- The bit loop of hsk_bn_lshift (src/bn.c:370-378), `0 < nbits < 32`. -/
def shlBits (nbits : Nat) : Nat → Num → Num
  | _, [] => []
  | prev, w :: ws => ((w <<< nbits) % B ||| (prev >>> (32 - nbits))) :: shlBits nbits w ws

/-- hsk_bn_lshift (src/bn.c:355-381). -/
def lshift (a : Num) (nbits : Nat) : Num :=
  let a := if nbits / 32 ≠ 0 then lshiftWord a (nbits / 32) else a
  let r := nbits - nbits / 32 * 32
  if r ≠ 0 then shlBits r 0 a else a

/-- The loop of hsk_bn_cmp (src/bn.c:472-481), over the words from the top. -/
def cmpTop : List Nat → List Nat → Int
  | a :: as, b :: bs => if a > b then 1 else if a < b then -1 else cmpTop as bs
  | _, _ => 0

/-- hsk_bn_cmp (src/bn.c:465-484). -/
def cmp (a b : Num) : Int := cmpTop a.reverse b.reverse

/-- hsk_bn_is_zero (src/bn.c:486-497). -/
def isZero (n : Num) : Bool := n.all (· == 0)

/-- hsk_bn_or (src/bn.c:443-452). -/
def or (a b : Num) : Num := List.zipWith (· ||| ·) a b

/-- First loop of hsk_bn_div (src/bn.c:312-323).  `none`: still running after
`fuel` tests of the loop condition. -/
def divUp : Nat → Num → Num → Num → Option (Num × Num × Bool)
  | 0, _, _, _ => none
  | fuel + 1, a, denom, current =>
    if cmp denom a ≠ 1 then
      if denom.getD 15 0 ≥ 2 ^ 31 then some (denom, current, true)
      else divUp fuel a (lshiftOneBit denom) (lshiftOneBit current)
    else some (denom, current, false)

/-- Second loop of hsk_bn_div (src/bn.c:336-350). -/
def divDown : Nat → Num → Num → Num → Num → Option Num
  | 0, _, _, _, _ => none
  | fuel + 1, tmp, denom, current, c =>
    if isZero current then some c
    else
      let hit := cmp tmp denom ≠ -1
      divDown fuel (if hit then sub tmp denom else tmp) (rshiftOneBit denom)
        (rshiftOneBit current) (if hit then or c current else c)

/-- hsk_bn_div (src/bn.c:291-353), run for at most `fuel` iterations of each
loop; `none` means a loop has not ended by then. -/
def divFuel (fuel : Nat) (a b : Num) : Option Num :=
  match divUp fuel a b (fromInt 1) with
  | none => none
  | some (denom, current, overflow) =>
    let denom := if overflow then denom else rshiftOneBit denom
    let current := if overflow then current else rshiftOneBit current
    divDown fuel a denom current init

/-- hsk_bn_div: 514 iterations are enough whenever the loops end at all
(`C16_div_exact`); with a zero divisor they never end (`C16_div_zero_diverges`). -/
def div (a b : Num) : Option Num := divFuel 514 a b

end Verif.Bn
