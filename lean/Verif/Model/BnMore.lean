import Verif.Model.Bn
/-
Model of the routines of src/bn.c that the daemon does not call. Results go to a number other than the arguments.
-/
namespace Verif.Bn

/-- hsk_bn_to_int (src/bn.c:41-51); the two parts occupy disjoint bits, so `|` is `+`. -/
def toInt (n : Num) : Nat := n.getD 0 0 + n.getD 1 0 * 2 ^ 32

/-- hsk_bn_neg (src/bn.c:163-176). -/
def neg (n : Num) : Num := n.map fun w => B - 1 - w

/-- hsk_bn_dec (src/bn.c:178-194). -/
def dec : Num → Num
  | [] => []
  | w :: ws =>
    let res := (w + B - 1) % B
    if ¬res > w then res :: ws else res :: dec ws

/-- hsk_bn_and (src/bn.c:432-441). -/
def and (a b : Num) : Num := List.zipWith (· &&& ·) a b

/-- hsk_bn_xor (src/bn.c:454-463). -/
def xor (a b : Num) : Num := List.zipWith (· ^^^ ·) a b

/-- hsk_bn_mod (src/bn.c:411-430); `none` if the division does not end. -/
def mod (a b : Num) : Option Num := (div a b).map fun c => sub a (mul c b)

/-- The loop of hsk_bn_pow (src/bn.c:519-527), for at most `fuel` turns: `tmp` and what is left in `b`. -/
def powLoop (a : Num) : Nat → Num → Num → Option (Num × Num)
  | 0, _, _ => none
  | fuel + 1, tmp, b => if isZero b then some (tmp, b) else powLoop a fuel (mul tmp a) (dec b)

/-- hsk_bn_pow (src/bn.c:499-536): the result and what it leaves in the exponent; the loop for at most `fuel` turns. -/
def pow (fuel : Nat) (a b : Num) : Option (Num × Num) :=
  if cmp b init = 0 then some (inc init, b) else powLoop a fuel a (dec b)

/-- _rshift_word (src/bn.c:548-560). Past the sixteen words it reads memory that is not its own. -/
def rshiftWord (a : Num) (n : Nat) : Out Unit Num :=
  if n < 16 then .ok ((a.drop 1).take n ++ List.replicate (16 - n) 0) else .ub

/-- The bit loop of hsk_bn_rshift (src/bn.c:399-406), `0 < nbits < 32`. -/
def shrBits (nbits : Nat) : Num → Num
  | [] => []
  | [w] => [w >>> nbits]
  | w :: v :: ws => ((w >>> nbits) ||| ((v <<< (32 - nbits)) % B)) :: shrBits nbits (v :: ws)

/-- hsk_bn_rshift (src/bn.c:383-409). -/
def rshift (a : Num) (nbits : Nat) : Out Unit Num :=
  (if nbits / 32 ≠ 0 then rshiftWord a (nbits / 32) else .ok a).bind fun a =>
    let r := nbits - nbits / 32 * 32
    .ok (if r ≠ 0 then shrBits r a else a)

end Verif.Bn
