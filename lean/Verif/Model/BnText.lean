import Verif.Model.Bn
import Verif.Model.Words
/-
Model of hsk_bn_from_string and hsk_bn_to_string (src/bn.c). Nothing calls them. The C library's `sscanf` with
`%8x` is a parameter: a function of what is in memory from a place on.
-/
namespace Verif.BnText
open Verif.Words Verif.Bn

/-- The loop of hsk_bn_from_string (src/bn.c:72-84). -/
def fromLoop (scan : Bytes → Nat) (str : Bytes) : Nat → Int → Nat → Num → Out Unit Num
  | 0, _, _, _ => .ub
  | fuel + 1, i, j, n =>
    if i ≥ 0 then
      if i.toNat < str.length ∧ j < 16 then fromLoop scan str fuel (i - 2 * 4) (j + 1) (n.set j (scan (str.drop i.toNat) % B)) else .ub
    else .ok n

/-- hsk_bn_from_string (src/bn.c:53-85). -/
def fromString (scan : Bytes → Nat) (str : Bytes) (nbytes : Int) : Out Unit Num :=
  if ¬nbytes > 0 then .ub
  else if nbytes % 2 ≠ 0 then .ub
  else fromLoop scan str (nbytes.toNat + 1) (nbytes - 2 * 4) 0 Bn.init

/-- A digit of `sprintf` with `%x`. -/
def digit (d : Nat) : UInt8 := UInt8.ofNat (if d < 10 then 0x30 + d else 0x57 + d)

/-- `sprintf` with `%.08x`: the digits and a NUL. -/
def hex8 (w : Nat) : Bytes := [28, 24, 20, 16, 12, 8, 4, 0].map fun s => digit (w / 2 ^ s % 16)

/-- The first loop of hsk_bn_to_string (src/bn.c:103-113), on the words from `j` down. -/
def toLoop (nbytes : Nat) : List Nat → Nat → Bytes → Out Unit Bytes
  | [], _, str => .ok str
  | w :: ws, i, str => if nbytes > i + 1 then (memcpy str i (hex8 w ++ [0])).bind fun str => toLoop nbytes ws (i + 2 * 4) str else .ok str

/-- The second loop (src/bn.c:116-118): how many zeros are in front; to run off the end is undefined. -/
def zeros : Bytes → Out Unit Nat
  | [] => .ub
  | c :: r => if c = 0x30 then (zeros r).bind fun j => .ok (j + 1) else .ok 0

/-- The third loop (src/bn.c:122-123), `k` times from `i` on. -/
def moveLoop (j : Nat) : Nat → Nat → Bytes → Out Unit Bytes
  | 0, _, str => .ok str
  | k + 1, i, str => if i + j < str.length then moveLoop j k (i + 1) (str.set i (str.getD (i + j) 0)) else .ub

/-- hsk_bn_to_string (src/bn.c:87-127); `str` is the caller's array. -/
def toText (n : Num) (str : Bytes) (nbytes : Int) : Out Unit Bytes :=
  if ¬nbytes > 0 then .ub
  else if nbytes % 2 ≠ 0 then .ub
  else (toLoop nbytes.toNat n.reverse 0 str).bind fun str => (zeros str).bind fun j =>
    let k := nbytes.toNat - j
    (moveLoop j k 0 str).bind fun str => memcpy str k [0]

end Verif.BnText
