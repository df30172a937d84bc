import Verif.Spec.Secp
/-
Model of `src/secp256k1/elligator_impl.h` and of what it uses of `field_impl.h`, `group_impl.h`, `eckey_impl.h`,
`secp256k1.c` and `ecdh_impl.h`, with the parts of `src/ec.c` the transport calls: the map of Shallue and van de
Woestijne, its inverse, and the keys in 64 bytes of "Elligator Squared".

* A field element is its residue (`F`): the words, the magnitudes and the normalisations of `field_5x52*.h` are left to
  Model/Field52 and Model/Ec52 (C80, C81), so `fe_mul`, `fe_sqr`, `fe_add`, `fe_negate`, `fe_mul_int` and `fe_cmov` are the
  operations of the field.
* `ecmult_gen` and `ecmult_const` are the multiplication of a point by a number in Mathlib's group.
* `ARG_CHECK` calls `abort` when it fails (secp256k1.c:21-33): `ub`. `err`: the routine returned 0.
* The numbers drawn from the deterministic generator of `hash_impl.h` in `pubkey_to_hash` are a parameter.
-/
namespace Verif.Elligator
open Verif Verif.Spec.Secp

/-- `k` squarings: the loops of field_impl.h:69-71 and following. -/
def sqrs (a : F) : Nat → F
  | 0 => a
  | k + 1 => sqrs (a * a) k

/-- elligator_impl.h:29-37 `hsk_secp256k1_fe_sqrn`. -/
def sqrn (a : F) (rounds : Nat) : F := sqrs (a * a) (rounds - 1)

/-- The powers of the addition chain which are used to the end. -/
structure Chain where
  x2 : F
  x22 : F
  x223 : F

/-- field_impl.h:59-114, and the same in field_impl.h:145-203: the start of the chains. -/
def chain (a : F) : Chain :=
  let x2 := a * a * a
  let x3 := x2 * x2 * a
  let x6 := sqrs x3 3 * x3
  let x9 := sqrs x6 3 * x3
  let x11 := sqrs x9 2 * x2
  let x22 := sqrs x11 11 * x11
  let x44 := sqrs x22 22 * x22
  let x88 := sqrs x44 44 * x44
  let x176 := sqrs x88 88 * x88
  let x220 := sqrs x176 44 * x44
  let x223 := sqrs x220 3 * x3
  ⟨x2, x22, x223⟩

/-- field_impl.h:38-134 `hsk_secp256k1_fe_sqrt`: the candidate, and whether it is a root. -/
def sqrt (a : F) : F × Bool :=
  let c := chain a
  let t := sqrs c.x223 23 * c.x22
  let t := sqrs t 6 * c.x2
  let r := sqrs t 2
  (r, r * r == a)

/-- field_impl.h:136-224 `hsk_secp256k1_fe_inv`. -/
def inv (a : F) : F :=
  let c := chain a
  let t := sqrs c.x223 23 * c.x22
  let t := sqrs t 5 * a
  let t := sqrs t 3 * c.x2
  a * sqrs t 2

/-- elligator_impl.h:39-86 `hsk_secp256k1_fe_pow_pm3d4`. -/
def powPm3d4 (a : F) : F :=
  let x2 := a * a * a
  let x3 := x2 * x2 * a
  let x6 := sqrn x3 3 * x3
  let x9 := sqrn x6 3 * x3
  let x11 := sqrn x9 2 * x2
  let x22 := sqrn x11 11 * x11
  let x44 := sqrn x22 22 * x22
  let x88 := sqrn x44 44 * x44
  let x176 := sqrn x88 88 * x88
  let x220 := sqrn x176 44 * x44
  let x223 := sqrn x220 3 * x3
  let o := sqrn x223 23 * x22
  let o := sqrn o 5 * a
  sqrn o 3 * x2

/-- elligator_impl.h:88-114 `hsk_secp256k1_fe_isqrt`: a root of `u / v`, and whether it is one. -/
def isqrt (u v : F) : F × Bool :=
  let u2 := u * u
  let u3 := u2 * u
  let u5 := u3 * u2
  let v3 := v * v * v
  let x := u3 * v * powPm3d4 (u5 * v3)
  (x, x * x * v == u)

/-- `fe_is_odd` of a normalised element. -/
def isOdd (a : F) : Bool := a.val % 2 == 1

/-- elligator_impl.h:148-156, and 236-239: the constants. -/
def c : F := ((0x0a2d2ba93507f1df233770c2a797962cc61f6d15da14ecd47d8d27ae1cd5f852 : Nat) : F)
def d : F := ((0x851695d49a83f8ef919bb86153cbcb16630fb68aed0a766a3ec693d68e6afa40 : Nat) : F)

/-- elligator_impl.h:116-211 `shallue_van_de_woestijne_xy2`: `x`, and the square of `y`. -/
def xy2 (u : F) : F × F :=
  let wn := c * u
  let wd := u * u + 8
  let tmp := -(u * wn)
  let x1n := d * wd + tmp
  let x2n := -(x1n + wd)
  let x3d := c * u
  let x3d := x3d * x3d
  let x3n := wd * wd + x3d
  let jinv := inv (x3d * wd)
  let x1 := x1n * x3d * jinv
  let x2 := x2n * x3d * jinv
  let x3 := x3n * wd * jinv
  let y1 := x1 * x1 * x1 + 7
  let y2 := x2 * x2 * x2 + 7
  let y3 := x3 * x3 * x3 + 7
  let alphaquad := (sqrt y1).2
  let betaquad := (sqrt y2).2
  let (x1, y1) := if !alphaquad && betaquad then (x2, y2) else (x1, y1)
  if !alphaquad && !betaquad then (x3, y3) else (x1, y1)

/-- An affine point, with its flag (`hsk_secp256k1_ge`). -/
structure Ge where
  x : F
  y : F
  infinity : Bool

/-- elligator_impl.h:213-228 `shallue_van_de_woestijne`. -/
def svdw (u : F) : Ge :=
  let (x, y2) := xy2 u
  let y := (sqrt y2).1
  let flip := xor (isOdd y) (isOdd u)
  ⟨x, if flip then -y else y, false⟩

/-- elligator_impl.h:230-354 `shallue_van_de_woestijne_invert`: the preimage, and whether it is one. -/
def invert (ge : Ge) (hint : Nat) : F × Bool :=
  let r := hint % 4
  if ge.infinity then (0, false) else
  let x := ge.x
  let y := ge.y
  let t := 78 * x + 9 * (x * x) + -87
  let (t, s0) := sqrt t
  let s1 := decide (r < 2) || s0
  let tmp := 2 * x + 1
  let c1 := c + tmp
  let c0 := c + -tmp
  let n0 := 8 * c0
  let n1 := 8 * c1
  let n2 := 3 * (-x + 1) + -16
  let n3 := n2 + -t
  let n2 := n2 + t
  let n := if r = 1 then n1 else if r = 2 then n2 else if r = 3 then n3 else n0
  let d := if r = 0 then c1 else if r = 1 then c0 else 2
  let (t, s2) := isqrt n d
  let s3 := (xy2 t).1 == x
  let flip := xor (isOdd t) (isOdd y)
  (if flip then -t else t, s1 && s2 && s3)

/-- A point in Jacobian coordinates (`hsk_secp256k1_gej`). -/
structure Gej where
  x : F
  y : F
  z : F
  infinity : Bool

/-- group_impl.h:245-250 `hsk_secp256k1_gej_set_ge`. -/
def gejSetGe (a : Ge) : Gej := ⟨a.x, a.y, 1, a.infinity⟩

/-- group_impl.h:94-98 `hsk_secp256k1_ge_neg`. -/
def geNeg (a : Ge) : Ge := ⟨a.x, -a.y, a.infinity⟩

/-- group_impl.h:526-646 `hsk_secp256k1_gej_add_ge`; the second point is not the point at infinity. -/
def addGe (a : Gej) (b : Ge) : Gej :=
  let zz := a.z * a.z
  let u1 := a.x
  let u2 := b.x * zz
  let s1 := a.y
  let s2 := b.y * zz * a.z
  let t := u1 + u2
  let m := s1 + s2
  let rr := t * t
  let mAlt := -u2
  let tt := u1 * mAlt
  let rr := rr + tt
  let degenerate := m == 0 && rr == 0
  let rrAlt := 2 * s1
  let mAlt := mAlt + u1
  let rrAlt := if degenerate then rrAlt else rr
  let mAlt := if degenerate then mAlt else m
  let n := mAlt * mAlt
  let q := n * t
  let n := n * n
  let n := if degenerate then m else n
  let t := rrAlt * rrAlt
  let z := a.z * mAlt
  let infinity := z == 0 && !a.infinity
  let z := 2 * z
  let q := -q
  let t := t + q
  let x := t
  let t := 2 * t
  let t := t + q
  let t := t * rrAlt
  let t := t + n
  let y := -t
  let x := 4 * x
  let y := 4 * y
  if a.infinity then ⟨b.x, b.y, 1, infinity⟩ else ⟨x, y, z, infinity⟩

/-- group_impl.h:100-111 `hsk_secp256k1_ge_set_gej`. -/
def geSetGej (a : Gej) : Ge :=
  let z := inv a.z
  let z2 := z * z
  let z3 := z * z2
  ⟨a.x * z2, a.y * z3, a.infinity⟩

/-- secp256k1.c:148-160 `hsk_secp256k1_pubkey_save` and 129-146 `hsk_secp256k1_pubkey_load`: the coordinates are
stored; `x` may not be 0. -/
def pubkeyLoad (k : F × F) : Out Unit Ge :=
  if k.1 = 0 then .ub else .ok ⟨k.1, k.2, false⟩

/-- `fe_set_b32`, and whether the number is below the prime (field_10x26_impl.h, field_5x52_impl.h). -/
def setB32 (b : Bytes) : F × Bool := (((beNat b : Nat) : F), decide (beNat b < p))

/-- `fe_get_b32` of a normalised element. -/
def getB32 (a : F) : Bytes := beBytes 32 a.val

/-- group_impl.h:222-243 `hsk_secp256k1_ge_set_xquad` and `hsk_secp256k1_ge_set_xo_var`. -/
def setXo (x : F) (odd : Bool) : Option (F × F) :=
  let (y, ok) := sqrt (7 + x * (x * x))
  if !ok then none
  else some (x, if isOdd y != odd then -y else y)

/-- eckey_impl.h:17-35 `hsk_secp256k1_eckey_pubkey_parse` of 33 bytes; secp256k1.c:162-175. -/
def parse (pub : Bytes) : Option (F × F) :=
  match pub with
  | tag :: rest =>
    if pub.length = 33 ∧ (tag = 2 ∨ tag = 3) then
      let (x, ok) := setB32 rest
      if ok then setXo x (tag == 3) else none
    else none
  | [] => none

/-- eckey_impl.h:37-53 `hsk_secp256k1_eckey_pubkey_serialize`, compressed; secp256k1.c:177-198. -/
def serialize (k : F × F) : Out Unit Bytes :=
  match pubkeyLoad k with
  | .ok q => .ok ((if isOdd q.y then 3 else 2) :: getB32 q.x)
  | .err e => .err e
  | .ub => .ub

/-- elligator_impl.h:429-468 `hsk_secp256k1_ec_pubkey_from_hash`. -/
def pubkeyFromHash (bytes64 : Bytes) : Option (F × F) :=
  let u1 := (setB32 (bytes64.take 32)).1
  let u2 := (setB32 ((bytes64.drop 32).take 32)).1
  let p1 := svdw u1
  let p2 := svdw u2
  let r := addGe (gejSetGe p1) p2
  let p1 := geSetGej r
  if p1.infinity then none else some (p1.x, p1.y)

/-- ec.c:243-265 `hsk_ec_pubkey_from_hash`. -/
def fromHash (hash : Bytes) : Out Unit Bytes :=
  match pubkeyFromHash hash with
  | none => .err ()
  | some k => serialize k

/-- elligator_impl.h:492-504: the loop of `hsk_secp256k1_ec_pubkey_to_hash`. Round `i` draws the field element
`(draw i).1` and the hint `(draw i).2`; `fuel` is the number of rounds after which the model gives up. -/
def toHashLoop (draw : Nat → F × Nat) (j : Gej) : Nat → Nat → Option (F × F)
  | 0, _ => none
  | fuel + 1, i =>
    let u1 := (draw i).1
    let p1 := geNeg (svdw u1)
    let p2 := geSetGej (addGe j p1)
    match invert p2 (draw i).2 with
    | (u2, true) => some (u1, u2)
    | (_, false) => toHashLoop draw j fuel (i + 1)

/-- elligator_impl.h:470-522 `hsk_secp256k1_ec_pubkey_to_hash` and ec.c:220-241 `hsk_ec_pubkey_to_hash`. `err` also
when the model gives up. -/
def toHash (draw : Nat → F × Nat) (fuel : Nat) (pubkey : Bytes) : Out Unit Bytes :=
  match parse pubkey with
  | none => .err ()
  | some k =>
    match pubkeyLoad k with
    | .ok q =>
      match toHashLoop draw (gejSetGe q) fuel 0 with
      | some (u1, u2) => .ok (getB32 u1 ++ getB32 u2)
      | none => .err ()
    | .err e => .err e
    | .ub => .ub

end Verif.Elligator
