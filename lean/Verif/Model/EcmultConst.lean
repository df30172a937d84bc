import Verif.Model.Group52
import Verif.Model.Scalar64
/-
Model of `src/secp256k1/ecmult_const_impl.h` and of the tables it uses (`ecmult_impl.h`, `group_impl.h`): the product of
a point and a secret scalar, on words (Model/Field52, Model/Scalar64). Built without endomorphism: WINDOW_A is 5, the
table has 8 points, WNAF_BITS is 256 (src/secp256k1/ecmult_impl.h:33, 45-52).

* Numbers of type `int` are integers; they stay small.
* Memory that is not initialised is a parameter.
-/
namespace Verif.EcmultConst
open Verif Verif.Field52 Verif.Ec52
open Verif.Scalar64 (Sc shrInt isHigh isEven isOne caddBit condNegate)

/-- `WNAF_SIZE` (src/secp256k1/ecmult_impl.h:50). -/
def wnafSize (w : Nat) : Nat := (256 + w - 1) / w

/-- The loop of wnaf_const (src/secp256k1/ecmult_const_impl.h:91-108), with the number of rounds left. After a round `u`
and `u_last` are the same. -/
def wnafLoop (w : Nat) (sign : Int) : Nat → Sc → Int → List Int
  | 0, _, uLast => [uLast * sign]
  | k + 1, s, uLast =>
    let u : Int := (shrInt s w).2
    let even : Int := if (shrInt s w).2 &&& 1 == 0 then 1 else 0
    let sg : Int := 2 * (if uLast > 0 then 1 else 0) - 1
    let u := u + sg * even
    let uLast := uLast - sg * even * (1 <<< w : Nat)
    (uLast * sign) :: wnafLoop w sign k (shrInt s w).1 u

/-- wnaf_const (src/secp256k1/ecmult_const_impl.h:51-113): the digits, the lowest first, and the skew. -/
def wnafConst (s : Sc) (w : Nat) : List Int × Nat :=
  let flip := isHigh s
  let bit := flip.toNat ^^^ (!isEven s).toNat
  let negS := Scalar64.negate s
  let notNegOne := !isOne negS
  let s := caddBit s bit notNegOne.toNat
  let q := condNegate s flip
  let sign := q.2 * ((notNegOne.toNat : Int) * 2 - 1)
  let skew := 1 <<< bit
  let s := shrInt q.1 w
  (wnafLoop w sign (wnafSize w) s.1 (s.2 : Int), skew)

/-- What memory holds that is not initialised: a point of the table, a quotient in the table, the point that is read. -/
structure Junk where
  gej : Gej
  fe : Fe
  ge : Ge

/-- The loop of ecmult_odd_multiples_table (src/secp256k1/ecmult_impl.h:103-105): the points after the first, each with
the quotient of the third coordinates. -/
def oddRest (J : Junk) (d : Ge) : Nat → Gej → List (Gej × Fe)
  | 0, _ => []
  | k + 1, prev =>
    let q := addGeVar J.gej prev d
    (q.1, q.2.getD J.fe) :: oddRest J d k q.1

/-- The third coordinate of the last point. -/
def lastZ (z : Fe) : List (Gej × Fe) → Fe
  | [] => z
  | q :: l => lastZ q.1.z l

/-- ge_globalz_set_table_gej (src/secp256k1/group_impl.h:173-195), from the end to the start: the points, and the product
of the quotients that the one before is multiplied with. The program does not compute the product of all. -/
def globalz : List (Gej × Fe) → List Ge × Fe
  | [] => ([], setInt 0)
  | [(a, zr)] => ([⟨a.x, a.y, false⟩], zr)
  | (a, zr) :: q :: l =>
    let t := globalz (q :: l)
    (setGejZinv a t.2 :: t.1, mul t.2 zr)

/-- ecmult_odd_multiples_table_globalz_windowa (src/secp256k1/ecmult_impl.h:129-138) and ecmult_odd_multiples_table
(ecmult_impl.h:78-112): the points, and the third coordinate they have in common. -/
def oddTable (J : Junk) (a : Gej) : List Ge × Fe :=
  let d := (doubleVar a).1
  let dGe : Ge := ⟨d.x, d.y, false⟩
  let aGe := setGejZinv a d.z
  let p0 : Gej := ⟨aGe.x, aGe.y, a.z, false⟩
  let l := oddRest J dGe 7 p0
  ((globalz ((p0, d.z) :: l)).1, mul (lastZ p0.z l) d.z)

/-- The loop of ECMULT_CONST_TABLE_GET_GE (src/secp256k1/ecmult_const_impl.h:26-31). -/
def pick (idx : Int) : Nat → List Ge → Ge → Ge
  | _, [], r => r
  | m, g :: l, r =>
    let f := (decide ((m : Int) = idx)).toNat
    pick idx (m + 1) l ⟨cmov r.x g.x f, cmov r.y g.y f, r.infinity⟩

/-- ECMULT_CONST_TABLE_GET_GE (src/secp256k1/ecmult_const_impl.h:16-35). `r` is what `*r` holds before. -/
def tableGet (r : Ge) (pre : List Ge) (n : Int) : Ge :=
  let absN := n * ((if n > 0 then 1 else 0) * 2 - 1)
  let idx := absN.tdiv 2
  let r := pick idx 0 pre r
  let negY := negate r.y 1
  ⟨r.x, cmov r.y negY (decide (n ≠ absN)).toNat, false⟩

/-- The loop of ecmult_const (src/secp256k1/ecmult_const_impl.h:176-194), over the digits that are left. -/
def mulLoop (pre : List Ge) : List Int → Gej → Ge → Gej
  | [], r, _ => r
  | n :: l, r, tmp =>
    let r := Nat.repeat (fun r => (doubleVar r).1) 4 r
    let tmp := tableGet tmp pre n
    mulLoop pre l (addGe r tmp) tmp

/-- ecmult_const, first part (src/secp256k1/ecmult_const_impl.h:116-196): all but the correction. -/
def mulMain (J : Junk) (a : Ge) (digits : List Int) : Gej :=
  let t := oddTable J (gejSetGe a)
  let pre := t.1.map fun g => (⟨g.x, normalizeWeak g.y, g.infinity⟩ : Ge)
  match digits.reverse with
  | [] => gejInfinity
  | d :: l =>
    let tmp := tableGet J.ge pre d
    let r := mulLoop pre l (gejSetGe tmp) tmp
    ⟨r.x, r.y, mul r.z t.2, r.infinity⟩

/-- ecmult_const, the correction (src/secp256k1/ecmult_const_impl.h:198-224). -/
def correction (a : Ge) (skew : Nat) : Ge :=
  let tmpj := (doubleVar (gejSetGe a)).1
  let c := geSetGej tmpj
  let s1 := pubkeySave a
  let s2 := pubkeySave c
  let x := storageCmov s1.x s2.x (decide (skew = 2)).toNat
  let y := storageCmov s1.y s2.y (decide (skew = 2)).toNat
  geNeg ⟨fromStorage x, fromStorage y, false⟩

/-- ecmult_const (src/secp256k1/ecmult_const_impl.h:116-233). -/
def ecmultConst (J : Junk) (a : Ge) (scalar : Sc) : Gej :=
  let w := wnafConst scalar 4
  addGe (mulMain J a w.1) (correction a w.2)

end Verif.EcmultConst
