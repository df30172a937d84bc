import Verif.Model.Ec52
/-
Model of the operations of `src/secp256k1/group_impl.h` on points in Jacobian coordinates, on field elements of five
words (Model/Field52), besides `gej_add_ge` and `ge_set_gej`, which are in Model/Ec52.

* `rzr`, the quotient of the new and the old third coordinate, is written only where the caller gives a pointer; here it
  is always computed.
* Where the result is the point at infinity the program sets the flag and leaves the coordinates of `*r` as they were;
  `r` is what `*r` holds before the call. `gej_double_var` is called with a point at infinity only when `r` is `a`.
-/
namespace Verif.Ec52
open Verif Verif.Field52

/-- group_impl.h:307-360 `gej_double_var` and `gej_double_nonzero`: the point, and `rzr`. -/
def doubleVar (a : Gej) : Gej × Fe :=
  if a.infinity then (a, setInt 1) else
  let rzr := a.y
  let rzr := normalizeWeak rzr
  let rzr := mulInt rzr 2
  let z := mul a.z a.y
  let z := mulInt z 2
  let t1 := sqr a.x
  let t1 := mulInt t1 3
  let t2 := sqr t1
  let t3 := sqr a.y
  let t3 := mulInt t3 2
  let t4 := sqr t3
  let t4 := mulInt t4 2
  let t3 := mul t3 a.x
  let x := t3
  let x := mulInt x 4
  let x := negate x 4
  let x := add x t2
  let t2 := negate t2 1
  let t3 := mulInt t3 6
  let t3 := add t3 t2
  let y := mul t1 t3
  let t2 := negate t4 2
  let y := add y t2
  (⟨x, y, z, false⟩, rzr)

/-- group_impl.h:399-415, the same in 448-464: the end of the additions. `hz` is the factor of the third coordinate. -/
def addEnd (az u1 s1 h i hz : Fe) : Gej :=
  let i2 := sqr i
  let h2 := sqr h
  let h3 := mul h h2
  let z := mul az hz
  let t := mul u1 h2
  let x := t
  let x := mulInt x 2
  let x := add x h3
  let x := negate x 3
  let x := add x i2
  let y := negate x 5
  let y := add y t
  let y := mul y i
  let h3 := mul h3 s1
  let h3 := negate h3 1
  let y := add y h3
  ⟨x, y, z, false⟩

/-- group_impl.h:391-415 and 441-464: the two points have the same first coordinate, or not. -/
def addFin (r a : Gej) (u1 s1 h i hz : Fe) : Gej × Option Fe :=
  if normalizesToZeroVar h then
    if normalizesToZeroVar i then ((doubleVar a).1, some (doubleVar a).2)
    else (⟨r.x, r.y, r.z, true⟩, some (setInt 0))
  else (addEnd a.z u1 s1 h i hz, some hz)

/-- group_impl.h:367-415 `gej_add_var`. `rzr` is not set when `a` is the point at infinity. -/
def addVar (r a b : Gej) : Gej × Option Fe :=
  if a.infinity then (b, none)
  else if b.infinity then (a, some (setInt 1))
  else
    let z22 := sqr b.z
    let z12 := sqr a.z
    let u1 := mul a.x z22
    let u2 := mul b.x z12
    let s1 := mul a.y z22
    let s1 := mul s1 b.z
    let s2 := mul b.y z12
    let s2 := mul s2 a.z
    let h := negate u1 1
    let h := add h u2
    let i := negate s1 1
    let i := add i s2
    addFin r a u1 s1 h i (mul h b.z)

/-- group_impl.h:417-464 `gej_add_ge_var`. `rzr` is not set when `a` is the point at infinity. -/
def addGeVar (r a : Gej) (b : Ge) : Gej × Option Fe :=
  if a.infinity then (gejSetGe b, none)
  else if b.infinity then (a, some (setInt 1))
  else
    let z12 := sqr a.z
    let u1 := a.x
    let u1 := normalizeWeak u1
    let u2 := mul b.x z12
    let s1 := a.y
    let s1 := normalizeWeak s1
    let s2 := mul b.y z12
    let s2 := mul s2 a.z
    let h := negate u1 1
    let h := add h u2
    let i := negate s1 1
    let i := add i s2
    addFin r a u1 s1 h i h

/-- group_impl.h:260-267 `gej_neg`. -/
def gejNeg (a : Gej) : Gej :=
  let y := normalizeWeak a.y
  let y := negate y 1
  ⟨a.x, y, a.z, a.infinity⟩

/-- group_impl.h:648-657 `gej_rescale`. -/
def rescale (r : Gej) (s : Fe) : Gej :=
  let zz := sqr s
  let x := mul r.x zz
  let y := mul r.y zz
  let y := mul y s
  let z := mul r.z s
  ⟨x, y, z, r.infinity⟩

/-- group_impl.h:74-82 `ge_set_gej_zinv`. -/
def setGejZinv (a : Gej) (zi : Fe) : Ge :=
  let zi2 := sqr zi
  let zi3 := mul zi2 zi
  ⟨mul a.x zi2, mul a.y zi3, a.infinity⟩

/-- group_impl.h:252-258 `gej_eq_x_var`; the point is not the point at infinity. -/
def gejEqX (x : Fe) (a : Gej) : Bool :=
  let r := sqr a.z
  let r := mul r x
  let r2 := normalizeWeak a.x
  normalizesToZeroVar (add (negate r 1) r2)

/-- group_impl.h:197-202 `gej_set_infinity`. -/
def gejInfinity : Gej := ⟨setInt 0, setInt 0, setInt 0, true⟩

end Verif.Ec52
