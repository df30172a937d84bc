import Verif.Model.Field52
import Verif.Model.Ecdsa
/-
Model of `src/secp256k1/elligator_impl.h` and of what it uses of `field_impl.h`, `group_impl.h`, `eckey_impl.h` and
`secp256k1.c`, statement by statement on field elements of five words (Model/Field52), with the normalisations and the
numbers the program passes to `fe_negate`. The same functions on residues are those of Model/Elligator.

* A flag that is 0 or 1 is a `Bool`, and `toNat` of it where it is used as a number.
* A public key in memory is the four words of each coordinate (`hsk_secp256k1_ge_storage` has 64 bytes).
* The loops that draw until they succeed have `fuel`.
* Clearing variables at the end is left out.
-/
namespace Verif.Ec52
open Verif Verif.Field52

/-- field_5x52.h:21-28 `FE_CONST_INNER`. -/
def feConst (d7 d6 d5 d4 d3 d2 d1 d0 : Nat) : Fe :=
  ⟨d0 ||| ((d1 &&& 0xFFFFF) <<< 32), (d1 >>> 20) ||| (d2 <<< 12) ||| ((d3 &&& 0xFF) <<< 44), (d3 >>> 8) ||| ((d4 &&& 0xFFFFFFF) <<< 24),
    (d4 >>> 28) ||| (d5 <<< 4) ||| ((d6 &&& 0xFFFF) <<< 36), (d6 >>> 16) ||| (d7 <<< 16)⟩

/-- field_5x52_impl.h:229-237 `fe_set_int`, of a number that is not negative. -/
def setInt (a : Nat) : Fe := ⟨a, 0, 0, 0, 0⟩

/-- field_impl.h:24-29 `fe_equal`. -/
def equal (a b : Fe) : Bool := normalizesToZero (add (negate a 1) b)

/-- `k` squarings: the loops of field_impl.h:66-68 and following. -/
def sqrs (a : Fe) : Nat → Fe
  | 0 => a
  | k + 1 => sqrs (sqr a) k

/-- elligator_impl.h:29-37 `fe_sqrn`. -/
def sqrn (a : Fe) (rounds : Nat) : Fe := sqrs (sqr a) (rounds - 1)

/-- The powers of the addition chain which are used to the end. -/
structure Chain where
  x2 : Fe
  x22 : Fe
  x223 : Fe

/-- field_impl.h:59-114, and the same in field_impl.h:145-203: the start of the chains. -/
def chain (a : Fe) : Chain :=
  let x2 := mul (sqr a) a
  let x3 := mul (sqr x2) a
  let x6 := mul (sqrs x3 3) x3
  let x9 := mul (sqrs x6 3) x3
  let x11 := mul (sqrs x9 2) x2
  let x22 := mul (sqrs x11 11) x11
  let x44 := mul (sqrs x22 22) x22
  let x88 := mul (sqrs x44 44) x44
  let x176 := mul (sqrs x88 88) x88
  let x220 := mul (sqrs x176 44) x44
  let x223 := mul (sqrs x220 3) x3
  ⟨x2, x22, x223⟩

/-- field_impl.h:38-134 `fe_sqrt`: the candidate, and whether it is a root. -/
def sqrt (a : Fe) : Fe × Bool :=
  let c := chain a
  let t1 := mul (sqrs c.x223 23) c.x22
  let t1 := mul (sqrs t1 6) c.x2
  let r := sqr (sqr t1)
  (r, equal (sqr r) a)

/-- field_impl.h:136-224 `fe_inv`. -/
def inv (a : Fe) : Fe :=
  let c := chain a
  let t1 := mul (sqrs c.x223 23) c.x22
  let t1 := mul (sqrs t1 5) a
  let t1 := mul (sqrs t1 3) c.x2
  mul a (sqrs t1 2)

/-- elligator_impl.h:39-86 `fe_pow_pm3d4`. -/
def powPm3d4 (x1 : Fe) : Fe :=
  let x2 := mul (sqr x1) x1
  let x3 := mul (sqr x2) x1
  let x6 := mul (sqrn x3 3) x3
  let x9 := mul (sqrn x6 3) x3
  let x11 := mul (sqrn x9 2) x2
  let x22 := mul (sqrn x11 11) x11
  let x44 := mul (sqrn x22 22) x22
  let x88 := mul (sqrn x44 44) x44
  let x176 := mul (sqrn x88 88) x88
  let x220 := mul (sqrn x176 44) x44
  let x223 := mul (sqrn x220 3) x3
  let out := mul (sqrn x223 23) x22
  let out := mul (sqrn out 5) x1
  mul (sqrn out 3) x2

/-- elligator_impl.h:88-114 `fe_isqrt`. -/
def isqrt (u v : Fe) : Fe × Bool :=
  let u2 := sqr u
  let u3 := mul u2 u
  let u5 := mul u3 u2
  let v3 := sqr v
  let v3 := mul v3 v
  let p := mul u5 v3
  let p := powPm3d4 p
  let x := mul u3 v
  let x := mul x p
  let c := sqr x
  let c := mul c v
  (x, equal c u)

/-- elligator_impl.h:148-164: the constants. -/
def c : Fe := feConst 0x0a2d2ba9 0x3507f1df 0x233770c2 0xa797962c 0xc61f6d15 0xda14ecd4 0x7d8d27ae 0x1cd5f852
def d : Fe := feConst 0x851695d4 0x9a83f8ef 0x919bb861 0x53cbcb16 0x630fb68a 0xed0a766a 0x3ec693d6 0x8e6afa40
def b : Fe := feConst 0 0 0 0 0 0 0 7
def bPlusOne : Fe := feConst 0 0 0 0 0 0 0 8
def one : Fe := feConst 0 0 0 0 0 0 0 1

/-- elligator_impl.h:116-211 `shallue_van_de_woestijne_xy2`. -/
def xy2 (u : Fe) : Fe × Fe :=
  let wn := mul c u
  let wd := sqr u
  let wd := add wd bPlusOne
  let tmp := mul u wn
  let tmp := negate tmp 1
  let x1n := mul d wd
  let x1n := add x1n tmp
  let x2n := x1n
  let x2n := add x2n wd
  let x2n := negate x2n 5
  let x3d := mul c u
  let x3d := sqr x3d
  let x3n := sqr wd
  let x3n := add x3n x3d
  let jinv := mul x3d wd
  let jinv := inv jinv
  let x1 := mul x1n x3d
  let x1 := mul x1 jinv
  let x2 := mul x2n x3d
  let x2 := mul x2 jinv
  let x3 := mul x3n wd
  let x3 := mul x3 jinv
  let y1 := sqr x1
  let y1 := mul y1 x1
  let y1 := add y1 b
  let y2 := sqr x2
  let y2 := mul y2 x2
  let y2 := add y2 b
  let y3 := sqr x3
  let y3 := mul y3 x3
  let y3 := add y3 b
  let alphaquad := (sqrt y1).2
  let betaquad := (sqrt y2).2
  let x1 := cmov x1 x2 (!alphaquad && betaquad).toNat
  let y1 := cmov y1 y2 (!alphaquad && betaquad).toNat
  let x1 := cmov x1 x3 (!alphaquad && !betaquad).toNat
  let y1 := cmov y1 y3 (!alphaquad && !betaquad).toNat
  (x1, y1)

/-- group.h:14-18 `hsk_secp256k1_ge`. -/
structure Ge where
  x : Fe
  y : Fe
  infinity : Bool

/-- elligator_impl.h:213-228 `shallue_van_de_woestijne`. -/
def svdw (u : Fe) : Ge :=
  let r := xy2 u
  let x := r.1
  let y2 := r.2
  let y := (sqrt y2).1
  let y := normalize y
  let flip := isOdd y ^^^ isOdd u
  let y2 := negate y 1
  let y := cmov y y2 flip
  ⟨x, y, false⟩

/-- `(x - y) >> 31` of two unsigned ints of 32 bits. -/
def below (x y : Nat) : Nat := ((x + 2 ^ 32 - y) % 2 ^ 32) >>> 31

/-- elligator_impl.h:230-354 `shallue_van_de_woestijne_invert`: the preimage, and what is returned. -/
def invert (ge : Ge) (hint : Nat) : Fe × Nat :=
  let r := hint &&& 3
  if ge.infinity then (setInt 0, 0) else
  let x := ge.x
  let y := ge.y
  let x := normalize x
  let y := normalize y
  let tmp := setInt 78
  let t := mul tmp x
  let tmp := sqr x
  let tmp := mulInt tmp 9
  let t := add t tmp
  let tmp := setInt 87
  let tmp := negate tmp 1
  let t := add t tmp
  let t := normalize t
  let q := sqrt t
  let tmp := q.1
  let s0 := q.2.toNat
  let s1 := below r 2 ||| s0
  let t := tmp
  let c1 := c
  let tmp := x
  let tmp := mulInt tmp 2
  let tmp := add tmp one
  let c1 := add c1 tmp
  let c0 := c
  let tmp := negate tmp 3
  let c0 := add c0 tmp
  let n0 := c0
  let n0 := normalize n0
  let n0 := mulInt n0 8
  let n1 := c1
  let n1 := normalize n1
  let n1 := mulInt n1 8
  let n2 := x
  let n2 := negate n2 1
  let n2 := add n2 one
  let n2 := mulInt n2 3
  let tmp := setInt 16
  let tmp := negate tmp 1
  let n2 := add n2 tmp
  let n2 := normalize n2
  let n3 := n2
  let n2 := add n2 t
  let t := negate t 1
  let n3 := add n3 t
  let d0 := setInt 2
  let n0 := cmov n0 n1 (below (r ^^^ 1) 1)
  let n0 := cmov n0 n2 (below (r ^^^ 2) 1)
  let n0 := cmov n0 n3 (below (r ^^^ 3) 1)
  let d0 := cmov d0 c1 (below (r ^^^ 0) 1)
  let d0 := cmov d0 c0 (below (r ^^^ 1) 1)
  let q := isqrt n0 d0
  let t := q.1
  let s2 := q.2.toNat
  let t := normalize t
  let n0 := (xy2 t).1
  let s3 := (equal n0 x).toNat
  let flip := isOdd t ^^^ isOdd y
  let tmp := negate t 1
  let t := cmov t tmp flip
  (t, s1 &&& s2 &&& s3)

/-- group.h:24-29 `hsk_secp256k1_gej`. -/
structure Gej where
  x : Fe
  y : Fe
  z : Fe
  infinity : Bool

/-- group_impl.h:245-250 `gej_set_ge`. -/
def gejSetGe (a : Ge) : Gej := ⟨a.x, a.y, setInt 1, a.infinity⟩

/-- group_impl.h:94-98 `ge_neg`. -/
def geNeg (a : Ge) : Ge :=
  let y := normalizeWeak a.y
  let y := negate y 1
  ⟨a.x, y, a.infinity⟩

/-- group_impl.h:526-646 `gej_add_ge`. -/
def addGe (a : Gej) (b : Ge) : Gej :=
  let zz := sqr a.z
  let u1 := a.x
  let u1 := normalizeWeak u1
  let u2 := mul b.x zz
  let s1 := a.y
  let s1 := normalizeWeak s1
  let s2 := mul b.y zz
  let s2 := mul s2 a.z
  let t := u1
  let t := add t u2
  let m := s1
  let m := add m s2
  let rr := sqr t
  let mAlt := negate u2 1
  let tt := mul u1 mAlt
  let rr := add rr tt
  let degenerate := normalizesToZero m && normalizesToZero rr
  let rrAlt := s1
  let rrAlt := mulInt rrAlt 2
  let mAlt := add mAlt u1
  let rrAlt := cmov rrAlt rr (!degenerate).toNat
  let mAlt := cmov mAlt m (!degenerate).toNat
  let n := sqr mAlt
  let q := mul n t
  let n := sqr n
  let n := cmov n m degenerate.toNat
  let t := sqr rrAlt
  let z := mul a.z mAlt
  let infinity := normalizesToZero z && !a.infinity
  let z := mulInt z 2
  let q := negate q 1
  let t := add t q
  let t := normalizeWeak t
  let x := t
  let t := mulInt t 2
  let t := add t q
  let t := mul t rrAlt
  let t := add t n
  let y := negate t 3
  let y := normalizeWeak y
  let x := mulInt x 4
  let y := mulInt y 4
  let x := cmov x b.x a.infinity.toNat
  let y := cmov y b.y a.infinity.toNat
  let z := cmov z one a.infinity.toNat
  ⟨x, y, z, infinity⟩

/-- group_impl.h:100-111 `ge_set_gej`. -/
def geSetGej (a : Gej) : Ge :=
  let z := inv a.z
  let z2 := sqr z
  let z3 := mul z z2
  let x := mul a.x z2
  let y := mul a.y z3
  ⟨x, y, a.infinity⟩

/-- secp256k1.h:60-62 `hsk_secp256k1_pubkey`, as the two coordinates in storage. -/
structure Pubkey where
  x : Storage
  y : Storage

/-- secp256k1.c:148-160 `pubkey_save`, group_impl.h:659-668. -/
def pubkeySave (a : Ge) : Pubkey :=
  let x := normalize a.x
  let y := normalize a.y
  ⟨toStorage x, toStorage y⟩

/-- secp256k1.c:129-146 `pubkey_load`, group_impl.h:670-674. `ub`: the check fails and the process ends. -/
def pubkeyLoad (k : Pubkey) : Out Unit Ge :=
  let x := fromStorage k.x
  let y := fromStorage k.y
  if isZero x then .ub else .ok ⟨x, y, false⟩

/-- group_impl.h:222-243 `ge_set_xquad` and `ge_set_xo_var`. -/
def setXo (x : Fe) (odd : Bool) : Option Ge :=
  let x2 := sqr x
  let x3 := mul x x2
  let c := setInt 7
  let c := add c x3
  let q := sqrt c
  if !q.2 then none
  else
    let y := normalizeVar q.1
    let y := if isOdd y ≠ odd.toNat then negate y 1 else y
    some ⟨x, y, false⟩

/-- eckey_impl.h:17-35 `eckey_pubkey_parse` of 33 bytes; secp256k1.c:162-175. -/
def parse (pub : Bytes) : Option Pubkey :=
  match pub with
  | tag :: rest =>
    if pub.length = 33 ∧ (tag = 2 ∨ tag = 3) then
      let q := setB32 rest
      if q.2 then (setXo q.1 (tag == 3)).map pubkeySave else none
    else none
  | [] => none

/-- eckey_impl.h:37-53 `eckey_pubkey_serialize`, compressed; secp256k1.c:177-198. -/
def serialize (k : Pubkey) : Out Unit Bytes :=
  match pubkeyLoad k with
  | .ok q =>
    if q.infinity then .err ()
    else
      let x := normalizeVar q.x
      let y := normalizeVar q.y
      .ok ((if isOdd y ≠ 0 then 3 else 2) :: getB32 x)
  | .err e => .err e
  | .ub => .ub

/-- elligator_impl.h:429-468 `ec_pubkey_from_hash`. -/
def pubkeyFromHash (bytes64 : Bytes) : Option Pubkey :=
  let u1 := (setB32 (bytes64.take 32)).1
  let u2 := (setB32 ((bytes64.drop 32).take 32)).1
  let u1 := normalize u1
  let u2 := normalize u2
  let p1 := svdw u1
  let p2 := svdw u2
  let j := gejSetGe p1
  let r := addGe j p2
  let p1 := geSetGej r
  if p1.infinity then none else some (pubkeySave p1)

/-- ec.c:253-264: what follows the call of `pubkey_from_hash`. -/
def fromHashEnd (r : Option Pubkey) : Out Unit Bytes :=
  match r with
  | none => .err ()
  | some k => serialize k

/-- ec.c:243-265 `hsk_ec_pubkey_from_hash`. -/
def fromHash (hash : Bytes) : Out Unit Bytes := fromHashEnd (pubkeyFromHash hash)

open Verif.Ecdsa (Rng rngInit rngGenerate)

/-- elligator_impl.h:356-366 `fe_random`. -/
def feRandom : Nat → Rng → Option (Fe × Rng)
  | 0, _ => none
  | fuel + 1, rng =>
    let g := rngGenerate rng 32
    let q := setB32 g.2
    if q.2 then some (q.1, g.1) else feRandom fuel g.1

/-- elligator_impl.h:368-376 `random_int`. -/
def randomInt (rng : Rng) : Nat × Rng :=
  let g := rngGenerate rng 1
  ((g.2.getD 0 0).toNat, g.1)

/-- elligator_impl.h:494-502: a round of the loop, after `fe_random`. -/
def toHashRound (j : Gej) (u1 : Fe) (rng : Rng) : Fe × Nat × Rng :=
  let p1 := svdw u1
  let p1 := geNeg p1
  let r := addGe j p1
  let p2 := geSetGej r
  let h := randomInt rng
  let q := invert p2 h.1
  (q.1, q.2, h.2)

/-- The end of the round. -/
def toHashStep (j : Gej) (next : Rng → Option (Fe × Fe)) (d : Option (Fe × Rng)) : Option (Fe × Fe) :=
  match d with
  | none => none
  | some (u1, rng) =>
    let q := toHashRound j u1 rng
    if q.2.1 ≠ 0 then some (u1, q.1) else next q.2.2

/-- elligator_impl.h:492-504: the loop of `ec_pubkey_to_hash`. -/
def toHashLoop (j : Gej) : Nat → Rng → Option (Fe × Fe)
  | 0, _ => none
  | fuel + 1, rng => toHashStep j (toHashLoop j fuel) (feRandom (fuel + 1) rng)

/-- elligator_impl.h:506-510: what is written at the end. -/
def toHashEnd (r : Option (Fe × Fe)) : Out Unit Bytes :=
  match r with
  | some (u1, u2) =>
    let u1 := normalize u1
    let u2 := normalize u2
    .ok (getB32 u1 ++ getB32 u2)
  | none => .err ()

/-- elligator_impl.h:470-522 `ec_pubkey_to_hash`. `err` if the model gives up. -/
def pubkeyToHash (fuel : Nat) (k : Pubkey) (entropy : Bytes) : Out Unit Bytes :=
  match pubkeyLoad k with
  | .ok p => toHashEnd (toHashLoop (gejSetGe p) fuel (rngInit entropy))
  | .err e => .err e
  | .ub => .ub

/-- ec.c:220-241 `hsk_ec_pubkey_to_hash`, if the 32 random bytes `entropy` can be had. -/
def toHash (fuel : Nat) (pubkey entropy : Bytes) : Out Unit Bytes :=
  match parse pubkey with
  | none => .err ()
  | some k => pubkeyToHash fuel k entropy

end Verif.Ec52
