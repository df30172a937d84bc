import Verif.Model.EcmultGen
/-
Model of `src/secp256k1/ecmult_impl.h`: the sum of multiples of a point and of the base point, with digits that are odd or 0 and
tables of odd multiples, and of verifying over it (`src/secp256k1/ecdsa_impl.h`, `src/secp256k1/secp256k1.c`, `src/ec.c`). Built without
endomorphism: WINDOW_A is 5, WINDOW_G is 16 (src/secp256k1/ecmult_impl.h:33-43); the tables have 8 and 16384 points.

* Numbers of type `int` are integers; they stay small.
* Memory that is not initialised is the parameter `J`.
-/
namespace Verif.Ecmult
open Verif Verif.Field52 Verif.Ec52 Verif.EcmultConst Verif.EcmultGen
open Verif.Scalar64 (Sc)

/-- gej_add_zinv_var (src/secp256k1/group_impl.h:469-519). `r` is what `*r` holds before the call. -/
def addZinvVar (r a : Gej) (b : Ge) (bzinv : Fe) : Gej :=
  if b.infinity then a
  else if a.infinity then
    let bzinv2 := sqr bzinv
    let bzinv3 := mul bzinv2 bzinv
    ⟨mul b.x bzinv2, mul b.y bzinv3, setInt 1, b.infinity⟩
  else
    let az := mul a.z bzinv
    let z12 := sqr az
    let u1 := a.x
    let u1 := normalizeWeak u1
    let u2 := mul b.x z12
    let s1 := a.y
    let s1 := normalizeWeak s1
    let s2 := mul b.y z12
    let s2 := mul s2 az
    let h := negate u1 1
    let h := add h u2
    let i := negate s1 1
    let i := add i s2
    (addFin r a u1 s1 h i h).1

/-! ### The table of the base point -/

/-- ge_set_table_gej_var (src/secp256k1/group_impl.h:155-171), from the end to the start: the points, and the factor that the one before
is multiplied with. `z` is the third coordinate of the last point. -/
def setTable (z : Fe) : List (Gej × Fe) → List Ge × Fe
  | [] => ([], setInt 0)
  | [(a, zr)] =>
    let zi := inv z
    ([setGejZinv a zi], mul zi zr)
  | (a, zr) :: q :: l =>
    let t := setTable z (q :: l)
    (setGejZinv a t.2 :: t.1, mul t.2 zr)

/-- ecmult_odd_multiples_table_storage_var (src/secp256k1/ecmult_impl.h:139-157) and ecmult_odd_multiples_table (src/secp256k1/ecmult_impl.h:78-112)
for `k + 1` points. -/
def storageTable (J : Junk) (k : Nat) (a : Gej) : List Pubkey :=
  let d := (doubleVar a).1
  let dGe : Ge := ⟨d.x, d.y, false⟩
  let aGe := setGejZinv a d.z
  let p0 : Gej := ⟨aGe.x, aGe.y, a.z, false⟩
  let l := oddRest J dGe k p0
  (setTable (mul (lastZ p0.z l) d.z) ((p0, d.z) :: l)).1.map pubkeySave

/-- ecmult_context_build (src/secp256k1/ecmult_impl.h:191-221). -/
def preG (J : Junk) : List Pubkey := storageTable J 16383 (gejSetGe constG)

/-! ### Digits -/

/-- The loop of ecmult_wnaf (src/secp256k1/ecmult_impl.h:281-303), for `len` 256: the digits from `bit` on, and one more than the last position that was
set. The first argument bounds the rounds. The array, which was filled with 0, is the list. -/
def wnafLoop (w : Nat) (s : Sc) (sign : Int) : Nat → Nat → Nat → Nat → List Int × Nat
  | 0, _, _, last => ([], last)
  | fuel + 1, bit, carry, last =>
    if bit < 256 then
      if Scalar64.getBits s bit 1 = carry then
        let t := wnafLoop w s sign fuel (bit + 1) carry last
        (0 :: t.1, t.2)
      else
        let now := if w > 256 - bit then 256 - bit else w
        let word := Scalar64.getBitsVar s bit now + carry
        let carry := (word >>> (w - 1)) &&& 1
        let t := wnafLoop w s sign fuel (bit + now) carry (bit + 1)
        ((sign * ((word : Int) - (carry <<< w : Nat))) :: (List.replicate (now - 1) 0 ++ t.1), t.2)
    else ([], last)

/-- ecmult_wnaf (src/secp256k1/ecmult_impl.h:262-311) for `len` 256. -/
def wnaf (w : Nat) (a : Sc) : List Int × Nat :=
  if Scalar64.getBits a 255 1 ≠ 0 then wnafLoop w (Scalar64.negate a) (-1) 256 0 0 0
  else wnafLoop w a 1 256 0 0 0

/-! ### The sum -/

/-- ECMULT_TABLE_GET_GE (src/secp256k1/ecmult_impl.h:161-170). The index is within the table where the theorems use it. -/
def getGe (J : Junk) (pre : List Ge) (n : Int) : Ge :=
  if n > 0 then pre.getD ((n - 1) / 2).toNat J.ge
  else geNeg (pre.getD ((-n - 1) / 2).toNat J.ge)

/-- ECMULT_TABLE_GET_GE_STORAGE (src/secp256k1/ecmult_impl.h:172-182). -/
def getStored (J : Junk) (pre : List Pubkey) (n : Int) : Ge :=
  if n > 0 then geFromStorage (pre.getD ((n - 1) / 2).toNat (pubkeySave J.ge))
  else geNeg (geFromStorage (pre.getD ((-n - 1) / 2).toNat (pubkeySave J.ge)))

/-- One turn for the point (src/secp256k1/ecmult_impl.h:469-474). -/
def stepA (J : Junk) (pre : List Ge) (wa : List Int × Nat) (i : Nat) (r : Gej) : Gej :=
  if i < wa.2 ∧ wa.1.getD i 0 ≠ 0 then (addGeVar r r (getGe J pre (wa.1.getD i 0))).1 else r

/-- One turn for the base point (src/secp256k1/ecmult_impl.h:475-478). -/
def stepG (J : Junk) (pre : List Pubkey) (z : Fe) (wg : List Int × Nat) (i : Nat) (r : Gej) : Gej :=
  if i < wg.2 ∧ wg.1.getD i 0 ≠ 0 then addZinvVar r r (getStored J pre (wg.1.getD i 0)) z else r

/-- The loop of ecmult_strauss_wnaf (src/secp256k1/ecmult_impl.h:446-480), with the number of turns left. -/
def straussLoop (J : Junk) (preA : List Ge) (pg : List Pubkey) (z : Fe) (wa wg : List Int × Nat) : Nat → Gej → Gej
  | 0, r => r
  | i + 1, r => straussLoop J preA pg z wa wg i (stepG J pg z wg i (stepA J preA wa i (doubleVar r).1))

/-- The end of ecmult_strauss_wnaf (src/secp256k1/ecmult_impl.h:482-484). -/
def straussEnd (r : Gej) (z : Fe) : Gej := if !r.infinity then ⟨r.x, r.y, mul r.z z, r.infinity⟩ else r

/-- ecmult_strauss_wnaf (src/secp256k1/ecmult_impl.h:337-485) for one point, which is how ecmult (src/secp256k1/ecmult_impl.h:487-505) calls it. `pg` is
the table of the base point. A point at infinity, or the number 0, is left out. -/
def ecmult (J : Junk) (pg : List Pubkey) (a : Gej) (na ng : Sc) : Gej :=
  let wg := wnaf 16 ng
  if Scalar64.isZero na || a.infinity then
    straussEnd (straussLoop J [] pg (setInt 1) ([], 0) wg wg.2 gejInfinity) (setInt 1)
  else
    let wa := wnaf 5 na
    let t := oddTable J a
    straussEnd (straussLoop J t.1 pg t.2 wa wg (max wa.2 wg.2) gejInfinity) t.2

/-! ### Verifying -/

/-- ecdsa_const_order_as_fe (src/secp256k1/ecdsa_impl.h:31-34). -/
def orderAsFe : Fe := feConst 0xFFFFFFFF 0xFFFFFFFF 0xFFFFFFFF 0xFFFFFFFE 0xBAAEDCE6 0xAF48A03B 0xBFD25E8C 0xD0364141

/-- ecdsa_const_p_minus_order (src/secp256k1/ecdsa_impl.h:46-48). -/
def pMinusOrder : Fe := feConst 0 0 0 1 0x45512319 0x50B75FC4 0x402DA172 0x2FC9BAEE

/-- The comparison at the end of ecdsa_sig_verify (src/secp256k1/ecdsa_impl.h:235-267). -/
def matchX (sigr : Sc) (pr : Gej) : Bool :=
  let c := Scalar64.getB32 sigr
  let xr := (Field52.setB32 c).1
  if gejEqX xr pr then true
  else if cmpVar xr pMinusOrder ≥ 0 then false
  else gejEqX (add xr orderAsFe) pr

/-- ecdsa_sig_verify (src/secp256k1/ecdsa_impl.h:201-269). -/
def sigVerify (J : Junk) (pg : List Pubkey) (sigr sigs : Sc) (pubkey : Ge) (message : Sc) : Bool :=
  if Scalar64.isZero sigr || Scalar64.isZero sigs then false
  else
    let sn := Scalar64.inverse sigs
    let u1 := Scalar64.mul sn message
    let u2 := Scalar64.mul sn sigr
    let pr := ecmult J pg (gejSetGe pubkey) u2 u1
    if pr.infinity then false else matchX sigr pr

/-- ecdsa_signature_parse_compact (src/secp256k1/secp256k1.c:240-259). -/
def parseCompact (sig : Bytes) : Option (Sc × Sc) :=
  let r := Scalar64.setB32 (sig.take 32)
  let s := Scalar64.setB32 ((sig.drop 32).take 32)
  if !decide (r.2 ≠ 0) && !decide (s.2 ≠ 0) then some (r.1, s.1) else none

/-- ecdsa_verify (src/secp256k1/secp256k1.c:305-320). The signature is kept as the memory of its two scalars. -/
def ecdsaVerify (J : Junk) (pg : List Pubkey) (sig : Sc × Sc) (msg : Bytes) (pub : Pubkey) : Out Unit Bool :=
  let m := (Scalar64.setB32 msg).1
  if Scalar64.isHigh sig.2 then .ok false
  else match pubkeyLoad pub with
    | .ok q => .ok (sigVerify J pg sig.1 sig.2 q m)
    | .err e => .err e
    | .ub => .ub

/-- hsk_ec_verify_msg (src/ec.c:123-146). -/
def verifyMsg (J : Junk) (pg : List Pubkey) (pubkey msg sig : Bytes) : Out Unit Bool :=
  match parseCompact sig with
  | none => .ok false
  | some s =>
    match parse pubkey with
    | none => .ok false
    | some pub => ecdsaVerify J pg s msg pub

end Verif.Ecmult
