import Verif.Model.EcmultTable
import Verif.Model.EcmultConst
import Verif.Model.Ecdsa
/-
Model of `src/secp256k1/ecmult_gen_impl.h`: the product of the base point and a secret number, with the table of
`src/secp256k1/ecmult_static_context.h` (the default, HSK_USE_ECMULT_STATIC_PRECOMPUTATION), the blinding of the
context, and public keys over it (`src/secp256k1/secp256k1.c`, `src/ec.c`).
-/
namespace Verif.EcmultGen
open Verif Verif.Field52 Verif.Ec52
open Verif.Scalar64 (Sc)
open Verif.Ecdsa (Rng rngInit rngGenerate)

/-- hsk_secp256k1_ecmult_gen_context (src/secp256k1/ecmult_gen.h:26-28), without the pointer to the table. -/
structure Ctx where
  blind : Sc
  initial : Gej

/-- ge_storage_cmov (src/secp256k1/group_impl.h:676-679). -/
def geStorageCmov (r a : Pubkey) (flag : Nat) : Pubkey := ⟨storageCmov r.x a.x flag, storageCmov r.y a.y flag⟩

/-- ge_from_storage (src/secp256k1/group_impl.h:670-674). -/
def geFromStorage (a : Pubkey) : Ge := ⟨fromStorage a.x, fromStorage a.y, false⟩

/-- The inner loop of ecmult_gen (src/secp256k1/ecmult_gen_impl.h:137-149). -/
def pick (bits : Nat) : Nat → List Pubkey → Pubkey → Pubkey
  | _, [], adds => adds
  | i, e :: l, adds => pick bits (i + 1) l (geStorageCmov adds e (decide (i = bits)).toNat)

/-- A turn of the outer loop of ecmult_gen (src/secp256k1/ecmult_gen_impl.h:136-151), on `adds` and `r`. -/
def genStep (gnb : Sc) (j : Nat) (row : List Pubkey) (s : Pubkey × Gej) : Pubkey × Gej :=
  let bits := Scalar64.getBits gnb (j * 4) 4
  let adds := pick bits 0 row s.1
  (adds, addGe s.2 (geFromStorage adds))

/-- The outer loop of ecmult_gen (src/secp256k1/ecmult_gen_impl.h:135-152). -/
def genLoop (gnb : Sc) : Nat → List (List Pubkey) → Pubkey × Gej → Pubkey × Gej
  | _, [], s => s
  | j, row :: rows, s => genLoop gnb (j + 1) rows (genStep gnb j row s)

/-- ecmult_gen (src/secp256k1/ecmult_gen_impl.h:124-156). -/
def ecmultGen (ctx : Ctx) (gn : Sc) : Gej :=
  let gnb := (Scalar64.add gn ctx.blind).1
  (genLoop gnb 0 table (⟨⟨0, 0, 0, 0⟩, ⟨0, 0, 0, 0⟩⟩, ctx.initial)).2

/-- The first loop of ecmult_gen_blind (src/secp256k1/ecmult_gen_impl.h:186-190). `fuel` bounds the number of turns, which the
code does not. -/
def drawField : Nat → Rng → Option (Rng × Fe)
  | 0, _ => none
  | fuel + 1, rng =>
    let g := rngGenerate rng 32
    let s := setB32 g.2
    let retry := !s.2 || isZero s.1
    if retry then drawField fuel g.1 else some (g.1, s.1)

/-- The second loop of ecmult_gen_blind (src/secp256k1/ecmult_gen_impl.h:194-199). -/
def drawScalar : Nat → Rng → Option Sc
  | 0, _ => none
  | fuel + 1, rng =>
    let g := rngGenerate rng 32
    let b := Scalar64.setB32 g.2
    let retry := decide (b.2 ≠ 0) || Scalar64.isZero b.1
    if retry then drawScalar fuel g.1 else some b.1

/-- ge_const_g (src/secp256k1/group_impl.h:64-69). -/
def constG : Ge :=
  ⟨feConst 0x79BE667E 0xF9DCBBAC 0x55A06295 0xCE870B07 0x029BFCDB 0x2DCE28D9 0x59F2815B 0x16F81798,
   feConst 0x483ADA77 0x26A3C465 0x5DA4FBFC 0x0E1108A8 0xFD17B448 0xA6855419 0x9C47D08F 0xFB10D4B8, false⟩

/-- ecmult_gen_blind (src/secp256k1/ecmult_gen_impl.h:159-208). `none`: a loop has taken `fuel` turns. -/
def blind (fuel : Nat) (ctx : Ctx) (seed : Option Bytes) : Option Ctx :=
  let ctx : Ctx := if seed.isNone then ⟨Scalar64.setInt 1, gejNeg (gejSetGe constG)⟩ else ctx
  let nonce := Scalar64.getB32 ctx.blind
  let rng := rngInit (nonce ++ seed.getD [])
  match drawField fuel rng with
  | none => none
  | some (rng, s) =>
    let ctx := { ctx with initial := rescale ctx.initial s }
    match drawScalar fuel rng with
    | none => none
    | some b =>
      let gb := ecmultGen ctx b
      let b := Scalar64.negate b
      some ⟨b, gb⟩

/-- ecmult_gen_context_build (src/secp256k1/ecmult_gen_impl.h:21-92) on a new context, whose memory holds `mem`. hsk_ec_alloc (src/ec.c:14-18)
calls it through context_create (src/secp256k1/secp256k1.c:59-82). -/
def build (fuel : Nat) (mem : Ctx) : Option Ctx := blind fuel mem none

/-- hsk_ec_randomize (src/ec.c:32-36) and context_randomize (src/secp256k1/secp256k1.c:562-567). -/
def randomize (fuel : Nat) (ctx : Ctx) (seed : Bytes) : Option Ctx := blind fuel ctx (some seed)

/-- hsk_secp256k1_ec_seckey_verify (src/secp256k1/secp256k1.c:406-417). -/
def verifyPrivkey (key : Bytes) : Bool :=
  let sec := Scalar64.setB32 key
  !decide (sec.2 ≠ 0) && !Scalar64.isZero sec.1

/-- hsk_secp256k1_ec_pubkey_create (src/secp256k1/secp256k1.c:419-440). -/
def pubkeyCreate (ctx : Ctx) (key : Bytes) : Option Pubkey :=
  let sec := Scalar64.setB32 key
  if !decide (sec.2 ≠ 0) && !Scalar64.isZero sec.1 then
    some (pubkeySave (geSetGej (ecmultGen ctx sec.1)))
  else none

/-- hsk_ec_create_pubkey (src/ec.c:72-90). -/
def createPubkey (ctx : Ctx) (key : Bytes) : Out Unit Bytes :=
  match pubkeyCreate ctx key with
  | none => .err ()
  | some pub => serialize pub

end Verif.EcmultGen
