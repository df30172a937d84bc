import Verif.Model.Ec
import Verif.Spec.Hmac
import Verif.Lemmas.SecpOrder
/-
Model of signing and verifying in `src/ec.c`, with `ecdsa_impl.h`, `recovery_impl.h`, the signature part of
`secp256k1.c` and the generator of `hash_impl.h` behind them. A scalar is its residue modulo `n`; its arithmetic is
that of the residues. `ecmult` and `ecmult_gen` are the multiplication in Mathlib's group. HMAC is that of the
standard (C79). A parsed signature is its two scalars.
-/
namespace Verif.Ecdsa
open Verif Verif.Spec.Secp Verif.Elligator Verif.Ec Verif.Spec.Hmac

instance : Fact (Nat.Prime n) := ⟨Verif.Lemmas.SecpOrder.n_prime⟩

/-- The integers modulo `n`. -/
abbrev S := ZMod n

/-- `scalar_set_b32`, with the overflow flag. -/
def setS (b : Bytes) : S × Bool := (((beNat b : Nat) : S), decide (n ≤ beNat b))

/-- `scalar_get_b32`. -/
def getS (s : S) : Bytes := beBytes 32 s.val

/-- `scalar_is_high` (scalar_4x64_impl.h:156-166): more than half of the order. -/
def isHigh (s : S) : Bool := decide (n / 2 < s.val)

/-! ### The generator -/

/-- hash.h:31-35 `hsk_secp256k1_rfc6979_hmac_sha256`. -/
structure Rng where
  v : Bytes
  k : Bytes
  retry : Bool

/-- hash_impl.h:206-234 `rfc6979_hmac_sha256_initialize`. -/
def rngInit (key : Bytes) : Rng :=
  let v := List.replicate 32 1
  let k := List.replicate 32 0
  let k := hmac k (v ++ [0] ++ key)
  let v := hmac k v
  let k := hmac k (v ++ [1] ++ key)
  let v := hmac k v
  ⟨v, k, false⟩

/-- The loop of hash_impl.h:250-262. -/
def rngLoop (k : Bytes) : Nat → Bytes → Nat → Bytes × Bytes
  | 0, v, _ => (v, [])
  | f + 1, v, len =>
    if 0 < len then
      let v := hmac k v
      let now := if len > 32 then 32 else len
      let r := rngLoop k f v (len - now)
      (r.1, v.take now ++ r.2)
    else (v, [])

/-- hash_impl.h:236-265 `rfc6979_hmac_sha256_generate`. -/
def rngGenerate (g : Rng) (len : Nat) : Rng × Bytes :=
  let g := if g.retry then
      let k := hmac g.k (g.v ++ [0])
      { g with k := k, v := hmac k g.v }
    else g
  let r := rngLoop g.k len g.v len
  ({ g with v := r.1, retry := true }, r.2)

/-- The loop of secp256k1.c:350-352. -/
def nonceLoop (g : Rng) : Nat → Bytes
  | 0 => (rngGenerate g 32).2
  | k + 1 => nonceLoop (rngGenerate g 32).1 k

/-- secp256k1.c:327-355 `nonce_function_rfc6979`, without extra data, without an algorithm's name. -/
def nonce (msg key : Bytes) (counter : Nat) : Bytes := nonceLoop (rngInit (key ++ msg)) counter

/-! ### Signing -/

/-- ecdsa_impl.h:271-312 `ecdsa_sig_sign`. -/
noncomputable def sigSign (seckey message nonce : S) : Option (S × S × Nat) :=
  let r := affine (nonce.val • G)
  let (sigr, overflow) := setS (getB32 r.x)
  let recid := (if overflow then 2 else 0) ||| (if isOdd r.y then 1 else 0)
  let m := sigr * seckey
  let m := m + message
  let sigs := nonce⁻¹
  let sigs := sigs * m
  if sigs = 0 then none
  else if isHigh sigs then some (sigr, -sigs, recid ^^^ 1)
  else some (sigr, sigs, recid)

/-- The loop of recovery_impl.h:144-156; `noncefp` is the function for the random number with message and key,
`fuel` the number of rounds after which the model gives up. -/
noncomputable def signLoop (noncefp : Nat → Bytes) (sec msg : S) : Nat → Nat → Option (S × S × Nat)
  | 0, _ => none
  | f + 1, count =>
    let (non, overflow) := setS (noncefp count)
    if non ≠ 0 ∧ overflow = false then
      match sigSign sec msg non with
      | some r => some r
      | none => signLoop noncefp sec msg f (count + 1)
    else signLoop noncefp sec msg f (count + 1)

/-- recovery_impl.h:123-168 `ecdsa_sign_recoverable`. -/
noncomputable def signRecoverable (noncefp : Nat → Bytes) (fuel : Nat) (msg seckey : Bytes) : Option (S × S × Nat) :=
  let (sec, overflow) := setS seckey
  if overflow = false ∧ sec ≠ 0 then signLoop noncefp sec (setS msg).1 fuel 0
  else none

/-- ec.c:92-121 `hsk_ec_sign_msg` with any function for the random number. -/
noncomputable def signWith (noncefp : Nat → Bytes) (fuel : Nat) (key msg : Bytes) : Option (Bytes × Nat) :=
  match signRecoverable noncefp fuel msg key with
  | none => none
  | some (r, s, rec) => some (getS r ++ getS s, rec)

/-- ec.c:92-121 `hsk_ec_sign_msg`: the signature and the number for recovery. -/
noncomputable def signMsg (fuel : Nat) (key msg : Bytes) : Option (Bytes × Nat) := signWith (nonce msg key) fuel key msg

/-! ### Verifying -/

/-- secp256k1.c:240-259 `ecdsa_signature_parse_compact`. -/
def parseCompact (sig : Bytes) : Option (S × S) :=
  let (r, o1) := setS (sig.take 32)
  let (s, o2) := setS ((sig.drop 32).take 32)
  if !o1 && !o2 then some (r, s) else none

/-- ecdsa_impl.h:201-269 `ecdsa_sig_verify`. -/
noncomputable def sigVerify (sigr sigs : S) (pubkey : Point) (message : S) : Bool :=
  if sigr = 0 ∨ sigs = 0 then false
  else
    let sn := sigs⁻¹
    let u1 := sn * message
    let u2 := sn * sigr
    match u2.val • pubkey + u1.val • G with
    | .zero => false
    | .some x _ _ =>
      let xr := (setB32 (getS sigr)).1
      if xr = x then true
      else if p - n ≤ xr.val then false
      else decide (xr + ((n : Nat) : F) = x)

/-- secp256k1.c:305-320 `ecdsa_verify`; a point off the curve has no multiples. -/
noncomputable def ecdsaVerify (sig : S × S) (msg : Bytes) (pub : F × F) : Out Unit Bool :=
  let m := (setS msg).1
  if isHigh sig.2 then .ok false
  else match pubkeyLoad pub with
    | .ok q =>
      if h : q.y ^ 2 = q.x ^ 3 + 7 then
        .ok (sigVerify sig.1 sig.2 (.some q.x q.y ((on_iff _ _).2 h)) m)
      else .ub
    | .err e => .err e
    | .ub => .ub

/-- ec.c:123-146 `hsk_ec_verify_msg`. -/
noncomputable def verifyMsg (pubkey msg sig : Bytes) : Out Unit Bool :=
  match parseCompact sig with
  | none => .ok false
  | some s =>
    match parse pubkey with
    | none => .ok false
    | some pub => ecdsaVerify s msg pub

end Verif.Ecdsa
