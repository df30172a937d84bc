import Verif.Base
/-
Model of src/sig0.c. `now` is what hsk_now returns; it is converted to uint32_t. BLAKE2b-256
(`H`) and secp256k1 signing and verification are parameters. Allocation succeeds.
-/
namespace Verif.Sig0

/-- `get_u16be` at an offset (src/bio.h:697-708). -/
def u16 (w : Bytes) (i : Nat) : Out Unit Nat := do
  let b ← memSlice w i 2
  pure (beNat b)

/-- `get_u32be` at an offset (src/bio.h:710-723). -/
def u32 (w : Bytes) (i : Nat) : Out Unit Nat := do
  let b ← memSlice w i 4
  pure (beNat b)

/-- `get_u8` at an offset (src/bio.h:625-627). -/
def u8 (w : Bytes) (i : Nat) : Out Unit Nat := do
  let b ← memGet w i
  pure b.toNat

/-- The checks of hsk_sig0_has_sig on the last 94 bytes (src/sig0.c:28-60). -/
def checkRecord (rr : Bytes) : Out Unit Bool := do
  let name ← u8 rr 0
  let type ← u16 rr 1
  let cls ← u16 rr 3
  let ttl ← u32 rr 5
  let size ← u16 rr 9
  let covered ← u16 rr 11
  if name ≠ 0 then pure false
  else if type ≠ 24 then pure false
  else if cls ≠ 255 then pure false
  else if ttl ≠ 0 then pure false
  else if size ≠ 83 then pure false
  else if covered ≠ 0 then pure false
  else pure true

/-- hsk_sig0_has_sig (src/sig0.c:16-61). -/
def hasSig (w : Bytes) : Out Unit Bool :=
  if w.length < 94 + 12 then pure false
  else do
    let arcount ← u16 w 10
    if arcount < 1 then pure false
    else do
      let rr ← memSlice w (w.length - 94) 94
      checkRecord rr

/-- The checks of hsk_sig0_get_sig on the record data (src/sig0.c:75-117): the signature and
the key tag. -/
def readRecord (now : Int) (rd : Bytes) : Out Unit (Option (Bytes × Nat)) := do
  let covered ← u16 rd 0
  let algorithm ← u8 rd 2
  let labels ← u8 rd 3
  let origTtl ← u32 rd 4
  let expiration ← u32 rd 8
  let inception ← u32 rd 12
  let keyTag ← u16 rd 16
  let signer ← u8 rd 18
  let sig ← memSlice rd 19 64
  let now32 := (now % 2 ^ 32).toNat
  if covered ≠ 0 then pure none
  else if algorithm ≠ 253 then pure none
  else if labels ≠ 0 ∨ origTtl ≠ 0 then pure none
  else if signer ≠ 0 then pure none
  else if now32 < inception then pure none
  else if now32 > expiration then pure none
  else pure (some (sig, keyTag))

/-- hsk_sig0_get_sig (src/sig0.c:63-118). -/
def getSig (now : Int) (w : Bytes) : Out Unit (Option (Bytes × Nat)) := do
  let has ← hasSig w
  if !has then pure none
  else do
    let rd ← memSlice w (w.length - 94 + 11) 83
    readRecord now rd

/-- What hsk_sig0_sighash (src/sig0.c:121-150) hashes. -/
def preimage (w : Bytes) : Out Unit (Option Bytes) := do
  let has ← hasSig w
  if !has then pure none
  else do
    let arcount ← u16 w 10
    let rd ← memSlice w (w.length - 94 + 11) 19
    let head ← memSlice w 0 10
    let body ← memSlice w 12 (w.length - 12 - 94)
    pure (some (rd ++ head ++ beBytes 2 (arcount - 1) ++ body))

/-- The record hsk_sig0_sign appends (src/sig0.c:186-230). Times are unsigned 32-bit. -/
def record (now : Int) (sig : Bytes) : Bytes :=
  [0] ++ beBytes 2 24 ++ beBytes 2 255 ++ beBytes 4 0 ++ beBytes 2 83 ++
  (beBytes 2 0 ++ [253] ++ [0] ++ beBytes 4 0 ++ beBytes 4 ((now + 21600) % 2 ^ 32).toNat ++
    beBytes 4 ((now - 21600) % 2 ^ 32).toNat ++ beBytes 2 0 ++ [0] ++ sig)

/-- The additional count and the bytes to sign: without the record of a message that has
one (src/sig0.c:166-175). -/
def strip (w : Bytes) (has : Bool) (arcount : Nat) : Bytes × Nat :=
  if has then (w.take (w.length - 94), ((arcount + 1) % 65536 + 65535) % 65536) else (w, (arcount + 1) % 65536)

/-- hsk_sig0_sign (src/sig0.c:154-251); `signer` is hsk_ec_sign_msg with the key. The buffer
is built in one go instead of field by field, first with a zero signature. -/
def sign (H : Bytes → Bytes) (signer : Bytes → Option Bytes) (now : Int) (w : Bytes) : Out Unit (Option Bytes) :=
  if w.length < 12 then pure none
  else do
    let arcount ← u16 w 10
    let has ← hasSig w
    let (w, arcount) := strip w has arcount
    let o := w.take 10 ++ beBytes 2 arcount ++ w.drop 12
    let pre ← preimage (o ++ record now (List.replicate 64 0))
    match pre with
    | none => pure none
    | some p => match signer (H p) with
      | none => pure none
      | some sig => pure (some (o ++ record now sig))

/-- hsk_sig0_verify (src/sig0.c:254-271); `check` is hsk_ec_verify_msg with the key. `ub` is
the assertion that the digest exists. -/
def verify (H : Bytes → Bytes) (check : Bytes → Bytes → Bool) (now : Int) (w : Bytes) : Out Unit Bool := do
  let r ← getSig now w
  match r with
  | none => pure false
  | some (sig, _) => do
    let pre ← preimage w
    match pre with
    | none => .ub
    | some p => pure (check (H p) sig)

end Verif.Sig0
