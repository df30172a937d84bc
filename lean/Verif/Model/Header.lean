import Verif.Model.Bio
import Verif.Model.Bn
import Verif.Model.Mem
/-
Model of src/header.c: the wire format, compact difficulty, work, header hash
and proof-of-work check.
Simplifications: the fields `cache`/`hash` memoise `headerHash` and are not
state of the model; `height`/`work` live in the chain model's entries; `next` is
only a scratch link (src/chain.c:521-573).
The hash functions BLAKE2b-256, BLAKE2b-512 and SHA3-256 are parameters.
-/
namespace Verif.Header
open Verif.Bio

/-- hsk_header_t (src/header.h:11-37), wire fields. -/
structure Hdr where
  nonce : Nat
  time : Nat
  prevBlock : Bytes
  nameRoot : Bytes
  extraNonce : Bytes
  reservedRoot : Bytes
  witnessRoot : Bytes
  merkleRoot : Bytes
  version : Nat
  bits : Nat
  mask : Bytes
  deriving Repr, DecidableEq

/-- hsk_header_read (src/header.c:203-239), hsk_header_decode (241-244). -/
def read (s : Bytes) : Rd Hdr := do
  let (nonce, s) ← readU32 s
  let (time, s) ← readU64 s
  let (prevBlock, s) ← readBytes 32 s
  let (nameRoot, s) ← readBytes 32 s
  let (extraNonce, s) ← readBytes 24 s
  let (reservedRoot, s) ← readBytes 32 s
  let (witnessRoot, s) ← readBytes 32 s
  let (merkleRoot, s) ← readBytes 32 s
  let (version, s) ← readU32 s
  let (bits, s) ← readU32 s
  let (mask, s) ← readBytes 32 s
  pure (⟨nonce, time, prevBlock, nameRoot, extraNonce, reservedRoot, witnessRoot, merkleRoot,
    version, bits, mask⟩, s)

/-- hsk_header_write (src/header.c:246-261). -/
def write (h : Hdr) : Bytes :=
  writeU32 h.nonce ++ writeU64 h.time ++ h.prevBlock ++ h.nameRoot ++ h.extraNonce ++
    h.reservedRoot ++ h.witnessRoot ++ h.merkleRoot ++ writeU32 h.version ++ writeU32 h.bits ++
    h.mask

/-- The loop of hsk_pow_to_target (src/header.c:96-101): `slots` = i + 1 bytes are
still free above `acc`; returns the mantissa left over and the 32 bytes. -/
def fillTarget : Nat → Nat → Bytes → Nat × Bytes
  | 0, m, acc => (m, acc)
  | n + 1, m, acc =>
    if m = 0 then (0, List.replicate (n + 1) 0 ++ acc)
    else fillTarget n (m / 256) (UInt8.ofNat m :: acc)

/-- hsk_pow_to_target (src/header.c:71-108); `none` is `false`. -/
def powToTarget (bits : Nat) : Option Bytes :=
  if bits = 0 then none
  else if bits / 2 ^ 23 % 2 = 1 then none
  else
    let exponent := bits / 2 ^ 24
    let mantissa := bits % 2 ^ 23
    let mantissa' := if exponent ≤ 3 then mantissa / 2 ^ (8 * (3 - exponent)) else mantissa
    let shift := if exponent ≤ 3 then 0 else (exponent - 3) % 32
    let r := fillTarget (32 - shift) mantissa' (List.replicate shift 0)
    if r.1 ≠ 0 then none else some r.2

/-- The index of the first nonzero byte (src/header.c:116-119). -/
def leadingZeros : Bytes → Nat
  | [] => 0
  | b :: r => if b = 0 then leadingZeros r + 1 else 0

/-- The mantissa before normalisation (src/header.c:128-146); `i` is the index of
the first nonzero byte of a 32-byte target. -/
def rawMantissa (target : Bytes) (i : Nat) : Nat :=
  let exponent := 32 - i
  let at_ (k : Nat) : Nat := (target.getD k 0).toNat
  if exponent ≤ 3 then
    ((if exponent ≥ 3 then at_ 29 * 2 ^ 16 else 0) + (if exponent ≥ 2 then at_ 30 * 2 ^ 8 else 0)
      + at_ 31) * 2 ^ (8 * (3 - exponent))
  else
    ((target.drop i).take (32 - (exponent - 3) - i)).foldl (fun m b => m * 2 ^ 8 + b.toNat) 0

/-- hsk_pow_to_bits (src/header.c:110-156) for a 32-byte target. -/
def powToBits (target : Bytes) : Nat :=
  let i := leadingZeros target
  let exponent := 32 - i
  if exponent = 0 then 0
  else
    let m := rawMantissa target i
    if m / 2 ^ 23 % 2 = 1 then (exponent + 1) * 2 ^ 24 + m / 2 ^ 8
    else exponent * 2 ^ 24 + m

/-- hsk_header_get_proof (src/header.c:158-179): `err` is `false`; `ub` would be
the division loop not ending. -/
def getProof (bits : Nat) : Out Unit Bytes :=
  match powToTarget bits with
  | none => .err ()
  | some target =>
    match Bn.div (Bn.lshift (Bn.fromInt 1) 256) (Bn.inc (Bn.fromArray target)) with
    | none => .ub
    | some q => .ok (Bn.toArray q 32)

/-- hsk_header_calc_work (src/header.c:181-201); `prevWork = none` is a null
`prev`. -/
def calcWork (bits : Nat) (prevWork : Option Bytes) : Out Unit Bytes :=
  match prevWork with
  | none => getProof bits
  | some w => do
    let proof ← getProof bits
    pure (Bn.toArray (Bn.add (Bn.fromArray w) (Bn.fromArray proof)) 32)

/-- The hash functions used by the header (src/hash.c, blake2b.c, sha3.c). -/
structure Hashes where
  blake256 : Bytes → Bytes
  blake512 : Bytes → Bytes
  sha3 : Bytes → Bytes

/-- hsk_header_padding (src/header.c:355-363); both inputs have 32 bytes. -/
def padding (h : Hdr) (size : Nat) : Bytes :=
  (List.range size).map fun i => (h.prevBlock.getD (i % 32) 0) ^^^ (h.nameRoot.getD (i % 32) 0)

/-- hsk_header_sub_write (src/header.c:301-311). -/
def subEncode (h : Hdr) : Bytes :=
  h.extraNonce ++ h.reservedRoot ++ h.witnessRoot ++ h.merkleRoot ++ writeU32 h.version ++
    writeU32 h.bits

/-- The bytes hashed by hsk_header_mask_hash (src/header.c:331-338). -/
def maskInput (h : Hdr) : Bytes := h.prevBlock ++ h.mask

/-- The bytes hashed by hsk_header_commit_hash (src/header.c:340-353), with
hsk_header_sub_hash (323-329). -/
def commitInput (H : Hashes) (h : Hdr) : Bytes :=
  H.blake256 (subEncode h) ++ H.blake256 (maskInput h)

/-- hsk_header_pre_write (src/header.c:273-289). -/
def preEncode (H : Hashes) (h : Hdr) : Bytes :=
  writeU32 h.nonce ++ writeU64 h.time ++ padding h 20 ++ h.prevBlock ++ h.nameRoot ++
    H.blake256 (commitInput H h)

/-- The bytes given to the last BLAKE2b of hsk_header_cache
(src/header.c:386-403). -/
def finalInput (H : Hashes) (h : Hdr) : Bytes :=
  H.blake512 (preEncode H h) ++ padding h 32 ++ H.sha3 (preEncode H h ++ padding h 8)

/-- hsk_header_cache / hsk_header_hash (src/header.c:370-420). -/
def headerHash (H : Hashes) (h : Hdr) : Bytes :=
  List.zipWith (· ^^^ ·) (H.blake256 (finalInput H h)) h.mask

/-- Error codes of hsk_header_verify_pow (src/error.h). -/
inductive PowErr | negTarget | highHash
  deriving Repr, DecidableEq

/-- hsk_header_verify_pow (src/header.c:422-437) for a header whose (memoised)
hash is `hash`. -/
def verifyPowHash (bits : Nat) (hash : Bytes) : Except PowErr Unit :=
  match powToTarget bits with
  | none => .error .negTarget
  | some target => if memcmp hash target > 0 then .error .highHash else .ok ()

/-- hsk_header_verify_pow (src/header.c:422-437). -/
def verifyPow (H : Hashes) (h : Hdr) : Except PowErr Unit :=
  verifyPowHash h.bits (headerHash H h)

end Verif.Header
