import Verif.Model.Blake2b
import Verif.Model.Sha3
/-
Model of the keyed hashes of src/blake2b.c and src/hash.c, and of the two other ways in which src/sha3.c
ends a hash. The daemon does not call them. Clearing memory afterwards (`secure_zero_memory`) is left out.
-/
namespace Verif.KeyedHash
open Verif.Words

/-- The parameters of hsk_blake2b_init_key (src/blake2b.c:138-149) as the bytes they are. -/
def paramsKey (outlen keylen : Nat) : Bytes :=
  [UInt8.ofNat outlen, UInt8.ofNat keylen, 1, 1] ++ leBytes 4 0 ++ leBytes 4 0 ++ leBytes 4 0 ++ [0, 0] ++ List.replicate 14 0 ++
    List.replicate 16 0 ++ List.replicate 16 0

/-- hsk_blake2b_init_key (src/blake2b.c:123-163); the key is not NULL. -/
def initKey (outlen : Nat) (key : Bytes) : Out Unit Blake2b.Ctx :=
  if outlen = 0 ∨ outlen > 64 then .err ()
  else if key.length = 0 ∨ key.length > 64 then .err ()
  else (memcpy (List.replicate 128 0) 0 key).bind fun block => Blake2b.update (Blake2b.initParam (paramsKey outlen key.length)) block

/-- hsk_hash_blake2b_key (src/hash.c:24-37), the data in any number of updates. -/
def blake2bKey (data : List Bytes) (key : Bytes) : Out Unit Bytes :=
  (Blake2b.asserted (initKey 32 key)).bind fun c => (Blake2b.updates data c).bind fun c => Blake2b.asserted (Blake2b.final c 32)

/-- The memory at a pointer, as much as is said to be there; to read more than there is is undefined. -/
def upTo (p : Option Bytes) (n : Nat) : Out Unit Bytes :=
  if n ≤ (p.getD []).length then .ok ((p.getD []).take n) else .ub

/-- hsk_blake2b (src/blake2b.c:291-329): the bytes stored. `none` is NULL, `out` says whether there is a
place for the result. What hsk_blake2b_final returns is not looked at: nothing is stored if it fails. -/
def oneShot (out : Bool) (outlen : Nat) (inp : Option Bytes) (inlen : Nat) (key : Option Bytes) (keylen : Nat) : Out Unit Bytes :=
  if inp = none ∧ inlen > 0 then .err ()
  else if !out then .err ()
  else if key = none ∧ keylen > 0 then .err ()
  else if outlen = 0 ∨ outlen > 64 then .err ()
  else if keylen > 64 then .err ()
  else
    (if keylen > 0 then (upTo key keylen).bind fun k => initKey outlen k else Blake2b.init outlen).bind fun c =>
    (upTo inp inlen).bind fun m => (Blake2b.update c m).bind fun c =>
      match Blake2b.final c outlen with
      | .err _ => .ok []
      | r => r

/-- hsk_keccak_final (src/sha3.c:379-397) and hsk_cshake_final (src/sha3.c:399-417): as hsk_sha3_final, with
`first` 0x01 and 0x04. -/
def finalWith (first : UInt8) (c : Sha3.Ctx) : Out Unit Bytes :=
  let digestLength := 100 - c.blockSize / 2
  (if Sha3.finalized c then .ok c
    else (memcpy c.message c.rest (List.replicate (c.blockSize - c.rest) 0)).bind fun m => (Sha3.orAt m c.rest first).bind fun m =>
      (Sha3.orAt m (c.blockSize - 1) 0x80).bind fun m => (Sha3.processBlock c.hash m c.blockSize).bind fun h =>
        .ok { c with message := m, hash := h, rest := 2 ^ 31 }).bind fun c =>
  if c.blockSize > digestLength then .ok ((c.hash.flatMap st64).take digestLength) else .ub

/-- hsk_keccak_final (src/sha3.c:379-397). -/
def keccakFinal : Sha3.Ctx → Out Unit Bytes := finalWith 0x01

/-- hsk_cshake_final (src/sha3.c:399-417). -/
def cshakeFinal : Sha3.Ctx → Out Unit Bytes := finalWith 0x04

/-- Init, updates and hsk_keccak_final (src/sha3.h). -/
def keccakOf (bits : Nat) (l : List (Bool × Bytes)) : Out Unit Bytes :=
  (Sha3.init bits).bind fun c => (Sha3.updates l c).bind fun c => keccakFinal c

/-- The array `mac` of hsk_hash_sha3_key (src/hash.c:89-136); `mac` is what is in the array before. -/
def macBytes (mac data key : Bytes) : Out Unit Bytes :=
  (memcpy mac 0 [0x01, 0x88]).bind fun mac =>
  (memcpy mac 2 [0x01, 0x20]).bind fun mac =>
  (memcpy mac 4 [0x4b, 0x4d, 0x41, 0x43]).bind fun mac =>
  (memcpy mac 8 [0x01, 0x00]).bind fun mac =>
  (memcpy mac 10 (List.replicate 0 0)).bind fun mac =>
  (memcpy mac 10 (List.replicate 126 0)).bind fun mac =>
  (memcpy mac 136 [0x01, 0x88]).bind fun mac =>
  (memcpy mac 138 [0x02, 0x01, 0x00]).bind fun mac =>
  (memcpy mac 141 (key.take 32)).bind fun mac =>
  (memcpy mac 173 (List.replicate 99 0)).bind fun mac =>
  (memcpy mac 272 (data.take 208)).bind fun mac =>
  memcpy mac 480 [0x01, 0x00, 0x02]

/-- hsk_hash_sha3_key (src/hash.c:75-140). `al` says whether `mac` is at a multiple of eight. -/
def sha3Key (al : Bool) (mac data key : Bytes) : Out Unit Bytes :=
  if data.length ≠ 208 then .ub
  else if key.length ≠ 32 then .ub
  else (Sha3.init 256).bind fun c => (macBytes mac data key).bind fun mac => (Sha3.update al c (mac.take 483)).bind fun c => cshakeFinal c

end Verif.KeyedHash
