import Verif.Model.Sha256
/-
Model of the SHA-256 part of src/hash.c. The contexts and buffers on the stack have arbitrary contents
(`mem`) before they are written; the alignment of the pointers handed to the calls (`al`) is arbitrary.
-/
namespace Verif.Hash
open Verif.Words

/-- hsk_hash_sha256 (src/hash.c:149-156). -/
def sha256 (al : Nat → Bool) (mem data : Bytes) : Out Unit Bytes := Sha256.hashOf mem [(al 0, data)] (al 1)

/-- hsk_hash_hash256 (src/hash.c:158-168). -/
def hash256 (al : Nat → Bool) (mem data : Bytes) : Out Unit Bytes :=
  (Sha256.updates [(al 0, data)] (Sha256.init mem)).bind fun c =>
  (Sha256.final (al 1) c).bind fun hash =>
    -- the context is used again, with what is left in its memory
    Sha256.hashOf c.message [(al 2, hash)] (al 3)

/-- The two loops which fill `pad` (src/hash.c:193-197, 202-206). -/
def padWith (key : Bytes) (x : UInt8) : Bytes := key.map (· ^^^ x) ++ List.replicate (64 - key.length) x

/-- hsk_hash_sha256_hmac (src/hash.c:170-218). -/
def hmac (al : Nat → Bool) (mem : Nat → Bytes) (data key : Bytes) : Out Unit Bytes :=
  (if key.length > 64 then sha256 al (mem 0) key else .ok key).bind fun key =>
  (Sha256.update (al 2) (Sha256.init (mem 1)) (padWith key 0x36)).bind fun inner =>
  (Sha256.update (al 3) (Sha256.init (mem 2)) (padWith key 0x5c)).bind fun outer =>
  (Sha256.update (al 4) inner data).bind fun inner =>
  (Sha256.final (al 5) inner).bind fun mac =>
  (Sha256.update (al 6) outer mac).bind fun outer =>
    Sha256.final (al 7) outer

/-- hsk_hash_hkdf (src/hash.c:220-261); `buf` is what the array of that name holds at first. -/
def hkdf (al : Nat → Bool) (mem : Nat → Bytes) (buf secret salt info : Bytes) : Out Unit (Bytes × Bytes) :=
  if info.length > 512 then .ub else
  (hmac al mem secret salt).bind fun prk =>
  (memcpy buf 32 info).bind fun buf =>
  (memcpy buf (buf.length - 1) [1]).bind fun buf =>
  (hmac al mem (buf.drop 32) prk).bind fun out1 =>
  (memcpy buf 0 out1).bind fun buf =>
  (memcpy buf (buf.length - 1) [buf.getD (buf.length - 1) 0 + 1]).bind fun buf =>
  (hmac al mem buf prk).bind fun out2 => .ok (out1, out2)

end Verif.Hash
