import Verif.Model.ChaCha
import Verif.Model.Poly1305
/-
Model of src/aead.c. `hsk_aead_auth` is not called and not modelled. Input and output may be the same
buffer: `hsk_chacha20_xor` reads each byte before it writes it, and the ciphertext is what is
authenticated both ways.
-/
namespace Verif.Aead

/-- hsk_aead_t (src/aead.h:13-20) but for the array `poly_key`, which is used in setup only. -/
structure Ctx where
  chacha : ChaCha.Ctx
  poly : Poly1305.St
  aadLen : Nat
  cipherLen : Nat
  hasCipher : Bool
  deriving DecidableEq, Repr

/-- hsk_aead_init (src/aead.c:17-26). -/
def init : Ctx :=
  ⟨⟨List.replicate 16 0, List.replicate 64 0, 0, 8⟩, ⟨0, 0, 0, 0, 0, 0, 0, 0, 0, List.replicate 16 0, false⟩, 0, 0, false⟩

/-- hsk_aead_setup (src/aead.c:28-52). -/
def setup (a : Ctx) (key iv : Bytes) : Out Unit Ctx :=
  (ChaCha.setup a.chacha key 32 iv 12 0).bind fun c =>
  (ChaCha.encrypt c (List.replicate 32 0)).bind fun x =>
  (Poly1305.init a.poly x.2).bind fun poly =>
  (ChaCha.encrypt x.1 (List.replicate 32 0)).bind fun y =>
    if ChaCha.counterGet y.1 = 1 then .ok ⟨y.1, poly, 0, 0, false⟩ else .ub

/-- hsk_aead_aad (src/aead.c:54-59). -/
def aad (a : Ctx) (d : Bytes) : Out Unit Ctx :=
  if a.hasCipher then .ub
  else (Poly1305.update a.poly d).bind fun poly => .ok { a with poly := poly, aadLen := (a.aadLen + d.length) % 2 ^ 64 }

/-- hsk_aead_pad16 (src/aead.c:123-134). -/
def pad16 (a : Ctx) (size : Nat) : Out Unit Ctx :=
  let size := size % 16
  if size = 0 then .ok a
  else (Poly1305.update a.poly (List.replicate (16 - size) 0)).bind fun poly => .ok { a with poly := poly }

/-- hsk_aead_encrypt (src/aead.c:61-76). -/
def encrypt (a : Ctx) (input : Bytes) : Out Unit (Ctx × Bytes) :=
  (if a.hasCipher then .ok a else pad16 a a.aadLen).bind fun a =>
  (ChaCha.encrypt a.chacha input).bind fun x =>
  (Poly1305.update a.poly x.2).bind fun poly =>
    .ok ({ a with chacha := x.1, poly := poly, cipherLen := (a.cipherLen + input.length) % 2 ^ 64, hasCipher := true }, x.2)

/-- hsk_aead_decrypt (src/aead.c:78-93). -/
def decrypt (a : Ctx) (input : Bytes) : Out Unit (Ctx × Bytes) :=
  (if a.hasCipher then .ok a else pad16 a a.aadLen).bind fun a =>
  let a := { a with cipherLen := (a.cipherLen + input.length) % 2 ^ 64, hasCipher := true }
  (Poly1305.update a.poly input).bind fun poly =>
  (ChaCha.encrypt a.chacha input).bind fun x => .ok ({ a with chacha := x.1, poly := poly }, x.2)

/-- hsk_aead_final (src/aead.c:106-121). -/
def final (a : Ctx) : Out Unit Bytes :=
  let len := leBytes 8 a.aadLen ++ leBytes 8 a.cipherLen
  (if a.hasCipher then .ok a else pad16 a a.aadLen).bind fun a =>
  (pad16 a a.cipherLen).bind fun a =>
  (Poly1305.update a.poly len).bind fun poly => Poly1305.finish poly

/-- Calls one after another. -/
def aads : List Bytes → Ctx → Out Unit Ctx
  | [], a => .ok a
  | d :: l, a => (aad a d).bind fun a => aads l a
def encrypts : List Bytes → Ctx → Out Unit (Ctx × List Bytes)
  | [], a => .ok (a, [])
  | m :: l, a => (encrypt a m).bind fun r => (encrypts l r.1).bind fun q => .ok (q.1, r.2 :: q.2)
def decrypts : List Bytes → Ctx → Out Unit (Ctx × List Bytes)
  | [], a => .ok (a, [])
  | m :: l, a => (decrypt a m).bind fun r => (decrypts l r.1).bind fun q => .ok (q.1, r.2 :: q.2)

/-- Setup, additional data, pieces of text and final, as in hsk_cs_encrypt and hsk_cs_decrypt
(src/brontide.c:110-116, 133-139), there with at most one piece of additional data and one of text. -/
def sealed (a : Ctx) (key iv : Bytes) (ad ms : List Bytes) : Out Unit (List Bytes × Bytes) :=
  (setup a key iv).bind fun a => (aads ad a).bind fun a => (encrypts ms a).bind fun r => (final r.1).bind fun tag => .ok (r.2, tag)
def opened (a : Ctx) (key iv : Bytes) (ad cs : List Bytes) : Out Unit (List Bytes × Bytes) :=
  (setup a key iv).bind fun a => (aads ad a).bind fun a => (decrypts cs a).bind fun r => (final r.1).bind fun tag => .ok (r.2, tag)

end Verif.Aead
