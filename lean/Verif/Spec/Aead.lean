import Verif.Spec.ChaCha
import Verif.Spec.Poly1305
/-
AEAD_CHACHA20_POLY1305 as RFC 8439, 2.6 and 2.8 defines it.
-/
namespace Verif.Spec.Aead
open Verif.Spec

/-- 2.6: the one-time key. -/
def polyKey (key nonce : Bytes) : Bytes := (ChaCha.block key 0 nonce).take 32

/-- 2.8: zeros up to a multiple of 16 bytes. -/
def pad16 (x : Bytes) : Bytes := List.replicate ((16 - x.length % 16) % 16) 0

/-- 2.8: what is authenticated. -/
def macData (aad c : Bytes) : Bytes := aad ++ pad16 aad ++ c ++ pad16 c ++ leBytes 8 aad.length ++ leBytes 8 c.length

def tag (key nonce aad c : Bytes) : Bytes := Poly1305.mac (polyKey key nonce) (macData aad c)

/-- The text under the key stream from the block with counter 1 on. -/
def crypt (key nonce text : Bytes) : Bytes := ChaCha.crypt key nonce 64 text

/-- Encryption: ciphertext and tag. -/
def encrypt (key nonce aad text : Bytes) : Bytes × Bytes :=
  let c := crypt key nonce text
  (c, tag key nonce aad c)

/-- Decryption: the text, if the tag is right. -/
def decrypt (key nonce aad c t : Bytes) : Option Bytes := if tag key nonce aad c = t then some (crypt key nonce c) else none

end Verif.Spec.Aead
