import Verif.Spec.Sha256
/-
HMAC (RFC 2104) with SHA-256, and HKDF (RFC 5869).
-/
namespace Verif.Spec.Hmac
open Verif.Spec.Sha256

def xorWith (x : UInt8) (b : Bytes) : Bytes := b.map fun c => c ^^^ x

/-- RFC 2104, 2: keys longer than a block are hashed first; then zeros are appended. -/
def blockKey (key : Bytes) : Bytes :=
  let k := if key.length > 64 then sha256 key else key
  k ++ List.replicate (64 - k.length) 0

def hmac (key text : Bytes) : Bytes :=
  sha256 (xorWith 0x5c (blockKey key) ++ sha256 (xorWith 0x36 (blockKey key) ++ text))

/-- RFC 5869, 2.2. -/
def extract (salt ikm : Bytes) : Bytes := hmac salt ikm

/-- RFC 5869, 2.3: T(n), with the function `f` for HMAC with the key PRK. -/
def T (f : Bytes → Bytes) (info : Bytes) : Nat → Bytes
  | 0 => []
  | n + 1 => f (T f info n ++ info ++ [UInt8.ofNat (n + 1)])

/-- RFC 5869, 2.3: the first `L` bytes of T(1), T(2), and so on. -/
def expand (f : Bytes → Bytes) (info : Bytes) (L : Nat) : Bytes :=
  ((List.range ((L + 31) / 32)).flatMap fun n => T f info (n + 1)).take L

def hkdf (salt ikm info : Bytes) (L : Nat) : Bytes := expand (hmac (extract salt ikm)) info L

end Verif.Spec.Hmac
