import Verif.Spec.Secp
import Verif.Spec.Hmac
/-
ECDSA over secp256k1 (SEC 1, 4.1), and the deterministic choice of its random number (RFC 6979).
-/
namespace Verif.Spec.Secdsa
open Verif Verif.Spec.Secp Verif.Spec.Hmac WeierstrassCurve.Affine

/-- The two numbers of a signature. -/
def rOf (sig : Bytes) : Nat := beNat (sig.take 32)
def sOf (sig : Bytes) : Nat := beNat (sig.drop 32)

/-- SEC 1, 4.1.4: the signature of the message with the digest `hash` is valid under the public key `Q`. -/
def Valid (Q : Point) (hash sig : Bytes) : Prop :=
  sig.length = 64 ∧ 0 < rOf sig ∧ rOf sig < n ∧ 0 < sOf sig ∧ sOf sig < n ∧
  ∃ w, sOf sig * w % n = 1 ∧ ∃ x y h,
    (beNat hash * w % n) • G + (rOf sig * w % n) • Q = Point.some x y h ∧ x.val % n = rOf sig

/-- Of the two signatures `r`, `s` and `r`, `n - s` the one with the smaller number. -/
def Low (sig : Bytes) : Prop := sOf sig ≤ n / 2

/-- RFC 6979, 2.3.4: the digest modulo the order. -/
def bits2octets (hash : Bytes) : Bytes := beBytes 32 (beNat hash % n)

/-- RFC 6979, 3.2, b to g. -/
def start (key h : Bytes) : Bytes × Bytes :=
  let v := List.replicate 32 1
  let k := List.replicate 32 0
  let k := hmac k (v ++ [0] ++ key ++ h)
  let v := hmac k v
  let k := hmac k (v ++ [1] ++ key ++ h)
  (k, hmac k v)

/-- RFC 6979, 3.2, h: `K` and `V` when the `i`-th candidate has been made. -/
def state (key h : Bytes) : Nat → Bytes × Bytes
  | 0 => let (k, v) := start key h; (k, hmac k v)
  | i + 1 =>
    let (k, v) := state key h i
    let k := hmac k (v ++ [0])
    let v := hmac k v
    (k, hmac k v)

/-- The `i`-th candidate for the random number of a signature. -/
def candidate (key h : Bytes) (i : Nat) : Nat := beNat (state key h i).2

/-- SEC 1, 4.1.3: with the random number `k` there is a signature of the digest. -/
def Suitable (key hash : Bytes) (k : Nat) : Prop :=
  0 < k ∧ k < n ∧ ∃ x y h, k • G = Point.some x y h ∧ x.val % n ≠ 0 ∧ (beNat hash + x.val * beNat key) % n ≠ 0

end Verif.Spec.Secdsa
