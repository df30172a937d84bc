import Verif.Model.Proof
import Verif.Spec.Radix
/-
Vocabulary for stating what a proof verification hashes and which proofs are
well-formed. The digest of a proof is recomputed here from the root downwards.
-/
namespace Verif.Proof
open Verif.Bio

/-- Bit `i` of a byte string, most significant bit of byte 0 first. -/
def bitAt (m : Bytes) (i : Nat) : Bool := ((Spec.Radix.bitsOf m)[i]?).getD false

/-- `size` bits of `pfx` equal the key bits from position `d`. -/
def Match (pfx : Bytes) (size : Nat) (key : Bytes) (d : Nat) : Prop :=
  d + size ≤ 256 ∧ ∀ i, i < size → bitAt pfx i = bitAt key (d + i)

/-- The string hashed for an internal node with `size` skipped bits. -/
def preOf (pfx : Bytes) (size : Nat) (l r : Bytes) : Bytes :=
  if size = 0 then [0x01] ++ l ++ r
  else [0x02] ++ leBytes 2 size ++ pfx.take ((size + 7) / 8) ++ l ++ r

/-- The strings hashed for the proof's leaf, and the leaf digest. -/
def leafStrings (H : Bytes → Bytes) (key : Bytes) (p : Proof) : List Bytes :=
  if p.type = SHORT then
    [preOf (p.pfx.getD []) p.pfxSize (p.left.getD []) (p.right.getD [])]
  else if p.type = COLLISION then
    [[0x00] ++ p.nxKey.getD [] ++ p.nxHash.getD []]
  else if p.type = EXISTS then
    [p.value.getD [], [0x00] ++ key ++ H (p.value.getD [])]
  else []

def leafDigest (H : Bytes → Bytes) (key : Bytes) (p : Proof) : Bytes :=
  match (leafStrings H key p).getLast? with
  | some s => H s
  | none => Spec.Radix.zero32

/-- The strings hashed for the proof's nodes (outermost first) and the digest at the
top, when the innermost digest is `leaf` and the nodes start at bit `d`. -/
def nodeStrings (H : Bytes → Bytes) (key leaf : Bytes) : Nat → List Node → List Bytes × Bytes
  | _, [] => ([], leaf)
  | d, n :: ns =>
    let (qs, h) := nodeStrings H key leaf (d + n.pfxSize + 1) ns
    let s := if bitAt key (d + n.pfxSize) then preOf n.pfx n.pfxSize n.node h
             else preOf n.pfx n.pfxSize h n.node
    (s :: qs, H s)

/-- Every string hashed when `p` is verified for `key`. -/
def hashed (H : Bytes → Bytes) (key : Bytes) (p : Proof) : List Bytes :=
  (nodeStrings H key (leafDigest H key p) 0 p.nodes).1 ++ leafStrings H key p

/-- Well-formed proofs: array sizes and fields as promised by the type. -/
structure WF (p : Proof) : Prop where
  depth : p.depth ≤ 256
  count : p.nodes.length ≤ 256
  type : p.type ≤ 3
  nodes : ∀ n ∈ p.nodes, n.pfx.length = 32 ∧ n.pfxSize ≤ 256 ∧ n.node.length = 32
  short : p.type = SHORT → p.pfxSize ≠ 0 ∧ p.pfxSize ≤ 256 ∧
    ∃ b l r, p.pfx = some b ∧ b.length = (p.pfxSize + 7) / 8 ∧
      p.left = some l ∧ l.length = 32 ∧ p.right = some r ∧ r.length = 32
  coll : p.type = COLLISION → ∃ k h, p.nxKey = some k ∧ k.length = 32 ∧
    p.nxHash = some h ∧ h.length = 32
  exist : p.type = EXISTS → p.valueSize ≤ maxDataSize ∧
    ∃ v, p.value = some v ∧ v.length = p.valueSize
  novalue : p.type ≠ EXISTS → p.valueSize = 0

end Verif.Proof
