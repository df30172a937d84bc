import Verif.Base
/-
Specification of the authenticated name tree (a base-2 radix tree committed to by a
root hash), independent of the client code.

A tree is empty, a leaf holding a full key with its value, or an internal node with a
(possibly empty) run of skipped key bits and two subtrees.
-/
namespace Verif.Spec.Radix

inductive Tree where
  | null
  | leaf (key value : Bytes)
  | node (pfx : List Bool) (l r : Tree)

/-- The bits of a byte, most significant first. -/
def byteBits (b : UInt8) : List Bool :=
  [b.toNat.testBit 7, b.toNat.testBit 6, b.toNat.testBit 5, b.toNat.testBit 4,
   b.toNat.testBit 3, b.toNat.testBit 2, b.toNat.testBit 1, b.toNat.testBit 0]

/-- The bits of a byte string, most significant first. -/
def bitsOf (s : Bytes) : List Bool := s.flatMap byteBits

/-- The byte with the given bits, most significant first. -/
def byteOf (a b c d e f g h : Bool) : UInt8 :=
  UInt8.ofNat (a.toNat * 128 + b.toNat * 64 + c.toNat * 32 + d.toNat * 16 +
    e.toNat * 8 + f.toNat * 4 + g.toNat * 2 + h.toNat)

/-- Pack bits into bytes, padding the last byte with zero bits. -/
def packBits (l : List Bool) : Bytes :=
  if l = [] then []
  else
    byteOf (l.getD 0 false) (l.getD 1 false) (l.getD 2 false) (l.getD 3 false)
      (l.getD 4 false) (l.getD 5 false) (l.getD 6 false) (l.getD 7 false)
    :: packBits (l.drop 8)
  termination_by l.length
  decreasing_by
    simp only [List.length_drop]
    have : l.length ≠ 0 := by simpa using ‹¬ l = []›
    omega

def zero32 : Bytes := List.replicate 32 0

/-- The string hashed for an internal node. -/
def nodeString (pfx : List Bool) (hl hr : Bytes) : Bytes :=
  if pfx = [] then [0x01] ++ hl ++ hr
  else [0x02] ++ leBytes 2 pfx.length ++ packBits pfx ++ hl ++ hr

/-- The string hashed for a leaf. -/
def leafString (H : Bytes → Bytes) (key value : Bytes) : Bytes := [0x00] ++ key ++ H value

/-- The root hash of a tree. -/
def rootHash (H : Bytes → Bytes) : Tree → Bytes
  | .null => zero32
  | .leaf k v => H (leafString H k v)
  | .node p l r => H (nodeString p (rootHash H l) (rootHash H r))

/-- Every string hashed while computing the root hash of a tree. -/
def hashed (H : Bytes → Bytes) : Tree → List Bytes
  | .null => []
  | .leaf k v => [v, leafString H k v]
  | .node p l r => nodeString p (rootHash H l) (rootHash H r) :: (hashed H l ++ hashed H r)

/-- Look a key up: follow the bits of the key (`bits` are those not yet consumed). -/
def walk (key : Bytes) : Tree → List Bool → Option Bytes
  | .null, _ => none
  | .leaf k v, _ => if k = key then some v else none
  | .node p l r, bits =>
    if p <+: bits then
      match bits.drop p.length with
      | [] => none
      | false :: rest => walk key l rest
      | true :: rest => walk key r rest
    else none

/-- The value the tree holds for a key. -/
def lookup (t : Tree) (key : Bytes) : Option Bytes := walk key t (bitsOf key)

/-- A tree over 256-bit keys, seen at bit position `d`: leaves carry 32-byte keys and
no path is longer than a key. -/
def WF : Nat → Tree → Prop
  | _, .null => True
  | d, .leaf k _ => k.length = 32 ∧ d ≤ 256
  | d, .node p l r => d + p.length < 256 ∧ WF (d + p.length + 1) l ∧ WF (d + p.length + 1) r

/-- A leaf value is a serialised name state: length-prefixed name, then a
16-bit-length-prefixed resource, then anything. `NameState v d`: `d` is that resource. -/
def NameState (v d : Bytes) : Prop :=
  ∃ name rest, name.length < 256 ∧ d.length < 65536 ∧
    v = leBytes 1 name.length ++ name ++ leBytes 2 d.length ++ d ++ rest

end Verif.Spec.Radix
