import Verif.Spec.Proof
/-
The wire form of proofs, as sent by an honest peer, and the honest prover.
-/
namespace Verif.Proof
open Verif.Spec.Radix

/-- A bit length: one byte below 128, else two bytes with the top bit set. -/
def encodeBitlen (n : Nat) : Bytes :=
  if n < 128 then leBytes 1 n else leBytes 1 (128 + n / 256) ++ leBytes 1 (n % 256)

def encodeNode (n : Node) : Bytes :=
  (if n.pfxSize = 0 then [] else encodeBitlen n.pfxSize ++ n.pfx.take ((n.pfxSize + 7) / 8)) ++ n.node

/-- Wire form of a proof. -/
def encode (p : Proof) : Bytes :=
  leBytes 2 (p.type * 16384 + p.depth) ++ leBytes 2 p.nodes.length ++
  packBits (p.nodes.map fun n => n.pfxSize != 0) ++
  p.nodes.flatMap encodeNode ++
  (if p.type = SHORT then
    encodeBitlen p.pfxSize ++ p.pfx.getD [] ++ p.left.getD [] ++ p.right.getD []
   else if p.type = COLLISION then p.nxKey.getD [] ++ p.nxHash.getD []
   else if p.type = EXISTS then leBytes 2 p.valueSize ++ p.value.getD []
   else [])

/-- Well-formed proofs in which everything not carried by the wire form is blank. -/
structure Canonical (p : Proof) : Prop extends WF p where
  blank : ∀ n ∈ p.nodes, n.pfx.drop ((n.pfxSize + 7) / 8) =
    List.replicate (32 - (n.pfxSize + 7) / 8) 0
  noShort : p.type ≠ SHORT → p.pfx = none ∧ p.pfxSize = 0 ∧ p.left = none ∧ p.right = none
  noColl : p.type ≠ COLLISION → p.nxKey = none ∧ p.nxHash = none
  noExist : p.type ≠ EXISTS → p.value = none

/-- The proof an honest peer builds for `key` by walking the tree from bit `d`. -/
def prove (H : Bytes → Bytes) (key : Bytes) : Nat → Tree → Proof
  | d, .null => { init with type := DEADEND, depth := d }
  | d, .leaf k v =>
    if k = key then { init with type := EXISTS, depth := d, value := some v, valueSize := v.length }
    else { init with type := COLLISION, depth := d, nxKey := some k, nxHash := some (H v) }
  | d, .node p l r =>
    if p <+: (bitsOf key).drop d then
      let nd (sibling : Tree) : Node :=
        { pfx := packBits p ++ List.replicate (32 - (packBits p).length) 0, pfxSize := p.length,
          node := rootHash H sibling }
      if (bitsOf key).getD (d + p.length) false then
        let q := prove H key (d + p.length + 1) r
        { q with nodes := nd l :: q.nodes }
      else
        let q := prove H key (d + p.length + 1) l
        { q with nodes := nd r :: q.nodes }
    else
      { init with type := SHORT, depth := d, pfx := some (packBits p), pfxSize := p.length,
                  left := some (rootHash H l), right := some (rootHash H r) }

/-- Every stored value is a name state small enough to be sent. -/
def ValuesOk : Tree → Prop
  | .null => True
  | .leaf _ v => v.length ≤ 668 ∧ ∃ d, NameState v d
  | .node _ l r => ValuesOk l ∧ ValuesOk r

end Verif.Proof
