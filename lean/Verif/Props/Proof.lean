import Verif.Lemmas.ProofWire
/-
C01–C04: name proofs.

`read` decodes a proof from network bytes, `verify H root key p` is the client's check;
`H` is the 256-bit hash. `hashed H key p` lists the strings hashed by that check and
`Spec.Radix.hashed H t` those hashed to commit to a tree, so that "unless the hash is
broken" can be stated on strings actually at hand:
a collision between two listed strings, or a listed string with the all-zero digest.
-/
namespace Verif.Props.Proof
open Verif.Proof Verif.Spec.Radix

/-- An explicit break of `H` among the listed strings. -/
def HashBroken (H : Bytes → Bytes) (qs : List Bytes) : Prop :=
  (∃ x ∈ qs, ∃ y ∈ qs, x ≠ y ∧ H x = H y) ∨ (∃ x ∈ qs, H x = zero32)

theorem hashBroken_of {H : Bytes → Bytes} {a b : List Bytes} (h : Broken H a b) :
    HashBroken H (a ++ b) := by
  rcases h with ⟨x, hx, y, hy, h⟩ | ⟨x, hx, h⟩
  · exact .inl ⟨x, by simp [hx], y, by simp [hy], h⟩
  · exact .inr ⟨x, by simpa using hx, h⟩

/-- C01. Two proofs decoded from any bytes and both accepted for the same root and key
report the same outcome, unless the strings they hash break `H`. -/
theorem C01_outcome_unique (H : Bytes → Bytes) (hlen : ∀ x, (H x).length = 32)
    (root key : Bytes) (hk : key.length = 32)
    (s s' r r' : Bytes) (p q : Proof) (hp : read s = .ok (p, r)) (hq : read s' = .ok (q, r'))
    (a b : Answer) (ha : verify H root key p = .ok a) (hb : verify H root key q = .ok b) :
    a = b ∨ HashBroken H (hashed H key p ++ hashed H key q) := by
  obtain ⟨v, ev, hv⟩ := ev_of_verify hlen hk (read_canonical hp).toWF ha
  obtain ⟨w, ew, hw⟩ := ev_of_verify hlen hk (read_canonical hq).toWF hb
  rcases Ev.unique hk ev ew with h | h
  · left
    subst h
    rcases hv with ⟨rfl, rfl⟩ | ⟨x, d, rfl, rfl, n⟩
    · rcases hw with ⟨_, rfl⟩ | ⟨y, d', e, _⟩
      · rfl
      · cases e
    · rcases hw with ⟨e, _⟩ | ⟨y, d', e, rfl, n'⟩
      · cases e
      · cases e; rw [NameState.unique n n']
  · exact .inr (hashBroken_of h)

/-- What a tree holds at a key, as an outcome: absent, or present with the resource part
of the stored name state. -/
def Holds (t : Tree) (key : Bytes) : Answer → Prop
  | .absent => lookup t key = none
  | .present d => ∃ v, lookup t key = some v ∧ NameState v d

/-- C02. If the root is the hash of a tree, any accepted proof reports what the tree
holds, unless the strings hashed by the proof check and by the tree break `H`. -/
theorem C02_accepted_is_true (H : Bytes → Bytes) (hlen : ∀ x, (H x).length = 32)
    (t : Tree) (wf : Spec.Radix.WF 0 t) (key : Bytes) (hk : key.length = 32)
    (s r : Bytes) (p : Proof) (hp : read s = .ok (p, r))
    (a : Answer) (ha : verify H (rootHash H t) key p = .ok a) :
    Holds t key a ∨ HashBroken H (hashed H key p ++ Spec.Radix.hashed H t) := by
  obtain ⟨v, ev, hv⟩ := ev_of_verify hlen hk (read_canonical hp).toWF ha
  have et := ev_tree hlen hk t 0 wf
  rcases Ev.unique hk ev et with h | h
  · left
    rw [List.drop_zero] at h
    rcases hv with ⟨rfl, rfl⟩ | ⟨x, d, rfl, rfl, n⟩
    · exact h.symm
    · exact ⟨x, h.symm, n⟩
  · exact .inr (hashBroken_of h)

/-- C03. For every tree over 256-bit keys and every key, the honest peer's proof,
sent over the wire, decodes and is accepted with exactly what the tree holds. -/
theorem C03_honest_accepted (H : Bytes → Bytes) (hlen : ∀ x, (H x).length = 32)
    (t : Tree) (wf : Spec.Radix.WF 0 t) (vo : ValuesOk t) (key : Bytes) (hk : key.length = 32)
    (rest : Bytes) :
    ∃ a, read (encode (prove H key 0 t) ++ rest) = .ok (prove H key 0 t, rest) ∧
      verify H (rootHash H t) key (prove H key 0 t) = .ok a ∧ Holds t key a := by
  obtain ⟨c, _, c1, c2, c3, c4, c5, c6, c7⟩ := prove_spec hlen hk t 0 (by omega) wf vo
  rw [Nat.zero_add] at c3
  rw [List.drop_zero] at c6
  cases hcl : claim (prove H key 0 t) with
  | none =>
    refine ⟨.absent, read_encode c rest, ?_, ?_⟩
    · exact ((verify_spec hk c.toWF).2 _).2 ⟨c1, c2, c3, c4, c5, .inl ⟨hcl, rfl⟩⟩
    · rw [hcl] at c6; exact c6.symm
  | some v =>
    obtain ⟨d, hd⟩ := c7 v hcl
    refine ⟨.present d, read_encode c rest, ?_, ?_⟩
    · exact ((verify_spec hk c.toWF).2 _).2 ⟨c1, c2, c3, c4, c5, .inr ⟨v, d, hcl, rfl, hd⟩⟩
    · rw [hcl] at c6; exact ⟨v, c6.symm, hd⟩

/-- C04. Decoding any bytes is memory safe: no access outside the input or outside a
fixed-size buffer, no failed assertion. -/
theorem C04_decode_safe (s : Bytes) : read s ≠ .ub := read_ne_ub s

/-- C04. Every decoded proof is within the protocol's limits. -/
theorem C04_decode_bounds (s r : Bytes) (p : Proof) (h : read s = .ok (p, r)) :
    p.depth ≤ 256 ∧ p.nodes.length ≤ 256 ∧ p.type ≤ 3 ∧
    (∀ n ∈ p.nodes, n.pfx.length = 32 ∧ n.pfxSize ≤ 256 ∧ n.node.length = 32) ∧
    (p.type = SHORT → 1 ≤ p.pfxSize ∧ p.pfxSize ≤ 256 ∧
      ∃ b, p.pfx = some b ∧ b.length = (p.pfxSize + 7) / 8) ∧
    (p.type = EXISTS → ∃ v, p.value = some v ∧ v.length = p.valueSize ∧ v.length ≤ 668) := by
  have c := read_canonical h
  refine ⟨c.depth, c.count, c.type, c.nodes, ?_, ?_⟩
  · intro ht
    obtain ⟨h1, h2, b, l, r, e1, e2, _⟩ := c.short ht
    exact ⟨by omega, h2, b, e1, e2⟩
  · intro ht
    obtain ⟨h1, v, e1, e2⟩ := c.exist ht
    exact ⟨v, e1, e2, by simp only [maxDataSize] at h1; omega⟩

/-- C04. Verifying any decoded proof against any 32-byte key is memory safe and fails
no assertion. -/
theorem C04_verify_safe (H : Bytes → Bytes) (root key : Bytes) (hk : key.length = 32)
    (s r : Bytes) (p : Proof) (h : read s = .ok (p, r)) : verify H root key p ≠ .ub :=
  (verify_spec hk (read_canonical h).toWF).1

/-- C04. Decoding the wire form of a proof gives the proof back and consumes exactly the
wire form; and the proofs covered are exactly those the decoder can return. -/
theorem C04_decode_roundtrip (p : Proof) :
    (Canonical p ↔ ∃ s r, read s = .ok (p, r)) ∧
    (Canonical p → ∀ rest, read (encode p ++ rest) = .ok (p, rest)) := by
  refine ⟨⟨fun c => ⟨encode p, [], ?_⟩, fun ⟨s, r, h⟩ => read_canonical h⟩, fun c rest => read_encode c rest⟩
  have := read_encode c []
  rwa [List.append_nil] at this

/-! ### The hypotheses are met by concrete data -/

/-- A toy 32-byte hash. -/
def toyH (x : Bytes) : Bytes := leBytes 32 ((x.foldl (fun a b => a * 257 + b.toNat + 1) 7) % 2 ^ 256)

def k0 : Bytes := List.replicate 32 0x20
def k1 : Bytes := List.replicate 32 0x21
def k2 : Bytes := List.replicate 32 0xa0
def k3 : Bytes := List.replicate 32 0x31
/-- Name states `"a"` with resource `[7,8]`, `"b"` with the empty resource. -/
def v0 : Bytes := [1, 97, 2, 0, 7, 8, 99]
def v1 : Bytes := [1, 98, 0, 0]
/-- `k0` and `k1` share 7 bits; `k2` differs from both in bit 0. -/
def t0 : Tree :=
  .node [] (.node [false, true, false, false, false, false] (.leaf k0 v0) (.leaf k1 v1)) (.leaf k2 v1)

theorem toyH_length : ∀ x, (toyH x).length = 32 := fun _ => leBytes_length _ _

example : Spec.Radix.WF 0 t0 ∧ ValuesOk t0 := by
  refine ⟨by simp [Spec.Radix.WF, t0, k0, k1, k2], ⟨⟨by decide, [7, 8], [97], [99], by decide⟩, by decide, [], [98], [], by decide⟩,
    by decide, [], [98], [], by decide⟩

-- Present, absent by collision, absent by a short node: all three are accepted.
example : verify toyH (rootHash toyH t0) k0 (prove toyH k0 0 t0) = .ok (.present [7, 8]) := by
  decide +kernel
example : verify toyH (rootHash toyH t0) (List.replicate 32 0x30) (prove toyH (List.replicate 32 0x30) 0 t0)
    = .ok .absent ∧ (prove toyH (List.replicate 32 0x30) 0 t0).type = SHORT := by
  decide +kernel
example : verify toyH (rootHash toyH t0) (List.replicate 32 0xff) (prove toyH (List.replicate 32 0xff) 0 t0)
    = .ok .absent ∧ (prove toyH (List.replicate 32 0xff) 0 t0).type = COLLISION := by
  decide +kernel
-- The wire form of the first proof decodes.
example : read (encode (prove toyH k0 0 t0)) = .ok (prove toyH k0 0 t0, []) := by decide +kernel

end Verif.Props.Proof
