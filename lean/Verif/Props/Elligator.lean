import Verif.Lemmas.EllSpec
/-
C76: public keys as 64 bytes, for the transport.
-/
namespace Verif.Props.Elligator
open Verif Verif.Spec.Secp Verif.Elligator Verif.Spec.Svdw Verif.Lemmas

/-- C76. Every field element but 0 has one image on the curve. -/
theorem C76_map {u : F} (hu : u ≠ 0) : ∃ P, Image u P ∧ ∀ Q, Image u Q → Q = P :=
  ⟨_, EllSpec.image_svdw hu, fun _ h => EllSpec.image_pt hu h⟩

/-- C76. 64 bytes, read as two numbers of which neither is 0 modulo `p`, are decoded to the sum of their images, in
compressed form; the decoder fails exactly if the sum is the point at infinity. Not for numbers that are 0 modulo `p`. -/
theorem C76_decode_partial {b : Bytes} (hb : b.length = 64) (h1 : ((beNat (b.take 32) : Nat) : F) ≠ 0)
    (h2 : ((beNat (b.drop 32) : Nat) : F) ≠ 0) :
    ∃ P1 P2, Image ((beNat (b.take 32) : Nat) : F) P1 ∧ Image ((beNat (b.drop 32) : Nat) : F) P2 ∧
      fromHash b = match compress (P1 + P2) with
        | some k => .ok k
        | none => .err () :=
  EllSpec.decode hb h1 h2

/-- C76. What the encoder makes of a public key has 64 bytes and is decoded to that key, whatever is drawn, if 0 is
not drawn. -/
theorem C76_roundtrip_partial {draw : Nat → F × Nat} (hd : ∀ i, (draw i).1 ≠ 0) {fuel : Nat} {pub u : Bytes}
    (h : toHash draw fuel pub = .ok u) : u.length = 64 ∧ fromHash u = .ok pub :=
  EllHash.roundtrip hd h

/-- C76. Every pair of numbers below `p`, neither of them 0, that is decoded to a key is an encoding of that key: if the
first is drawn, there is one of the four hints with which the encoder yields the pair. -/
theorem C76_reach {u1 u2 : F} (h1 : u1 ≠ 0) (h2 : u2 ≠ 0) {pub : Bytes}
    (h : fromHash (beBytes 32 u1.val ++ beBytes 32 u2.val) = .ok pub) :
    ∃ r < 4, toHash (fun _ => (u1, r)) 1 pub = .ok (beBytes 32 u1.val ++ beBytes 32 u2.val) := by
  obtain ⟨e1, e2⟩ := EllHash.half_get u1 u2
  have q1 : EllHash.half1 (getB32 u1 ++ getB32 u2) ≠ 0 := by rw [e1]; exact h1
  have q2 : EllHash.half2 (getB32 u1 ++ getB32 u2) ≠ 0 := by rw [e2]; exact h2
  have h : fromHash (getB32 u1 ++ getB32 u2) = .ok pub := h
  rw [EllHash.fromHash_sum q1 q2] at h
  have i1 := EllSpec.image_svdw q1
  have i2 := EllSpec.image_svdw q2
  generalize EllGroup.pt _ = P1 at h i1
  generalize EllGroup.pt _ = P2 at h i2
  rw [e1] at i1
  rw [e2] at i2
  cases hc : compress (P1 + P2) with
  | none => rw [hc] at h; cases h
  | some k =>
    rw [hc] at h
    cases h
    exact EllSpec.reach h1 h2 i1 i2 hc

/-- C76. The inverse of the map yields only preimages, and each of them under one of the four hints. -/
theorem C76_invert {x y : F} (h : curve.Nonsingular x y) :
    (∀ r u, invert ⟨x, y, false⟩ r = (u, true) → u ≠ 0 ∧ Image u (.some x y h)) ∧
    (∀ u, u ≠ 0 → Image u (.some x y h) → ∃ r < 4, invert ⟨x, y, false⟩ r = (u, true)) :=
  ⟨fun _ _ hi => EllSpec.invert_sound h hi, fun _ hu hi => EllSpec.invert_complete hu hi⟩

/-- C76. The decoder has a gap: two numbers whose sum is `p`. -/
theorem C76_gap {u : F} (hu : u ≠ 0) : fromHash (beBytes 32 u.val ++ beBytes 32 (-u).val) = .err () :=
  EcKeys.opposite hu

/-- C76 is false of the code: 64 bytes of zero (and all others that are two multiples of `p`) end the process. -/
theorem C76_false {b : Bytes} (hb : b.length = 64) (h1 : ((beNat (b.take 32) : Nat) : F) = 0)
    (h2 : ((beNat (b.drop 32) : Nat) : F) = 0) : fromHash b = .ub :=
  EllComplete.fromHash_zero (by rw [EllSpec.half1_eq]; exact h1) (by rw [EllSpec.half2_eq hb]; exact h2)

example : fromHash (List.replicate 64 0) = .ub := by decide +kernel
example : fromHash (beBytes 32 p ++ beBytes 32 0) = .ub := by decide +kernel

/-- With one of the numbers 0 the decoder yields a key that no point has. -/
theorem C76_false_key : ∃ k, fromHash (beBytes 32 0 ++ beBytes 32 1) = .ok k ∧ ∀ P, compress P ≠ some k := by
  refine ⟨3 :: beBytes 32 0x9a660bf49022ac8c93f5c6f6aad9c3d49162705406f07ca2a541f3bee4b7b402, by decide +kernel, ?_⟩
  intro P hP
  obtain ⟨x, y, hn, -, hp⟩ := EllHash.parse_of hP
  have : parse (3 :: beBytes 32 0x9a660bf49022ac8c93f5c6f6aad9c3d49162705406f07ca2a541f3bee4b7b402) = none := by decide +kernel
  rw [this] at hp
  cases hp

/-- The key of the private key 3. -/
def key3 : Bytes := 2 :: beBytes 32 0xf9308a019258c31049344f85f89d5229b531c845836f99b08601f113bce036f9

/-- If 0 is drawn the encoder may yield what is not decoded to the key. -/
theorem C76_false_draw : ∃ u k, toHash (fun _ => (0, 0)) 1 key3 = .ok u ∧ fromHash u = .ok k ∧ k ≠ key3 := by
  refine ⟨beBytes 32 0 ++ beBytes 32 0xadce7200adc1fd7768d8476affd25fd42d5473346cd69fcaae2dd763c85d857b,
    3 :: beBytes 32 0xbb656bc0481757e057af110943d94785b93a996b186e59773e0791d7fad1f949,
    by decide +kernel, by decide +kernel, by decide +kernel⟩

/-- The base point, encoded with the first number 1, and with 6. -/
def gKey : Bytes := 2 :: beBytes 32 gx
def gHash : Bytes := beBytes 32 1 ++ beBytes 32 0x8612a86f0ebdb949f26758563b8c32b3e03566c49fe69be35d2cae236ffcf50d
example : compress G = some gKey := by decide +kernel
example : toHash (fun _ => (1, 0)) 1 gKey = .ok gHash := by decide +kernel
example : toHash (fun _ => (6, 0)) 1 gKey =
    .ok (beBytes 32 6 ++ beBytes 32 0xcf855f771d6f5eae2acaf9d5abdeae1e8526a1a55e24f8d96286f3a658b29a94) := by decide +kernel
/-- With 7 there is none. -/
example : ∀ r < 4, toHash (fun _ => (7, r)) 1 gKey = .err () := by decide +kernel
example : gHash.length = 64 ∧ ((beNat (gHash.take 32) : Nat) : F) ≠ 0 ∧ ((beNat (gHash.drop 32) : Nat) : F) ≠ 0 ∧ fromHash gHash = .ok gKey := by
  decide +kernel

end Verif.Props.Elligator
