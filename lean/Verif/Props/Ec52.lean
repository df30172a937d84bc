import Verif.Lemmas.Ec52Points
import Verif.Lemmas.Ec52Vector
/-
C81: the routines on points of secp256k1, in the program's words. `Stands`, `Normal`: Spec/Field52; `IsPoint`,
`Reached`: Spec/Ec52; `Image`: Spec/Svdw; `compress`: Spec/Secp.
-/
namespace Verif.Props.Ec52
open Verif Verif.Spec.Secp Verif.Spec.Svdw Verif.Field52 Verif.Ec52 Verif.Lemmas
open Verif.Ecdsa (Rng rngInit rngGenerate)

/-- C81. The chains of squarings and products on words: the inverse, and the square root with its flag. -/
theorem C81_roots {m : Nat} {a : Fe} {x : F} (ha : Stands m a x) (hm : m ≤ 8) :
    Stands 1 (inv a) x⁻¹ ∧ ((sqrt a).2 = true ↔ IsSquare x) ∧ (IsSquare x → ∃ r, Stands 1 (sqrt a).1 r ∧ r * r = x) :=
  ⟨Ec52Points.inverse ha hm, Ec52Points.root ha hm⟩

/-- C81. The comparison of elements whose words may differ. -/
theorem C81_equal {m : Nat} {a b : Fe} {x y : F} (ha : Stands 1 a x) (hb : Stands m b y) (hm : m ≤ 2045) : equal a b = true ↔ x = y := by
  rw [equal_spec ha hb hm]; exact beq_iff_eq

/-- C81. The sum of two points, from affine coordinates through Jacobian ones and back, and the opposite: right for
all points, equal and opposite ones included, with words of magnitude up to 8. -/
theorem C81_add {a b : Ge} {x1 y1 x2 y2 : F} {h1 : curve.Nonsingular x1 y1} {h2 : curve.Nonsingular x2 y2}
    (ha : IsPoint 8 a (.some x1 y1 h1)) (hb : IsPoint 8 b (.some x2 y2 h2)) :
    IsPoint 8 (geSetGej (addGe (gejSetGe a) b)) (.some x1 y1 h1 + .some x2 y2 h2) ∧ IsPoint 8 (geNeg a) (-.some x1 y1 h1) :=
  Ec52Points.add_words ha hb

/-- C81. The map to the curve, of normalised words that are not 0. -/
theorem C81_map {u : Fe} {x : F} (hu : Normal u x) (hx : x ≠ 0) : ∃ P, Image x P ∧ IsPoint 2 (svdw u) P := Ec52Points.map hu hx

/-- C81. The inverse of the map yields preimages only, and with one of the four hints each of them. -/
theorem C81_invert {g : Ge} {x y : F} {h : curve.Nonsingular x y} (hg : IsPoint 8 g (.some x y h)) :
    (∀ r, (invert g r).2 ≠ 0 → ∃ u, u ≠ 0 ∧ Stands 2 (invert g r).1 u ∧ Image u (.some x y h)) ∧
    (∀ u, u ≠ 0 → Image u (.some x y h) → ∃ r < 4, (invert g r).2 ≠ 0 ∧ Stands 2 (invert g r).1 u) :=
  Ec52Points.invert_words hg

/-- C81. A string is read as a key exactly if it is the compressed form of a point; written again, it is the same. -/
theorem C81_keys (b : Bytes) :
    ((∃ P, compress P = some b) → ∃ k, parse b = some k ∧ serialize k = .ok b) ∧ ((∀ P, compress P ≠ some b) → parse b = none) :=
  ⟨fun ⟨_, h⟩ => Ec52Points.parse_words h, Ec52Points.parse_none⟩

/-- C81. Reading the 64 bytes of a key, on words, is the decoder of C76. -/
theorem C81_decode {s : Bytes} (hs : s.length = 64) : fromHash s = Elligator.fromHash s := fromHash_spec hs

/-- C81. So what C76 says of the decoder holds of the words: two numbers, not 0 modulo `p`, are decoded to the sum of
their images. -/
theorem C81_decode_partial {s : Bytes} (hs : s.length = 64) (h1 : ((beNat (s.take 32) : Nat) : F) ≠ 0)
    (h2 : ((beNat (s.drop 32) : Nat) : F) ≠ 0) :
    ∃ P1 P2, Image ((beNat (s.take 32) : Nat) : F) P1 ∧ Image ((beNat (s.drop 32) : Nat) : F) P2 ∧
      fromHash s = match compress (P1 + P2) with
        | some k => .ok k
        | none => .err () := by
  rw [fromHash_spec hs]
  exact EllSpec.decode hs h1 h2

/-- C81. The encoder, with the generator of RFC 6979 seeded with 32 random bytes: what it yields has 64 bytes; the first
32 come from the generator; and if they are not 0, the key is got back. Not proved: for 0 this is false (C76_false_draw).
-/
theorem C81_encode_partial {f : Nat} {pub ent out : Bytes} (h : toHash f pub ent = .ok out) :
    out.length = 64 ∧ (∃ r, Reached (rngInit ent) r ∧ out.take 32 = (rngGenerate r 32).2) ∧
    (((beNat (out.take 32) : Nat) : F) ≠ 0 → fromHash out = .ok pub) :=
  Ec52Points.encode h

/-- C81. The encoder refuses what is not a key, and never ends the process. -/
theorem C81_safe (f : Nat) (pub ent : Bytes) :
    toHash f pub ent ≠ .ub ∧ ((∀ P, compress P ≠ some pub) → toHash f pub ent = .err ()) :=
  ⟨Ec52Points.toHash_def f pub ent, Ec52Points.toHash_noKey⟩

/-- C81 is false of the code: 64 bytes of zero end the process. -/
theorem C81_false : fromHash (List.replicate 64 0) = .ub := by decide +kernel

/-! ### Examples -/

def gKey : Bytes := 2 :: beBytes 32 gx

example : compress G = some gKey := by decide +kernel
example : (parse gKey).isSome = true := by decide +kernel
example : parse (2 :: beBytes 32 5) |>.isNone := by decide +kernel
example : toHash 1 gKey (beBytes 32 2) = .ok Ec52Vector.gCode := Ec52Vector.gCode_eq
example : fromHash Ec52Vector.gCode = .ok gKey := by decide +kernel
example : ((beNat (Ec52Vector.gCode.take 32) : Nat) : F) ≠ 0 ∧ ((beNat (Ec52Vector.gCode.drop 32) : Nat) : F) ≠ 0 := by decide +kernel

/-- The words of the base point. -/
def gWords : Ge := ⟨(setB32 (beBytes 32 gx)).1, (setB32 (beBytes 32 gy)).1, false⟩

example : IsPoint 8 gWords G := by
  refine ⟨rfl, ?_, ?_⟩ <;> unfold Stands Mag <;> decide +kernel
example : getB32 (normalize (geSetGej (addGe (gejSetGe gWords) gWords)).x) =
    beBytes 32 0xc6047f9441ed7d6d3045406e95c07cd85c778e4b8cef3ca7abac09b95c709ee5 := by decide +kernel
example : (geSetGej (addGe (gejSetGe gWords) (geNeg gWords))).infinity = true := by decide +kernel
example : (sqrt (setInt 4)).2 = true ∧ (sqrt (setInt 5)).2 = false := by decide +kernel
example : Normal (setInt 1) (1 : F) ∧ (1 : F) ≠ 0 := by unfold Normal; decide +kernel
example : (invert (svdw (setInt 1)) 0).2 ≠ 0 ∨ (invert (svdw (setInt 1)) 1).2 ≠ 0 ∨ (invert (svdw (setInt 1)) 2).2 ≠ 0 ∨ (invert (svdw (setInt 1)) 3).2 ≠ 0 := by
  decide +kernel

end Verif.Props.Ec52
