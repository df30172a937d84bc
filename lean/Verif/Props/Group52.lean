import Verif.Lemmas.Group52Add
/-
C86: the operations on points of secp256k1 in Jacobian coordinates, in the program's words. `IsJac`, `IsAff`:
Spec/Group52; `IsPoint`: Spec/Ec52.
-/
namespace Verif.Props.Group52
open Verif Verif.Spec.Secp Verif.Field52 Verif.Ec52 Verif.Lemmas.Group52

/-- C86. Doubling, for all points. -/
theorem C86_double {g : F} (hg : g ≠ 0) {a : Gej} {P : Point} (h : IsJac g a P) : IsJac g (doubleVar a).1 (P + P) := jac_double hg h

/-- C86. The two additions that branch, for all points: equal, opposite, and at infinity. What the memory of the result
holds beforehand matters only for the size of its words, and only if the sum is the point at infinity. -/
theorem C86_add_var {g : F} (hg : g ≠ 0) {r a : Gej} {P Q : Point} (hr : P + Q = 0 → Mag 8 r.x ∧ Mag 8 r.y ∧ Mag 8 r.z) (ha : IsJac g a P) :
    (∀ b, IsJac g b Q → IsJac g (addVar r a b).1 (P + Q)) ∧ (∀ b, IsAff g b Q → IsJac g (addGeVar r a b).1 (P + Q)) :=
  ⟨fun _ hb => jac_addVar hg hr ha hb, fun _ hb => jac_addGeVar hg hr ha hb⟩

/-- C86. The addition without branches, for all points to which one that is not at infinity is added. -/
theorem C86_add {g : F} (hg : g ≠ 0) {a : Gej} {b : Ge} {P Q : Point} (ha : IsJac g a P) (hb : IsAff g b Q) : IsJac g (addGe a b) (P + Q) :=
  jac_addGe hg ha hb

/-- C86. The quotient of the third coordinates that the addition yields beside the sum. -/
theorem C86_ratio {g : F} (hg : g ≠ 0) {r a : Gej} {b : Ge} {P Q : Point} (ha : IsJac g a P) (hP : P ≠ 0) (hb : IsAff g b Q)
    (h : P + Q ≠ 0) : ∃ f t, (addGeVar r a b).2 = some f ∧ Stands 8 f t ∧ ∀ z, Stands 8 a.z z → Stands 8 (addGeVar r a b).1.z (z * t) :=
  ratio_words hg ha hP hb h

/-- C86. The opposite, and other coordinates of the same point. -/
theorem C86_neg {g : F} {a : Gej} {P : Point} (h : IsJac g a P) :
    IsJac g (gejNeg a) (-P) ∧ ∀ s t, Stands 8 s t → t ≠ 0 → IsJac g (rescale a s) P :=
  ⟨jac_neg h, fun _ _ hs ht => jac_rescale h hs ht⟩

/-- C86. From affine to Jacobian coordinates and back; and whether the first coordinate is the given one. -/
theorem C86_affine {P : Point} :
    (∀ b, IsAff 1 b P → IsJac 1 (gejSetGe b) P) ∧ (∀ a, IsJac 1 a P → IsPoint 8 (geSetGej a) P) ∧
    (∀ a f x, IsJac 1 a P → P ≠ 0 → Stands 8 f x → (gejEqX f a = true ↔ ∃ y h, P = .some x y h)) := by
  refine ⟨fun _ h => aff_ge h, fun _ h => jac_ge h, fun a f x ha hP hf => ?_⟩
  cases P with
  | zero => exact absurd rfl hP
  | some x1 y1 h1 =>
    rw [jac_eqX ha hf, decide_eq_true_iff]
    constructor
    · rintro rfl; exact ⟨y1, h1, rfl⟩
    · rintro ⟨y, h, e⟩
      rw [WeierstrassCurve.Affine.Point.some.injEq] at e
      exact e.1.symm

/-! ### Cases -/

/-- The words of the base point. -/
def gWords : Ge := ⟨(setB32 (beBytes 32 gx)).1, (setB32 (beBytes 32 gy)).1, false⟩

theorem g_aff : IsAff 1 gWords G := by
  refine aff_point.2 ⟨rfl, ?_, ?_⟩ <;> unfold Stands Mag <;> decide +kernel

example : IsJac 1 (gejSetGe gWords) G := aff_ge g_aff
example : getB32 (normalize (geSetGej (doubleVar (gejSetGe gWords)).1).x) =
    beBytes 32 0xc6047f9441ed7d6d3045406e95c07cd85c778e4b8cef3ca7abac09b95c709ee5 := by decide +kernel
example : getB32 (normalize (geSetGej (addGeVar gejInfinity (doubleVar (gejSetGe gWords)).1 gWords).1).x) =
    beBytes 32 0xf9308a019258c31049344f85f89d5229b531c845836f99b08601f113bce036f9 := by decide +kernel
example : getB32 (normalize (geSetGej (addVar gejInfinity (doubleVar (gejSetGe gWords)).1 (gejSetGe gWords)).1).x) =
    beBytes 32 0xf9308a019258c31049344f85f89d5229b531c845836f99b08601f113bce036f9 := by decide +kernel
example : (addGeVar gejInfinity (gejSetGe gWords) (geNeg gWords)).1.infinity = true := by decide +kernel
example : gejEqX gWords.x (rescale (gejSetGe gWords) (setInt 5)) = true ∧ gejEqX (setInt 5) (gejSetGe gWords) = false := by decide +kernel
example : Mag 8 gejInfinity.x ∧ Mag 8 gejInfinity.y ∧ Mag 8 gejInfinity.z := by unfold Mag; decide +kernel

end Verif.Props.Group52
