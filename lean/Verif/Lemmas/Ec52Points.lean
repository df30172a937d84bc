import Verif.Lemmas.Ec52Keys
import Verif.Lemmas.EllSpec
/-
The functions of Model/Ec52 and the points of the curve.
-/
namespace Verif.Lemmas.Ec52Points
open Verif Verif.Spec.Secp Verif.Spec.Svdw Verif.Field52 Verif.Ec52 Verif.Lemmas.EllMap Verif.Lemmas.EllGroup Verif.Lemmas.EllHash
open Verif.Ecdsa (Rng rngInit rngGenerate)

theorem root {m : Nat} {a : Fe} {x : F} (ha : Stands m a x) (hm : m ≤ 8) :
    ((sqrt a).2 = true ↔ IsSquare x) ∧ (IsSquare x → ∃ r, Stands 1 (sqrt a).1 r ∧ r * r = x) := by
  obtain ⟨h1, h2⟩ := sqrt_spec ha hm
  rw [h2]
  exact ⟨EllField.sqrt_flag x, fun h => ⟨_, h1, EllField.sqrt_spec h⟩⟩

theorem inverse {m : Nat} {a : Fe} {x : F} (ha : Stands m a x) (hm : m ≤ 8) : Stands 1 (inv a) x⁻¹ := by
  have := inv_spec ha hm
  rwa [EllField.inv_eq] at this

theorem ge_of {m : Nat} {g : Ge} {x y : F} {h : curve.Nonsingular x y} (hg : IsPoint m g (.some x y h)) : GeS m g ⟨x, y, false⟩ :=
  ⟨hg.2.1, hg.2.2, hg.1⟩

theorem of_is {m : Nat} {g : Ge} {e : Elligator.Ge} (hg : GeS m g e) {P : Point} (h : Is e P) : IsPoint m g P := by
  cases P with
  | zero => exact hg.2.2.trans h
  | some x y hn =>
    have h : e = ⟨x, y, false⟩ := h
    subst h
    exact ⟨hg.2.2, hg.1, hg.2.1⟩

theorem map {u : Fe} {x : F} (hu : Normal u x) (hx : x ≠ 0) : ∃ P, Image x P ∧ IsPoint 2 (svdw u) P :=
  ⟨_, EllSpec.image_svdw hx, of_is (svdw_spec hu) (is_pt (svdw_on hx))⟩

theorem invert_words {g : Ge} {x y : F} {h : curve.Nonsingular x y} (hg : IsPoint 8 g (.some x y h)) :
    (∀ r, (invert g r).2 ≠ 0 → ∃ u, u ≠ 0 ∧ Stands 2 (invert g r).1 u ∧ Image u (.some x y h)) ∧
    (∀ u, u ≠ 0 → Image u (.some x y h) → ∃ r < 4, (invert g r).2 ≠ 0 ∧ Stands 2 (invert g r).1 u) := by
  have hg := ge_of hg
  constructor
  · intro r hr
    obtain ⟨h1, h2⟩ := invert_spec hg (by decide) r
    rcases hq : Elligator.invert ⟨x, y, false⟩ r with ⟨u, o⟩
    rw [hq] at h1 h2
    have ho : o = true := h1.1 hr
    subst ho
    obtain ⟨k1, k2⟩ := EllSpec.invert_sound h hq
    exact ⟨u, k1, h2, k2⟩
  · intro u hu hi
    obtain ⟨r, hr, e⟩ := EllSpec.invert_complete hu hi
    obtain ⟨h1, h2⟩ := invert_spec hg (by decide) r
    rw [e] at h1 h2
    exact ⟨r, hr, h1.2 rfl, h2⟩

theorem add_words {a b : Ge} {x1 y1 x2 y2 : F} {h1 : curve.Nonsingular x1 y1} {h2 : curve.Nonsingular x2 y2}
    (ha : IsPoint 8 a (.some x1 y1 h1)) (hb : IsPoint 8 b (.some x2 y2 h2)) :
    IsPoint 8 (geSetGej (addGe (gejSetGe a) b)) (.some x1 y1 h1 + .some x2 y2 h2) ∧ IsPoint 8 (geNeg a) (-.some x1 y1 h1) := by
  have ga := ge_of ha
  have gb := ge_of hb
  have o1 : On ⟨x1, y1, false⟩ := ⟨rfl, (on_iff _ _).1 h1⟩
  have o2 : On ⟨x2, y2, false⟩ := ⟨rfl, (on_iff _ _).1 h2⟩
  refine ⟨of_is (geSetGej_spec (addGe_spec (gej_spec ga (by decide)) gb)) (add_spec o1 o2), ?_⟩
  have hn := neg_spec ga (by decide)
  have e : (-.some x1 y1 h1 : Point) = .some x1 (curve.negY x1 y1) ((WeierstrassCurve.Affine.nonsingular_neg x1 y1).2 h1) := rfl
  rw [e]
  refine of_is hn ?_
  show Elligator.geNeg _ = _
  rw [negY_eq]
  rfl

theorem parse_words {b : Bytes} {P : Point} (h : compress P = some b) : ∃ k, parse b = some k ∧ serialize k = .ok b := by
  obtain ⟨x, y, hn, rfl, hp⟩ := parse_of h
  rcases parse_spec b with ⟨-, h2⟩ | ⟨k, e, h1, h2, hk⟩
  · rw [hp] at h2; cases h2
  · rw [hp] at h2
    cases h2
    obtain ⟨c, hc, hd⟩ := serialize_on hn
    rw [h] at hd
    cases hd
    exact ⟨k, h1, (serialize_spec hk).trans hc⟩

theorem parse_none {b : Bytes} (h : ∀ P, compress P ≠ some b) : parse b = none := by
  rcases parse_spec b with ⟨h1, -⟩ | ⟨k, e, -, h2, -⟩
  · exact h1
  · obtain ⟨hn, hc⟩ := parse_some h2
    exact absurd hc (h _)

theorem toHash_noKey {f : Nat} {b ent : Bytes} (h : ∀ P, compress P ≠ some b) : toHash f b ent = .err () := by
  have := parse_none h
  unfold toHash
  rw [this]

theorem pubkeyToHash_def {f : Nat} {k : Pubkey} {e : F × F} (hk : KeyS k e) (h0 : e.1 ≠ 0) (ent : Bytes) : pubkeyToHash f k ent ≠ .ub := by
  have hl := load_spec hk
  have h2 : ¬ Elligator.pubkeyLoad e = .ub := by rw [Elligator.pubkeyLoad, if_neg h0]; exact fun h => by cases h
  unfold pubkeyToHash
  generalize pubkeyLoad k = l at *
  rcases hl with ⟨-, h⟩ | ⟨rfl, -⟩
  · exact absurd h h2
  dsimp only
  generalize toHashLoop _ _ _ = r
  rcases r with _ | ⟨u1, u2⟩
  · intro h; cases h
  · unfold toHashEnd
    dsimp only
    generalize getB32 _ ++ getB32 _ = z
    intro h; cases h

theorem toHash_def (f : Nat) (b ent : Bytes) : toHash f b ent ≠ .ub := by
  have hp := parse_spec b
  have hq : ∀ {e}, Elligator.parse b = some e → e.1 ≠ 0 := by
    intro e he
    obtain ⟨hn, -⟩ := parse_some he
    exact EllField.x_ne ((on_iff _ _).1 hn)
  unfold toHash
  generalize parse b = a at *
  rcases hp with ⟨rfl, -⟩ | ⟨k, e, rfl, he, hk⟩
  · intro h; cases h
  · exact pubkeyToHash_def hk (hq he) ent

theorem encode {f : Nat} {pub ent out : Bytes} (h : toHash f pub ent = .ok out) :
    out.length = 64 ∧ (∃ r, Reached (rngInit ent) r ∧ out.take 32 = (rngGenerate r 32).2) ∧
    (((beNat (out.take 32) : Nat) : F) ≠ 0 → fromHash out = .ok pub) := by
  obtain ⟨r, g, h1, h2, h3, h4⟩ := toHash_spec h
  have hl : out.length = 64 := by
    generalize (fun _ : Nat => (((beNat (rngGenerate r 32).2 : Nat) : F), (randomInt g).1)) = d at h4
    obtain ⟨k, u1, u2, -, -, -, hu⟩ := toHash_ok h4
    rw [hu, List.length_append, getB32_len, getB32_len]
  refine ⟨hl, ⟨r, h1, h3⟩, fun h0 => ?_⟩
  rw [h3] at h0
  rw [fromHash_spec hl]
  generalize ((beNat (rngGenerate r 32).2 : Nat) : F) = u at h0 h4
  generalize (randomInt g).1 = i at h4
  exact (roundtrip (draw := fun _ => (u, i)) (fun _ => h0) h4).2

end Verif.Lemmas.Ec52Points
