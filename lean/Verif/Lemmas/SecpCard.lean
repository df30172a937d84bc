import Verif.Lemmas.SecpOrder
import Verif.Lemmas.EllField
import Mathlib.GroupTheory.Perm.Cycle.Type
import Mathlib.GroupTheory.SpecificGroups.Cyclic
/-
The number of points of the curve is `n`: every point is a multiple of the base point.
-/
namespace Verif.Lemmas.SecpCard
open Verif Verif.Spec.Secp Verif.Elligator Verif.Lemmas.EllField Verif.Lemmas.SecpOrder
open WeierstrassCurve.Affine

/-- A point is determined by its abscissa and the parity of its ordinate. -/
def code : Point → Option (F × Bool)
  | .zero => none
  | .some x y _ => some (x, isOdd y)

theorem code_inj : Function.Injective code := by
  intro P Q h
  cases P with
  | zero => cases Q with
    | zero => rfl
    | some x y hn => cases h
  | some x y hn => cases Q with
    | zero => cases h
    | some x' y' hn' =>
      rw [code, code, Option.some.injEq, Prod.mk.injEq] at h
      obtain ⟨rfl, h2⟩ := h
      have o := (on_iff _ _).1 hn
      have o' := (on_iff _ _).1 hn'
      have ey : y = y' := sq_parity (y_ne o') (by linear_combination o - o') h2
      subst ey
      rfl

noncomputable instance : Fintype F := ZMod.fintype p

instance : Finite Point := Finite.of_injective code code_inj

theorem card_le : Nat.card Point ≤ 2 * p + 1 := by
  have h := Nat.card_le_card_of_injective code code_inj
  have e : Nat.card (Option (F × Bool)) = 2 * p + 1 := by
    rw [Finite.card_option, Nat.card_prod, Nat.card_zmod, Nat.card_eq_fintype_card, Fintype.card_bool]
    rw [Nat.mul_comm]
  omega

theorem no_two (P : Point) (h : P + P = 0) : P = 0 := by
  cases P with
  | zero => rfl
  | some x y hn =>
    exfalso
    have e := eq_neg_of_add_eq_zero_left h
    rw [Point.neg_some, Point.some.injEq, EllGroup.negY_eq] at e
    have hy := y_ne ((on_iff _ _).1 hn)
    have : 2 * y = 0 := by linear_combination e.2
    rcases mul_eq_zero.1 this with e | e
    · exact two_ne e
    · exact hy e

theorem card_eq : Nat.card Point = n := by
  have hd : n ∣ Nat.card Point := by
    have := addOrderOf_dvd_natCard G
    rw [order_G] at this
    exact this
  obtain ⟨k, hk⟩ := hd
  have hle := card_le
  have hpos : 0 < Nat.card Point := Nat.card_pos
  have h3 : 2 * p + 1 < n * 3 := by decide +kernel
  have hk3 : k < 3 := by
    by_contra hc
    have : n * 3 ≤ n * k := Nat.mul_le_mul_left _ (by omega)
    omega
  have hk0 : k ≠ 0 := by rintro rfl; omega
  have hk2 : k ≠ 2 := by
    rintro rfl
    haveI : Fact (Nat.Prime 2) := ⟨Nat.prime_two⟩
    obtain ⟨P, hP⟩ := exists_prime_addOrderOf_dvd_card' (G := Point) 2 (by rw [hk]; exact Dvd.intro_left n rfl)
    have h0 : P + P = 0 := by
      have := addOrderOf_nsmul_eq_zero P
      rwa [hP, two_nsmul] at this
    have := no_two P h0
    rw [this, addOrderOf_zero] at hP
    omega
  have : k = 1 := by omega
  rw [hk, this, Nat.mul_one]

theorem n_nsmul_all (P : Point) : n • P = 0 := by
  rw [← card_eq]; exact card_nsmul_eq_zero'

theorem multiple (P : Point) : ∃ k < n, P = k • G := by
  haveI : Fact n.Prime := ⟨n_prime⟩
  have hG : G ≠ 0 := by
    intro h
    have := order_G
    rw [h, addOrderOf_zero] at this
    have hn : 1 < n := n_prime.one_lt
    omega
  have := mem_zmultiples_of_prime_card (p := n) card_eq hG (g' := P)
  obtain ⟨z, hz⟩ := this
  have hz : z • G = P := hz
  have hn : (0 : Int) < n := by exact_mod_cast n_prime.pos
  refine ⟨(z % n).toNat, ?_, ?_⟩
  · have := Int.emod_lt_of_pos z hn; have := Int.emod_nonneg z (by omega : (n : Int) ≠ 0); omega
  · have h0 := Int.emod_nonneg z (by omega : (n : Int) ≠ 0)
    rw [← natCast_zsmul, Int.toNat_of_nonneg h0, ← hz]
    have := mod_addOrderOf_zsmul G z
    rw [order_G] at this
    exact this.symm

/-- A multiple of a point by a number that is no multiple of `n` is not the point at infinity. -/
theorem nsmul_ne {k : Nat} (hk : k % n ≠ 0) {P : Point} (hP : P ≠ 0) : k • P ≠ 0 := by
  haveI : Fact n.Prime := ⟨n_prime⟩
  intro h
  have h1 := addOrderOf_dvd_of_nsmul_eq_zero (n_nsmul_all P)
  rcases (Nat.dvd_prime n_prime).1 h1 with e | e
  · exact hP (AddMonoid.addOrderOf_eq_one_iff.1 e)
  · have := addOrderOf_dvd_of_nsmul_eq_zero h
    rw [e] at this
    exact hk (Nat.mod_eq_zero_of_dvd this)

end Verif.Lemmas.SecpCard
