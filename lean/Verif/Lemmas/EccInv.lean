import Verif.Lemmas.EccMod
import Mathlib.Data.Int.GCD
import Mathlib.Algebra.Ring.Divisibility.Basic
/-
vli_mod_inv inverts modulo an odd number.
-/
namespace Verif.Lemmas.EccInv
open Verif Verif.Model.Ecc Verif.Lemmas.EccVli Verif.Lemmas.EccMod

theorem odd_dvd {m y : Int} (hm : m % 2 = 1) (h : m ∣ 2 * y) : m ∣ y := by
  have e : y = m * y - (m / 2) * (2 * y) := by
    have : m = 2 * (m / 2) + 1 := by omega
    calc y = (2 * (m / 2) + 1) * y - (m / 2) * (2 * y) := by ring
      _ = _ := by rw [← this]
  rw [e]
  exact dvd_sub (Dvd.intro _ rfl) (Dvd.dvd.mul_left h _)

/-- What holds on each round of vli_mod_inv. -/
structure Good (m : Vli) (x : Nat) (s : Inv) : Prop where
  la : s.a.length = 4
  lb : s.b.length = 4
  lu : s.u.length = 4
  lv : s.v.length = 4
  pa : 0 < val s.a
  pb : 0 < val s.b
  hu : val s.u < val m
  hv : val s.v < val m
  co : Nat.Coprime (val s.a) (val s.b)
  du : (val m : Int) ∣ (val s.u : Int) * x - val s.a
  dv : (val m : Int) ∣ (val s.v : Int) * x - val s.b

theorem halve_good {u m : Vli} {x a : Nat} (hu : u.length = 4) (hm : m.length = 4) (hodd : val m % 2 = 1)
    (h : val u < val m) (ha : a % 2 = 0) (hd : (val m : Int) ∣ (val u : Int) * x - a) :
    (halve u m).length = 4 ∧ val (halve u m) < val m ∧ (val m : Int) ∣ (val (halve u m) : Int) * x - (a / 2 : Nat) := by
  obtain ⟨h1, h2⟩ := halve_spec hu hm hodd h
  refine ⟨h2, by rw [h1]; split <;> omega, ?_⟩
  apply odd_dvd (by omega)
  have ea : (2 : Int) * (a / 2 : Nat) = a := by omega
  rw [h1]
  split
  · rename_i he
    have eu : (2 : Int) * (val u / 2 : Nat) = val u := by omega
    have : 2 * ((val u / 2 : Nat) * (x : Int) - (a / 2 : Nat)) = val u * x - a := by
      rw [mul_sub, ← mul_assoc, eu, ea]
    rw [this]; exact hd
  · rename_i he
    have eu : (2 : Int) * ((val u + val m) / 2 : Nat) = val u + val m := by omega
    have : 2 * (((val u + val m) / 2 : Nat) * (x : Int) - (a / 2 : Nat)) = (val u * x - a) + val m * x := by
      rw [mul_sub, ← mul_assoc, eu, ea]; ring
    rw [this]; exact dvd_add hd (Dvd.intro _ rfl)

theorem subInv_good {u v m : Vli} {x a b : Nat} (hu : u.length = 4) (hv : v.length = 4) (hm : m.length = 4)
    (h : val u < val m) (h' : val v < val m) (hab : b ≤ a) (hd : (val m : Int) ∣ (val u : Int) * x - a)
    (hd' : (val m : Int) ∣ (val v : Int) * x - b) :
    (subInv u v m).length = 4 ∧ val (subInv u v m) < val m ∧
      (val m : Int) ∣ (val (subInv u v m) : Int) * x - (a - b : Nat) := by
  have key : (subInv u v m).length = 4 ∧ (val (subInv u v m) + val v = val u ∨ val (subInv u v m) + val v = val u + val m) ∧
      val (subInv u v m) < val m := by
    unfold subInv
    dsimp only
    have hm4 := val_lt4 hm
    split
    · rename_i hc
      rw [cmp_lt hu hv] at hc
      obtain ⟨s1, s2⟩ := add_spec hu hm
      have sl := add_length hu hm
      obtain ⟨t1, t2⟩ := sub_spec sl hv
      have tl := sub_length sl hv
      have := val_lt4 sl; have := val_lt4 tl
      refine ⟨tl, .inr (by omega), by omega⟩
    · rename_i hc
      rw [cmp_lt hu hv] at hc
      refine ⟨sub_length hu hv, .inl ?_, ?_⟩
      · rw [sub_le hu hv (by omega)]; omega
      · rw [sub_le hu hv (by omega)]; omega
  obtain ⟨k1, k2, k3⟩ := key
  refine ⟨k1, k3, ?_⟩
  generalize val (subInv u v m) = w at *
  have ea : ((a - b : Nat) : Int) = a - b := by omega
  rw [ea]
  rcases k2 with k2 | k2
  · have e : (w : Int) = val u - val v := by omega
    have : ((w : Int) * x - (a - b)) = (val u * x - a) - (val v * x - b) := by rw [e]; ring
    rw [this]; exact dvd_sub hd hd'
  · have e : (w : Int) = val u - val v + val m := by omega
    have : ((w : Int) * x - (a - b)) = (val u * x - a) - (val v * x - b) + val m * x := by rw [e]; ring
    rw [this]; exact dvd_add (dvd_sub hd hd') (Dvd.intro _ rfl)

theorem half_coprime {a b : Nat} (h : Nat.Coprime a b) (ha : a % 2 = 0) : Nat.Coprime (a / 2) b :=
  Nat.Coprime.coprime_dvd_left ⟨2, by omega⟩ h

theorem diff_coprime {a b : Nat} (h : Nat.Coprime a b) (hab : b ≤ a) (ha : (a - b) % 2 = 0) :
    Nat.Coprime ((a - b) / 2) b :=
  half_coprime (by rw [Nat.Coprime, Nat.gcd_sub_self_left hab]; exact h) ha

theorem invStep_good {m : Vli} {x : Nat} {s : Inv} (hm : m.length = 4) (hodd : val m % 2 = 1) (g : Good m x s)
    (hne : vcmp s.a s.b ≠ 0) :
    Good m x (invStep m s) ∧ 2 * (val (invStep m s).a * val (invStep m s).b) ≤ val s.a * val s.b := by
  rw [Ne, cmp_zero g.la g.lb] at hne
  have hpa := g.pa; have hpb := g.pb
  unfold invStep
  split
  · rename_i he
    rw [even_iff] at he
    obtain ⟨r1, r2⟩ := rshift1_spec s.a
    obtain ⟨k1, k2, k3⟩ := halve_good g.lu hm hodd g.hu he g.du
    refine ⟨⟨by rw [r2]; exact g.la, g.lb, k1, g.lv, by dsimp only; omega, g.pb, k2, g.hv, ?_, ?_, g.dv⟩, ?_⟩
    · dsimp only; rw [r1]; exact half_coprime g.co he
    · dsimp only; rw [r1]; exact k3
    · dsimp only; rw [r1, ← mul_assoc]; exact Nat.mul_le_mul_right _ (by omega)
  · rename_i he
    rw [even_iff] at he
    split
    · rename_i hf
      rw [even_iff] at hf
      obtain ⟨r1, r2⟩ := rshift1_spec s.b
      obtain ⟨k1, k2, k3⟩ := halve_good g.lv hm hodd g.hv hf g.dv
      refine ⟨⟨g.la, by rw [r2]; exact g.lb, g.lu, k1, g.pa, by dsimp only; omega, g.hu, k2, ?_, g.du, ?_⟩, ?_⟩
      · dsimp only; rw [r1]; exact (half_coprime g.co.symm hf).symm
      · dsimp only; rw [r1]; exact k3
      · dsimp only; rw [r1, mul_left_comm]; exact Nat.mul_le_mul_left _ (by omega)
    · rename_i hf
      rw [even_iff] at hf
      split
      · rename_i hc
        rw [cmp_gt g.la g.lb] at hc
        have sl := sub_length g.la g.lb
        have sv := sub_le g.la g.lb (by omega)
        obtain ⟨r1, r2⟩ := rshift1_spec (sub s.a s.b).1
        rw [sv] at r1
        obtain ⟨j1, j2, j3⟩ := subInv_good g.lu g.lv hm g.hu g.hv (by omega : val s.b ≤ val s.a) g.du g.dv
        obtain ⟨k1, k2, k3⟩ := halve_good j1 hm hodd j2 (by omega : (val s.a - val s.b) % 2 = 0) j3
        refine ⟨⟨by rw [r2]; exact sl, g.lb, k1, g.lv, by dsimp only; omega, g.pb, k2, g.hv, ?_, ?_, g.dv⟩, ?_⟩
        · dsimp only; rw [r1]; exact diff_coprime g.co (by omega) (by omega)
        · dsimp only; rw [r1]; exact k3
        · dsimp only; rw [r1, ← mul_assoc]; exact Nat.mul_le_mul_right _ (by omega)
      · rename_i hc
        rw [cmp_gt g.la g.lb] at hc
        have sl := sub_length g.lb g.la
        have sv := sub_le g.lb g.la (by omega)
        obtain ⟨r1, r2⟩ := rshift1_spec (sub s.b s.a).1
        rw [sv] at r1
        obtain ⟨j1, j2, j3⟩ := subInv_good g.lv g.lu hm g.hv g.hu (by omega : val s.a ≤ val s.b) g.dv g.du
        obtain ⟨k1, k2, k3⟩ := halve_good j1 hm hodd j2 (by omega : (val s.b - val s.a) % 2 = 0) j3
        refine ⟨⟨g.la, by rw [r2]; exact sl, g.lu, k1, g.pa, by dsimp only; omega, g.hu, k2, ?_, g.du, ?_⟩, ?_⟩
        · dsimp only; rw [r1]; exact (diff_coprime g.co.symm (by omega) (by omega)).symm
        · dsimp only; rw [r1]; exact k3
        · dsimp only; rw [r1, mul_left_comm]; exact Nat.mul_le_mul_left _ (by omega)

/-- The loop of vli_mod_inv ends within the rounds given it. -/
theorem invLoop_good {m : Vli} {x : Nat} (hm : m.length = 4) (hodd : val m % 2 = 1) (f : Nat) : ∀ s : Inv, Good m x s →
    val s.a * val s.b < 2 ^ f → Good m x (invLoop m f s) ∧ vcmp (invLoop m f s).a (invLoop m f s).b = 0 := by
  induction f with
  | zero =>
    intro s g h
    have : 0 < val s.a * val s.b := Nat.mul_pos g.pa g.pb
    omega
  | succ f ih =>
    intro s g h
    simp only [invLoop]
    split
    · rename_i hc
      obtain ⟨g', h'⟩ := invStep_good hm hodd g hc
      exact ih _ g' (by rw [Nat.pow_succ] at h; omega)
    · rename_i hc
      exact ⟨g, by simpa using hc⟩

/-- vli_mod_inv inverts. -/
theorem modInv_spec {x m : Vli} (hx : x.length = 4) (hm : m.length = 4) (hodd : val m % 2 = 1) (h1 : 1 < val m)
    (hco : Nat.Coprime (val x) (val m)) :
    (modInv x m).length = 4 ∧ val (modInv x m) < val m ∧ val (modInv x m) * val x % val m = 1 := by
  have hx0 : val x ≠ 0 := by
    intro h; rw [h, Nat.coprime_zero_left] at hco; omega
  have hz : ¬ isZero x = true := fun h => hx0 ((isZero_iff x).1 h)
  unfold modInv
  rw [if_neg hz]
  have e1 : val [1, 0, 0, 0] = 1 := by decide
  have e0 : val clear = 0 := by decide
  have g : Good m (val x) ⟨x, m, [1, 0, 0, 0], clear⟩ := by
    refine ⟨hx, hm, rfl, rfl, by dsimp only; omega, by dsimp only; omega, by dsimp only; omega, by dsimp only; omega,
      hco, ?_, ?_⟩
    · dsimp only; rw [e1]; simp
    · dsimp only; rw [e0]; simp
  have hb : val x * val m < 2 ^ 512 := EccMul.mul_lt hx hm
  obtain ⟨r, hc⟩ := invLoop_good hm hodd 512 _ g hb
  generalize invLoop m 512 ⟨x, m, [1, 0, 0, 0], clear⟩ = t at *
  rw [cmp_zero r.la r.lb] at hc
  have hco := r.co
  rw [hc, Nat.coprime_self] at hco
  have hd := r.du
  rw [hc, hco] at hd
  refine ⟨r.lu, r.hu, ?_⟩
  have h2 : ((val t.u * val x : Nat) : Int) % (val m : Int) = 1 % (val m : Int) :=
    Int.emod_eq_emod_iff_emod_sub_eq_zero.2 (Int.emod_eq_zero_of_dvd (by push_cast at hd ⊢; exact hd))
  rw [Int.emod_eq_of_lt (by omega) (by omega : (1 : Int) < val m)] at h2
  omega

theorem modInv_zero {x m : Vli} (hx : val x = 0) : modInv x m = clear := by
  unfold modInv; rw [if_pos ((isZero_iff x).2 hx)]

end Verif.Lemmas.EccInv
