import Verif.Lemmas.EccVli
/-
vli_mult and vli_sqr multiply.
-/
namespace Verif.Lemmas.EccMul
open Verif Verif.Model.Ecc Verif.Lemmas.EccVli

/-- The number in the accumulators. -/
def tot (a : Acc) : Nat := a.r01 + 2 ^ 128 * a.r2

theorem accAdd_spec {a : Acc} {p : Nat} (h1 : a.r01 < 2 ^ 128) (h2 : a.r2 + 1 < 2 ^ 64) (hp : p < 2 ^ 128) :
    (accAdd a p).r01 < 2 ^ 128 ∧ tot (accAdd a p) = tot a + p ∧ (accAdd a p).r2 ≤ a.r2 + 1 := by
  unfold accAdd tot
  dsimp only
  split
  · rw [Nat.mod_eq_of_lt (by omega : a.r2 + 1 < 2 ^ 64)]; omega
  · rw [Nat.mod_eq_of_lt (by omega : a.r2 + 0 < 2 ^ 64)]; omega

theorem prod_lt (x y : UInt64) : x.toNat * y.toNat < 2 ^ 128 := by
  have hx := x.toNat_lt; have hy := y.toNat_lt
  calc x.toNat * y.toNat ≤ (2 ^ 64 - 1) * (2 ^ 64 - 1) := Nat.mul_le_mul (by omega) (by omega)
    _ < 2 ^ 128 := by norm_num

/-- What a term adds. -/
def Adds (term : Nat → Acc → Nat → Acc) (w : Nat → Nat → Nat) : Prop :=
  ∀ k i a, a.r01 < 2 ^ 128 → a.r2 < 2 ^ 63 →
    (term k a i).r01 < 2 ^ 128 ∧ tot (term k a i) = tot a + w k i ∧ (term k a i).r2 ≤ a.r2 + 2

theorem multTerm_adds (l r : Vli) : Adds (multTerm l r) fun k i => (dig l i).toNat * (dig r (k - i)).toNat := by
  intro k i a h1 h2
  have := accAdd_spec h1 (by omega) (prod_lt (dig l i) (dig r (k - i)))
  exact ⟨this.1, this.2.1, by have := this.2.2; unfold multTerm; omega⟩

theorem sqrTerm_adds (l : Vli) : Adds (sqrTerm l) fun k i =>
    (if i < k - i then 2 else 1) * ((dig l i).toNat * (dig l (k - i)).toNat) := by
  intro k i a h1 h2
  have hp := prod_lt (dig l i) (dig l (k - i))
  unfold sqrTerm
  dsimp only
  generalize (dig l i).toNat * (dig l (k - i)).toNat = p at *
  split
  · have hm : (a.r2 + p / 2 ^ 127) % 2 ^ 64 = a.r2 + p / 2 ^ 127 := Nat.mod_eq_of_lt (by omega)
    obtain ⟨q1, q2, q3⟩ := accAdd_spec (a := ⟨a.r01, (a.r2 + p / 2 ^ 127) % 2 ^ 64⟩) (p := p * 2 % 2 ^ 128) h1
      (by dsimp only; omega) (by omega)
    refine ⟨q1, ?_, by dsimp only at q3; omega⟩
    rw [q2]; unfold tot; dsimp only; omega
  · obtain ⟨q1, q2, q3⟩ := accAdd_spec h1 (by omega) hp
    exact ⟨q1, by rw [q2]; omega, by omega⟩

theorem fold_adds {term : Nat → Acc → Nat → Acc} {w : Nat → Nat → Nat} (h : Adds term w) (k : Nat) :
    ∀ (is : List Nat) (a : Acc), a.r01 < 2 ^ 128 → a.r2 + 2 * is.length < 2 ^ 63 →
      (is.foldl (term k) a).r01 < 2 ^ 128 ∧ tot (is.foldl (term k) a) = tot a + (is.map (w k)).sum ∧
        (is.foldl (term k) a).r2 ≤ a.r2 + 2 * is.length
  | [], a, h1, _ => by simpa using h1
  | i :: is, a, h1, h2 => by
    simp only [List.length_cons] at h2
    obtain ⟨q1, q2, q3⟩ := h k i a h1 (by omega)
    obtain ⟨s1, s2, s3⟩ := fold_adds h k is (term k a i) q1 (by omega)
    refine ⟨s1, ?_, ?_⟩
    · simp only [List.foldl_cons, List.map_cons, List.sum_cons]; rw [s2, q2]; omega
    · simp only [List.foldl_cons, List.length_cons]; omega

theorem accOut_spec {a : Acc} (h1 : a.r01 < 2 ^ 128) (h2 : a.r2 < 2 ^ 63) :
    (accOut a).1.toNat = tot a % 2 ^ 64 ∧ (accOut a).2.r01 = tot a / 2 ^ 64 ∧ (accOut a).2.r2 = 0 := by
  unfold accOut tot
  dsimp only
  refine ⟨?_, ?_, rfl⟩
  · simp only [UInt64.toNat_ofNat']; omega
  · rw [Nat.mod_eq_of_lt (by omega), Nat.or_comm, or_add (k := 64) (by omega) (by omega)]; omega

/-- The sum of the columns. -/
def colSum (w : Nat → Nat → Nat) (range : Nat → List Nat) : List Nat → Nat
  | [] => 0
  | k :: ks => ((range k).map (w k)).sum + 2 ^ 64 * colSum w range ks

theorem columns_spec {term : Nat → Acc → Nat → Acc} {w : Nat → Nat → Nat} {range : Nat → List Nat} (h : Adds term w)
    (hr : ∀ k, (range k).length ≤ 4) : ∀ (ks : List Nat) (a : Acc), a.r01 < 2 ^ 128 → a.r2 = 0 →
      a.r01 + colSum w range ks < 2 ^ (64 * (ks.length + 1)) →
      val (columns term range ks a) = a.r01 + colSum w range ks ∧ (columns term range ks a).length = ks.length + 1
  | [], a, h1, _, h3 => by
    simp only [colSum, List.length_nil] at h3
    simp only [columns, val, colSum, UInt64.toNat_ofNat', List.length_cons, List.length_nil, and_true]
    rw [Nat.mod_eq_of_lt (by simpa using h3)]; omega
  | k :: ks, a, h1, h2, h3 => by
    have hk := hr k
    obtain ⟨f1, f2, f3⟩ := fold_adds h k (range k) a h1 (by omega)
    obtain ⟨o1, o2, o3⟩ := accOut_spec (a := (range k).foldl (term k) a) f1 (by omega)
    have htot : tot ((range k).foldl (term k) a) < 2 ^ 192 := by unfold tot; omega
    have e : 2 ^ (64 * (ks.length + 1 + 1)) = 2 ^ 64 * 2 ^ (64 * (ks.length + 1)) := by
      rw [← Nat.pow_add]; ring_nf
    have ht : tot a = a.r01 := by unfold tot; omega
    simp only [colSum, List.length_cons, e] at h3
    obtain ⟨i1, i2⟩ := columns_spec h hr ks (accOut ((range k).foldl (term k) a)).2 (by omega) o3 (by
      rw [o2]; generalize 2 ^ (64 * (ks.length + 1)) = X at *; omega)
    simp only [columns, val, colSum, List.length_cons, i2, and_true]
    rw [i1, o1, o2]; omega

theorem multRange_le (k : Nat) : (multRange k).length ≤ 4 :=
  Nat.le_trans (List.length_filter_le _ _) (by simp)

theorem sqrRange_le (k : Nat) : (sqrRange k).length ≤ 4 :=
  Nat.le_trans (List.length_filter_le _ _) (by simp)

theorem mul_lt {l r : Vli} (hl : l.length = 4) (hr : r.length = 4) : val l * val r < 2 ^ 512 := by
  have h1 := val_lt4 hl; have h2 := val_lt4 hr
  calc val l * val r ≤ (2 ^ 256 - 1) * (2 ^ 256 - 1) := Nat.mul_le_mul (by omega) (by omega)
    _ < 2 ^ 512 := by decide +kernel

theorem mult_spec {l r : Vli} (hl : l.length = 4) (hr : r.length = 4) :
    val (mult l r) = val l * val r ∧ (mult l r).length = 8 := by
  have hlt := mul_lt hl hr
  have hs : colSum (fun k i => (dig l i).toNat * (dig r (k - i)).toNat) multRange [0, 1, 2, 3, 4, 5, 6] = val l * val r := by
    obtain ⟨a0, a1, a2, a3, rfl⟩ := four hl
    obtain ⟨b0, b1, b2, b3, rfl⟩ := four hr
    have r0 : multRange 0 = [0] := by decide
    have r1 : multRange 1 = [0, 1] := by decide
    have r2 : multRange 2 = [0, 1, 2] := by decide
    have r3 : multRange 3 = [0, 1, 2, 3] := by decide
    have r4 : multRange 4 = [1, 2, 3] := by decide
    have r5 : multRange 5 = [2, 3] := by decide
    have r6 : multRange 6 = [3] := by decide
    simp only [colSum, r0, r1, r2, r3, r4, r5, r6, List.map_cons, List.map_nil, List.sum_cons, List.sum_nil, dig,
      List.getD_cons_zero, List.getD_cons_succ, val, Nat.sub_zero, Nat.sub_self, Nat.reduceSub]
    ring
  have := columns_spec (multTerm_adds l r) multRange_le [0, 1, 2, 3, 4, 5, 6] ⟨0, 0⟩ (by norm_num) rfl (by
    rw [hs]; simpa using hlt)
  rw [hs] at this
  simpa [mult] using this

theorem sqr_spec {l : Vli} (hl : l.length = 4) : val (sqr l) = val l * val l ∧ (sqr l).length = 8 := by
  have hlt := mul_lt hl hl
  have hs : colSum (fun k i => (if i < k - i then 2 else 1) * ((dig l i).toNat * (dig l (k - i)).toNat)) sqrRange
      [0, 1, 2, 3, 4, 5, 6] = val l * val l := by
    obtain ⟨a0, a1, a2, a3, rfl⟩ := four hl
    have r0 : sqrRange 0 = [0] := by decide
    have r1 : sqrRange 1 = [0] := by decide
    have r2 : sqrRange 2 = [0, 1] := by decide
    have r3 : sqrRange 3 = [0, 1] := by decide
    have r4 : sqrRange 4 = [1, 2] := by decide
    have r5 : sqrRange 5 = [2] := by decide
    have r6 : sqrRange 6 = [3] := by decide
    simp only [colSum, r0, r1, r2, r3, r4, r5, r6, List.map_cons, List.map_nil, List.sum_cons, List.sum_nil, dig,
      List.getD_cons_zero, List.getD_cons_succ, val, Nat.sub_zero, Nat.sub_self, Nat.reduceSub, Nat.reduceLT, if_true,
      if_false]
    ring
  have := columns_spec (sqrTerm_adds l) sqrRange_le [0, 1, 2, 3, 4, 5, 6] ⟨0, 0⟩ (by norm_num) rfl (by
    rw [hs]; simpa using hlt)
  rw [hs] at this
  simpa [sqr] using this

end Verif.Lemmas.EccMul
