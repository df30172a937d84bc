import Verif.Model.StorePath
import Verif.Spec.StorePath
import Verif.Lemmas.Words
namespace Verif.StorePath
open Verif.Words Verif.Spec.StorePath

theorem digit_byte (n : Nat) (h : n < 10) : (0x30 ≤ UInt8.ofNat (0x30 + n) ∧ UInt8.ofNat (0x30 + n) ≤ 0x39) ∧ (UInt8.ofNat (0x30 + n)).toNat - 0x30 = n := by
  have : ∀ n < 10, (0x30 ≤ UInt8.ofNat (0x30 + n) ∧ UInt8.ofNat (0x30 + n) ≤ 0x39) ∧ (UInt8.ofNat (0x30 + n)).toNat - 0x30 = n := by decide
  exact this n h

theorem decimal_spec : ∀ (f n : Nat), n < 10 ^ f → 0 < f → Digits (Addr.decimal f n) ∧ amount (Addr.decimal f n) = n ∧
    ∀ k, 0 < k → ((Addr.decimal f n).length ≤ k ↔ n < 10 ^ k)
  | 0, _, _, h => absurd h (by decide)
  | f + 1, n, h, _ => by
    rw [Addr.decimal]
    by_cases h10 : n < 10
    · rw [if_pos h10]
      obtain ⟨h1, h2⟩ := digit_byte n h10
      refine ⟨⟨by simp, by simpa using h1⟩, ?_, fun k hk => ⟨fun _ => ?_, fun _ => by simp; omega⟩⟩
      · unfold amount; rw [List.foldl_cons, List.foldl_nil, h2]; omega
      · have := Nat.pow_le_pow_right (show 0 < 10 by decide) hk; omega
    · rw [if_neg h10]
      have hf : 0 < f := by
        rcases f with _ | f
        · simp at h; omega
        · omega
      rw [Nat.pow_succ] at h
      obtain ⟨⟨d1, d2⟩, d3, d4⟩ := decimal_spec f (n / 10) (by omega) hf
      obtain ⟨h1, h2⟩ := digit_byte (n % 10) (Nat.mod_lt _ (by decide))
      refine ⟨⟨by simp, fun c hc => ?_⟩, ?_, fun k hk => ?_⟩
      · rcases List.mem_append.1 hc with hc | hc
        · exact d2 c hc
        · rw [List.mem_singleton.1 hc]; exact h1
      · unfold amount at d3 ⊢; rw [List.foldl_append, d3, List.foldl_cons, List.foldl_nil, h2]; omega
      · rw [List.length_append, List.length_singleton]
        obtain ⟨k, rfl⟩ : ∃ j, k = j + 1 := ⟨k - 1, by omega⟩
        have hl : 0 < (Addr.decimal f (n / 10)).length := List.length_pos_iff.2 d1
        rcases k with _ | k
        · constructor
          · intro h; omega
          · intro h; simp at h; omega
        · have := d4 (k + 1) (by omega)
          rw [Nat.pow_succ 10 (k + 1)]
          generalize 10 ^ (k + 1) = P at *
          omega

theorem net_small (net : Net) : net.text.length ≤ 7 ∧ 0 ∉ net.text := by cases net <;> decide

/-- The lasting name. -/
theorem sprintf_spec (mem t : Bytes) (h : t.length + 1 ≤ mem.length) : ∃ r, sprintf mem t = .ok (t ++ 0 :: r) ∧ (t ++ 0 :: r).length = mem.length := by
  refine ⟨mem.drop (t.length + 1), ?_, by simp; omega⟩
  unfold sprintf
  rw [memcpy_ok (by simp; omega)]
  simp

end Verif.StorePath
