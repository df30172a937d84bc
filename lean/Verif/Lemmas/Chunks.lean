import Verif.Base
/-
Folding a function over the blocks of a message.
-/
namespace Verif.Chunks
variable {σ : Type}

/-- `n` blocks of `B` bytes, one after another. -/
def chunks (B : Nat) (f : σ → Bytes → σ) : Nat → Bytes → σ → σ
  | 0, _, s => s
  | n + 1, m, s => chunks B f n (m.drop B) (f s (m.take B))

theorem chunks_add (B : Nat) (f : σ → Bytes → σ) (a b : Nat) (m : Bytes) (s : σ) :
    chunks B f (a + b) m s = chunks B f b (m.drop (a * B)) (chunks B f a m s) := by
  induction a generalizing m s with
  | zero => simp [chunks]
  | succ a ih =>
    rw [show a + 1 + b = (a + b) + 1 by omega, chunks, ih, chunks, List.drop_drop]
    congr 2
    rw [Nat.add_mul]; omega

theorem chunks_append (B : Nat) (f : σ → Bytes → σ) (n : Nat) (m r : Bytes) (s : σ) (h : n * B ≤ m.length) :
    chunks B f n (m ++ r) s = chunks B f n m s := by
  induction n generalizing m s with
  | zero => rfl
  | succ n ih =>
    have hB : (n + 1) * B = n * B + B := by rw [Nat.add_mul]; omega
    rw [chunks, chunks, List.drop_append_of_le_length (by omega), List.take_append_of_le_length (by omega)]
    exact ih _ _ (by rw [List.length_drop]; omega)

/-- A message of whole blocks, then one block more. -/
theorem chunks_snoc (B : Nat) (f : σ → Bytes → σ) (n : Nat) (m b : Bytes) (s : σ) (h : m.length = n * B) (hb : b.length = B) :
    chunks B f (n + 1) (m ++ b) s = f (chunks B f n m s) b := by
  rw [chunks_add, chunks_append B f n m b s (by omega), ← h, List.drop_left, chunks, chunks]
  rw [← hb, List.take_length]

theorem chunks_map {τ : Type} (B : Nat) (f : σ → Bytes → σ) (g : τ → Bytes → τ) (r : σ → τ)
    (h : ∀ s b, b.length = B → r (f s b) = g (r s) b) (n : Nat) (m : Bytes) (s : σ) (hl : n * B ≤ m.length) :
    r (chunks B f n m s) = chunks B g n m (r s) := by
  induction n generalizing m s with
  | zero => rfl
  | succ n ih =>
    have hB : (n + 1) * B = n * B + B := by rw [Nat.add_mul]; omega
    rw [chunks, chunks, ih _ _ (by rw [List.length_drop]; omega), h _ _ (by rw [List.length_take]; omega)]

end Verif.Chunks
