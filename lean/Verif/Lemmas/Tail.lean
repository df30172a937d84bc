import Verif.Lemmas.Bio
/-
Readers leave a tail of their input.
-/
namespace Verif.Bio

/-- Whatever is left over is the end of `s`. -/
def Tail {α : Type} (s : Bytes) (x : Rd α) : Prop := ∀ a r, x = .ok (a, r) → r <:+ s

variable {α β : Type}

theorem Tail.bind {s : Bytes} {x : Rd α} {f : α × Bytes → Rd β} (hx : Tail s x)
    (hf : ∀ a t, x = .ok (a, t) → Tail t (f (a, t))) : Tail s (x >>= f) := by
  intro b r h
  obtain ⟨⟨a, t⟩, h1, h2⟩ := Out.bind_eq_ok.1 h
  exact (hf a t h1 b r h2).trans (hx a t h1)

theorem Tail.bind' {γ : Type} {s : Bytes} {x : Out Unit γ} {f : γ → Rd β} (hf : ∀ a, x = .ok a → Tail s (f a)) : Tail s (x >>= f) := by
  intro b r h
  obtain ⟨a, h1, h2⟩ := Out.bind_eq_ok.1 h
  exact hf a h1 b r h2

theorem Tail.pure {s : Bytes} (a : α) : Tail s (Pure.pure (a, s) : Rd α) := by
  intro b r h
  cases h
  exact List.suffix_refl _

theorem Tail.ok {s : Bytes} (a : α) : Tail s (.ok (a, s) : Rd α) := Tail.pure a
theorem Tail.err {s : Bytes} : Tail s (.err () : Rd α) := by intro b r h; cases h
theorem Tail.ub {s : Bytes} : Tail s (.ub : Rd α) := by intro b r h; cases h

theorem Tail.readBytes (n : Nat) (s : Bytes) : Tail s (readBytes n s) := by
  intro b r h
  obtain ⟨rfl, _⟩ := readBytes_eq_ok.1 h
  exact List.suffix_append _ _
theorem Tail.readU8 (s : Bytes) : Tail s (readU8 s) := by
  intro b r h
  obtain ⟨rfl, _⟩ := readU8_eq_ok.1 h
  exact List.suffix_append _ _
theorem Tail.readU16 (s : Bytes) : Tail s (readU16 s) := by
  intro b r h
  obtain ⟨rfl, _⟩ := readU16_eq_ok.1 h
  exact List.suffix_append _ _
theorem Tail.readU32 (s : Bytes) : Tail s (readU32 s) := by
  intro b r h
  obtain ⟨rfl, _⟩ := readU32_eq_ok.1 h
  exact List.suffix_append _ _
theorem Tail.readU64 (s : Bytes) : Tail s (readU64 s) := by
  intro b r h
  obtain ⟨rfl, _⟩ := readU64_eq_ok.1 h
  exact List.suffix_append _ _
theorem Tail.readU16be (s : Bytes) : Tail s (readU16be s) := by
  intro b r h
  obtain ⟨rfl, _⟩ := readU16be_eq_ok.1 h
  exact List.suffix_append _ _
theorem Tail.readU32be (s : Bytes) : Tail s (readU32be s) := by
  intro b r h
  obtain ⟨rfl, _⟩ := readU32be_eq_ok.1 h
  exact List.suffix_append _ _

end Verif.Bio
