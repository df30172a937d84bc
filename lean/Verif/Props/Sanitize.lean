import Verif.Lemmas.Sanitize
/-
C100: names made readable.
-/
namespace Verif.Props.Sanitize
open Verif.Sanitize Verif.Spec.Sanitize

/-- C100. A name whose octets are below 127 is made into a text that a reader of zone files takes for the same
name. What is missing: the other octets. -/
theorem C100_readable_partial (labels : List Bytes) (hf : Fits labels) (h : ∀ l ∈ labels, ∀ b ∈ l, b < 127) (out : Bytes) (ho : out.length = 1010) :
    ∃ out', sanitize (held labels) out = .ok out' ∧ reading (text out') = some (spelled labels) := by
  obtain ⟨out', e, ht⟩ := sanitize_spec labels hf out ho
  exact ⟨out', e, by rw [ht]; exact reading_spec labels h⟩

/-- C100. Whatever its octets, nothing outside an array of 1010 is written for a name that fits on the wire. -/
theorem C100_bounds (labels : List Bytes) (hf : Fits labels) (out : Bytes) (ho : out.length = 1010) : sanitize (held labels) out ≠ .ub := by
  obtain ⟨out', e, _⟩ := sanitize_spec labels hf out ho
  rw [e]
  exact fun h => by cases h

/-- C100. No other octet is made readable: the middle one of its three digits is not reduced to a digit (or the
octet stands for another one). -/
theorem C100_octets_false (b : UInt8) (h : 127 ≤ b) (out : Bytes) (ho : out.length = 1010) :
    ∃ out', sanitize (held [[b]]) out = .ok out' ∧ reading (text out') ≠ some (spelled [[b]]) := by
  obtain ⟨out', e, ht⟩ := sanitize_spec [[b]] (by unfold Fits; simp) out ho
  refine ⟨out', e, ?_⟩
  rw [ht]
  have : ∀ n < 256, 127 ≤ n → reading ((held [[UInt8.ofNat n]]).flatMap piece) ≠ some (spelled [[UInt8.ofNat n]]) := by decide +kernel
  have := this b.toNat b.toNat_lt h
  rwa [UInt8.ofNat_toNat] at this

/-- C100. For a text longer than a name can be, the check of the size comes too late. -/
theorem C100_long_false (out : Bytes) (ho : out.length = 1010) : sanitize (List.replicate 1006 0x61 ++ [0x01]) out = .ub := long_ub out ho

/-- The name `a\.b\000(.xn.`, and what the octet 200 becomes. -/
example : (held [[0x61, 0x2e, 0x62, 0, 0x28], [0x78, 0x6e]]).flatMap piece = "a\\.b\\000\\(.xn.".toUTF8.toList := by decide +kernel
example : ∃ out', sanitize (held [[0x61, 0x2e, 0x62, 0, 0x28], [0x78, 0x6e]]) (List.replicate 1010 0xaa) = .ok out' ∧
    reading (text out') = some (spelled [[0x61, 0x2e, 0x62, 0, 0x28], [0x78, 0x6e]]) :=
  C100_readable_partial _ (by unfold Fits; decide) (by decide) _ List.length_replicate
example : piece 200 = "\\2D0".toUTF8.toList := by decide +kernel

end Verif.Props.Sanitize
