import Verif.Lemmas.Siphash
/-
C92: the keyed hash of the library is SipHash-2-4. C93: texts for errors.
-/
namespace Verif.Props.Siphash
open Verif Verif.Siphash Verif.Lemmas.Siphash
open Verif.Spec.Siphash (Word word words initial compress final hashWords sip names keyState)

/-- C92: the hash of `len` bytes under a key of 16 bytes is SipHash-2-4 of them; nothing outside the bytes and the key is read. Missing: messages from
2^35 bytes on (C92_long_false). -/
theorem C92_hash_partial (mem : Bytes) (len : Nat) (key : Bytes) (h : len ≤ mem.length) (hk : 16 ≤ key.length) (hs : len < 2 ^ 35) :
    ∃ x, siphash mem len key = .ok x ∧ x.toBitVec = sip key (mem.take len) := sip_eq h hk hs

/-- The example of the paper: the bytes 0 to 14 under the bytes 0 to 15. -/
example : sip ((List.range 16).map UInt8.ofNat) ((List.range 15).map UInt8.ofNat) = 0xa129ca6149be45e5 := by decide +kernel

/-- Bytes after the message have no effect. -/
example : siphash ((List.range 15).map UInt8.ofNat ++ [7, 7]) 15 ((List.range 16).map UInt8.ofNat) = .ok 0xa129ca6149be45e5 := by
  decide +kernel

/-- Further examples of its authors, of 0, 1, 7 and 8 bytes. -/
example : [0, 1, 7, 8].map (fun n => sip ((List.range 16).map UInt8.ofNat) ((List.range n).map UInt8.ofNat)) =
    [0x726fdb47dd0e0e31, 0x74f839c593dc67fd, 0xab0200f58b01d137, 0x93f5f5799a932462] := by decide +kernel

/-- C92: the number of blocks is kept in 32 bits, so that of a longer message only a part enters. -/
theorem C92_long (mem : Bytes) (len : Nat) (key : Bytes) (h : len ≤ mem.length) (hk : 16 ≤ key.length) :
    ∃ x, siphash mem len key = .ok x ∧ x.toBitVec = sip key (mem.take (len % 2 ^ 35)) := by
  obtain ⟨x, e, hx⟩ := sip_eq (mem := mem) (key := key) (len := len % 2 ^ 35) (by omega) hk (Nat.mod_lt _ (by decide))
  exact ⟨x, (long_eq mem len key).trans e, hx⟩

/-- C92: all messages of 2^35 bytes have the same hash under a key, whatever they are. -/
theorem C92_long_false (key : Bytes) (hk : 16 ≤ key.length) (m₁ m₂ : Bytes) (_h₁ : m₁.length = 2 ^ 35) (_h₂ : m₂.length = 2 ^ 35) :
    ∃ x, siphash m₁ (2 ^ 35) key = .ok x ∧ siphash m₂ (2 ^ 35) key = .ok x ∧ siphash [] 0 key = .ok x := by
  obtain ⟨v, e, _⟩ := start_eq hk
  refine ⟨finish v 0, ?_, ?_, ?_⟩
  · rw [long_eq, Nat.mod_self]; unfold siphash; rw [e]; rfl
  · rw [long_eq, Nat.mod_self]; unfold siphash; rw [e]; rfl
  · unfold siphash; rw [e]; rfl

example : ∃ m₁ m₂ : Bytes, m₁ ≠ m₂ ∧ m₁.length = 2 ^ 35 ∧ m₂.length = 2 ^ 35 := by
  refine ⟨List.replicate (2 ^ 35) 0, List.replicate (2 ^ 35) 1, ?_, List.length_replicate, List.length_replicate⟩
  intro h
  have := List.replicate_inj.mp h
  revert this
  rintro ⟨_, h | h⟩
  · exact absurd h (by decide)
  · exact absurd h (by decide)

/-- C92: the hash of a number of 64 bits is SipHash-2-4 of the one word, without a length; of a number of 32 bits it is the low half. -/
theorem C92_number (n : UInt64) (n' : UInt32) (key : Bytes) (hk : 16 ≤ key.length) :
    (∃ x, siphash64 n key = .ok x ∧
      x.toBitVec = hashWords (initial (word (key.take 8)) (word ((key.drop 8).take 8))) [n.toBitVec]) ∧
    (∃ x, siphash32 n' key = .ok x ∧
      x.toBitVec = (hashWords (initial (word (key.take 8)) (word ((key.drop 8).take 8))) [n'.toBitVec.setWidth 64]).setWidth 32) := by
  obtain ⟨v, e, hv⟩ := start_eq hk
  refine ⟨⟨finish v n, ?_, ?_⟩, ⟨(finish v n'.toUInt64).toUInt32, ?_, ?_⟩⟩
  · unfold siphash64; rw [e]; rfl
  · rw [finish_eq, hv]; rfl
  · unfold siphash32 siphash64; rw [e]; rfl
  · rw [UInt64.toBitVec_toUInt32, finish_eq, hv]; rfl

example : 16 ≤ ((List.range 16).map UInt8.ofNat).length := by decide

/-- C92: with a key of 32 bytes the state starts as the key. -/
theorem C92_wide (n : UInt64) (n' : UInt32) (key : Bytes) (hk : 32 ≤ key.length) :
    (∃ x, siphash64k256 n key = .ok x ∧ x.toBitVec = hashWords (keyState key) [n.toBitVec]) ∧
    (∃ x, siphash32k256 n' key = .ok x ∧ x.toBitVec = (hashWords (keyState key) [n'.toBitVec.setWidth 64]).setWidth 32) := by
  obtain ⟨v, e, hv⟩ := wide_eq hk
  refine ⟨⟨finish v n, e n, ?_⟩, ⟨(finish v n'.toUInt64).toUInt32, ?_, ?_⟩⟩
  · rw [finish_eq, hv]; rfl
  · unfold siphash32k256; rw [e]; rfl
  · rw [UInt64.toBitVec_toUInt32, finish_eq, hv]; rfl

example : 32 ≤ ((List.range 32).map UInt8.ofNat).length := by decide

/-- C93: every integer has a text; those that are no error have the same one, which is no error's. -/
theorem C93_total (c : Int) : ∃ s, strerror c = .ok s ∧ (s = "EUNKNOWN" ↔ c < 0 ∨ 31 < c) := by
  by_cases h : 0 ≤ c ∧ c ≤ 31
  · obtain ⟨n, rfl⟩ : ∃ n : Nat, c = n := ⟨c.toNat, by omega⟩
    have hn : n < 32 := by omega
    obtain ⟨s, e, hs⟩ := texts n hn
    exact ⟨s, e, fun x => absurd x hs, fun x => by omega⟩
  · refine ⟨"EUNKNOWN", ?_, fun _ => by omega, fun _ => rfl⟩
    unfold strerror
    by_cases h' : c = 32
    · subst h'; rfl
    · have hc : c < 0 ∨ c > maxError := by unfold maxError; omega
      simp only [if_pos hc]; rfl

/-- C93: different errors have different texts. -/
theorem C93_distinct (c d : Int) (hc : 0 ≤ c ∧ c ≤ 31) (hd : 0 ≤ d ∧ d ≤ 31) (h : strerror c = strerror d) : c = d := by
  obtain ⟨n, rfl⟩ : ∃ n : Nat, c = n := ⟨c.toNat, by omega⟩
  obtain ⟨m, rfl⟩ : ∃ n : Nat, d = n := ⟨d.toNat, by omega⟩
  exact congrArg Nat.cast (distinct n (by omega) m (by omega) h)

example : strerror 31 = .ok "EBADTAG" ∧ strerror 32 = .ok "EUNKNOWN" ∧ strerror (-5) = .ok "EUNKNOWN" := ⟨rfl, rfl, rfl⟩

/-- C93: the text of an error is the name of its constant. Missing: the two of C93_names_false, and 0, whose constants are HSK_SUCCESS and HSK_EOK. -/
theorem C93_names_partial (c : Int) (hc : 0 < c ∧ c ≤ 31) (h : c ≠ 23 ∧ c ≠ 25) : names[c.toNat]?.map Out.ok = some (strerror c) := by
  obtain ⟨n, rfl⟩ : ∃ n : Nat, c = n := ⟨c.toNat, by omega⟩
  exact named n (by omega) (by omega) (by omega) (by omega)

/-- C93: two are misspelt. -/
theorem C93_names_false : names[23]? = some "EDUPLICATEORPHAN" ∧ strerror 23 = .ok "EDIPLICATEORPHAN" ∧
    names[25]? = some "EBADDIFFBITS" ∧ strerror 25 = .ok "EBADDDIFFBITS" := ⟨rfl, rfl, rfl, rfl⟩

end Verif.Props.Siphash
