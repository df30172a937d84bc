import Verif.Lemmas.Tld
/-
C50: the ICANN fallback list is searched correctly.
-/
namespace Verif.Props.Tld
open Verif.Tld Verif.Spec.Tld

/-! The whole tables, checked by the kernel. -/
theorem table_length : nameTable.length = tableSize ∧ dataTable.length = tableSize := by decide +kernel
theorem table_sorted : sortedB nameTable = true := by decide +kernel
theorem table_zero : (nameTable.all fun a => !a.contains 0) = true := by decide +kernel
theorem data_entries : (data.all entryOk) = true := by decide +kernel
theorem data_sizes (d : Bytes) (h : d ∈ dataTable) : ∃ b0 b1 r, d = b0 :: b1 :: r ∧ r.length = b1.toNat * 256 + b0.toNat := by
  obtain ⟨n, hn, rfl⟩ := List.mem_map.1 h
  exact entryOk_spec (List.all_eq_true.1 data_entries n hn)

/-- C50: for every label the search ends, stays within the table, and finds an entry iff the
label is in the table up to letter case; and the entry found is that one. -/
theorem C50_lookup (name : Bytes) (h : 0 ∉ name) :
    ∃ r, index name = .ok r ∧ (∀ i, r = some i ↔ ∃ a, nameTable[i]? = some a ∧ SameName a name) ∧
      (r = none ↔ ∀ a ∈ nameTable, ¬ SameName a name) := by
  have hz : ∀ a ∈ nameTable, 0 ∉ a := by
    intro a ha h0
    have := List.all_eq_true.1 table_zero a ha
    simp [h0] at this
  have hl : (nameTable.length : Int) = tableSize := by rw [table_length.1]
  obtain ⟨r, h1, h2, h3⟩ := search_spec table_sorted hz h (tableSize + 1) 0 (tableSize - 1) (by omega) (by omega) (by omega)
    (by simp [tableSize]) (fun i a hi => by omega) (fun i a hi ha => by
      have : i < nameTable.length := by
        rcases Nat.lt_or_ge i nameTable.length with h | h
        · exact h
        · rw [List.getElem?_eq_none h] at ha; cases ha
      omega)
  refine ⟨r, h1, fun i => ⟨h2 i, ?_⟩, h3, ?_⟩
  · rintro ⟨a, ha, hs⟩
    cases r with
    | none => exact absurd hs (h3 rfl a (List.mem_of_getElem? ha))
    | some j =>
      obtain ⟨b, hb, ht⟩ := h2 j rfl
      rcases Nat.lt_trichotomy i j with hij | hij | hij
      · have := sorted_lt table_sorted hz hij ha hb
        rw [hs, ht] at this
        exact absurd this Lt.irrefl
      · rw [hij]
      · have := sorted_lt table_sorted hz hij hb ha
        rw [hs, ht] at this
        exact absurd this Lt.irrefl
  · intro hn
    cases r with
    | none => rfl
    | some j =>
      obtain ⟨b, hb, ht⟩ := h2 j rfl
      exact absurd ht (hn b (List.mem_of_getElem? hb))

/-- C50: no two entries of the table have the same name. -/
theorem C50_unique (i j : Nat) (a b : Bytes) (ha : nameTable[i]? = some a) (hb : nameTable[j]? = some b) (h : SameName a b) : i = j := by
  have hz : ∀ a ∈ nameTable, 0 ∉ a := by
    intro a ha h0
    have := List.all_eq_true.1 table_zero a ha
    simp [h0] at this
  rcases Nat.lt_trichotomy i j with hij | hij | hij
  · have := sorted_lt table_sorted hz hij ha hb
    rw [h] at this
    exact absurd this Lt.irrefl
  · exact hij
  · have := sorted_lt table_sorted hz hij hb ha
    rw [h] at this
    exact absurd this Lt.irrefl

/-- C50: the data handed to the decoder for a name in the table is exactly the data of that
name's entry, and reading it stays within the entry. -/
theorem C50_data (name : Bytes) (h : 0 ∉ name) :
    (∃ r, lookup name = .ok r ∧ (r = none ↔ ∀ a ∈ nameTable, ¬ SameName a name)) ∧
    ∀ (i : Nat) (a d : Bytes), nameTable[i]? = some a → SameName a name → dataTable[i]? = some d → lookup name = .ok (some (d.drop 2)) := by
  obtain ⟨r, h1, h2, h3⟩ := C50_lookup name h
  have key : ∀ (i : Nat), r = some i → ∃ d, dataTable[i]? = some d ∧ lookup name = .ok (some (d.drop 2)) := by
    intro i hi
    obtain ⟨a, ha, _⟩ := (h2 i).1 hi
    have hlt : i < dataTable.length := by
      rw [table_length.2, ← table_length.1]
      rcases Nat.lt_or_ge i nameTable.length with h | h
      · exact h
      · rw [List.getElem?_eq_none h] at ha; cases ha
    have hd := List.getElem?_eq_getElem hlt
    generalize dataTable[i] = d at hd
    refine ⟨d, hd, ?_⟩
    obtain ⟨b0, b1, r', rfl, hs⟩ := data_sizes d (List.mem_of_getElem? hd)
    unfold lookup
    rw [h1, hi]
    simp only [Out.bind, hd]
    simp only [memGet, List.cons_append, List.getElem?_cons_succ, List.getElem?_cons_zero, Out.bind]
    rw [memSlice, if_pos (by simp; omega)]
    simp [← hs]
  constructor
  · cases r with
    | none => exact ⟨none, by unfold lookup; rw [h1]; rfl, by simpa using h3⟩
    | some i =>
      obtain ⟨d, _, hd⟩ := key i rfl
      exact ⟨_, hd, by simpa using h3⟩
  · intro i a d ha hs hd
    obtain ⟨d', hd', he⟩ := key i ((h2 i).2 ⟨a, ha, hs⟩)
    rw [hd] at hd'
    cases hd'
    exact he

/-- "COM" is found, "commm" is not. -/
example : (∃ i, index [67, 79, 77] = .ok (some i) ∧ nameTable[i]? = some [99, 111, 109]) ∧ index [99, 111, 109, 109, 109] = .ok none :=
  ⟨⟨265, by decide +kernel, by decide +kernel⟩, by decide +kernel⟩

end Verif.Props.Tld
