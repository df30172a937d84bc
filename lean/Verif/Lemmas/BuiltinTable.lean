import Verif.Lemmas.Builtin
/-
The check of `Lemmas/Builtin`, run on the whole table, a hundred entries at a time.
-/
namespace Verif.Resource

theorem part0 : ((Tld.data.drop 0).take 100).all entryFast = true := by decide +kernel
theorem part1 : ((Tld.data.drop 100).take 100).all entryFast = true := by decide +kernel
theorem part2 : ((Tld.data.drop 200).take 100).all entryFast = true := by decide +kernel
theorem part3 : ((Tld.data.drop 300).take 100).all entryFast = true := by decide +kernel
theorem part4 : ((Tld.data.drop 400).take 100).all entryFast = true := by decide +kernel
theorem part5 : ((Tld.data.drop 500).take 100).all entryFast = true := by decide +kernel
theorem part6 : ((Tld.data.drop 600).take 100).all entryFast = true := by decide +kernel
theorem part7 : ((Tld.data.drop 700).take 100).all entryFast = true := by decide +kernel
theorem part8 : ((Tld.data.drop 800).take 100).all entryFast = true := by decide +kernel
theorem part9 : ((Tld.data.drop 900).take 100).all entryFast = true := by decide +kernel
theorem part10 : ((Tld.data.drop 1000).take 100).all entryFast = true := by decide +kernel
theorem part11 : ((Tld.data.drop 1100).take 100).all entryFast = true := by decide +kernel
theorem part12 : ((Tld.data.drop 1200).take 100).all entryFast = true := by decide +kernel
theorem part13 : ((Tld.data.drop 1300).take 100).all entryFast = true := by decide +kernel
theorem part14 : ((Tld.data.drop 1400).take 100).all entryFast = true := by decide +kernel
theorem part15 : ((Tld.data.drop 1500).take 100).all entryFast = true := by decide +kernel

theorem parts (j : Nat) (h : j < 16) : ((Tld.data.drop (100 * j)).take 100).all entryFast = true :=
  match j, h with
  | 0, _ => part0
  | 1, _ => part1
  | 2, _ => part2
  | 3, _ => part3
  | 4, _ => part4
  | 5, _ => part5
  | 6, _ => part6
  | 7, _ => part7
  | 8, _ => part8
  | 9, _ => part9
  | 10, _ => part10
  | 11, _ => part11
  | 12, _ => part12
  | 13, _ => part13
  | 14, _ => part14
  | 15, _ => part15
  | j + 16, h => absurd h (by omega)

theorem data_length : Nat.ble Tld.data.length 1600 = true := by decide +kernel

theorem entries_ok {n : Nat} (h : n ∈ Tld.data) : entryFast n = true := by
  obtain ⟨i, hi, rfl⟩ := List.mem_iff_getElem.1 h
  have hl := Nat.le_of_ble_eq_true data_length
  refine List.all_eq_true.1 (parts (i / 100) (by omega)) _ ?_
  rw [List.mem_iff_getElem?]
  refine ⟨i % 100, ?_⟩
  rw [List.getElem?_take_of_lt (Nat.mod_lt _ (by decide)), List.getElem?_drop, Nat.div_add_mod, List.getElem?_eq_getElem hi]

end Verif.Resource
