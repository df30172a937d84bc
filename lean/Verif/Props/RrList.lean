import Verif.Lemmas.RrList
/-
C99: lists of records and of texts.
-/
namespace Verif.Props.RrList
open Verif.RrList

variable {α : Type}

/-- C99. From an empty list on, calls of push, pop, shift, get, set and free, and the loop that empties a
section, in any order and number, with any index, give what a list of at most 255 gives: no pointer is lost
or doubled, nothing outside the array is touched and no assertion fails. What is missing: unshift. -/
theorem C99_lists_partial (os : List (Op α)) (h : ∀ o ∈ os, InRange o) :
    ∃ s, calls os init = .ok (s, (Spec.RrList.steps os []).2) ∧ s.size = (Spec.RrList.steps os []).1.length ∧ s.size ≤ 255 ∧
      s.items = (Spec.RrList.steps os []).1.map some ++ List.replicate (255 - s.size) none := by
  obtain ⟨s, e, hs⟩ := calls_spec os init [] h holds_init
  refine ⟨s, e, hs.size, ?_, ?_⟩
  · rw [hs.size]; exact hs.le
  · rw [hs.size]; exact hs.items

/-- C99. A record put at the front of a list that is neither empty nor almost full is not there: the list is
copies of the record that was first, and the others and the new one are lost. -/
theorem C99_unshift_false (s : Rrs α) (a x : α) (l : List α) (h : Holds s (a :: l)) (hl : l.length + 1 < 254) :
    ∃ s', unshift s x = .ok (s', l.length + 2) ∧ s'.size = l.length + 2 ∧ (∀ k < l.length + 2, get s' k = .ok (some a)) ∧
      (∀ y, push s' y = .ub) ∧ ∃ t, uninit s' = .ok (t, List.replicate (l.length + 2) a) := by
  refine ⟨_, unshift_cons s a x l h hl, rfl, ?_, ?_, ?_⟩
  · intro k hk
    have hp : place k (l.length + 2) = k := by
      unfold place
      dsimp only
      rw [if_neg (show ¬(k : Int) < 0 by omega), Int.emod_eq_of_lt (by omega) (by omega), Int.toNat_natCast]
    unfold RrList.get
    dsimp only
    rw [hp, if_neg (by omega)]
    unfold load
    rw [if_pos (by omega)]
    dsimp only
    rw [List.getD_eq_getElem?_getD, List.getElem?_append_left (by simpa using hk)]
    simp [hk]
  · intro y
    unfold push
    dsimp only
    rw [if_neg (by omega), if_neg (by omega), load_mid _ _ _ _ _ (by simp) (by omega)]
    rfl
  · have := freeLoop_spec (some x :: List.replicate (252 - l.length) none) (l.length + 2) (List.replicate (l.length + 2) a) 0
      (by rw [List.length_replicate]; omega)
    rw [List.length_replicate, List.replicate_zero, List.nil_append, List.map_replicate] at this
    unfold uninit
    dsimp only
    rw [this]
    exact ⟨_, rfl⟩

/-- C99. Put at the front of an empty list, it is behind a NULL, and to take the list apart ends the process. -/
theorem C99_unshift_empty_false (x : α) :
    ∃ s, unshift init x = .ok (s, 1) ∧ get s 0 = .ok none ∧ pop s = .ub ∧ uninit s = .ub :=
  ⟨_, unshift_nil x, rfl, rfl, rfl⟩

/-- C99. In a list of 254 it is written behind the array. -/
theorem C99_unshift_full_false (s : Rrs α) (x : α) (l : List α) (h : Holds s l) (hl : l.length = 254) : unshift s x = .ub :=
  unshift_over s x l h hl

/-- Five calls and what they give, an index from the end and one outside among them. -/
example : calls [.push 'a', .push 'b', .push 'c', .get (-1), .get 3, .get (-4), .shift, .set (-1) 'd', .drain] init =
    .ok (init, [.num 1, .num 2, .num 3, .ptr (some 'c'), .ptr none, .ptr none, .ptr (some 'a'), .num 2, .freed ['d', 'b']]) := by decide +kernel
example : ∀ o ∈ ([.push 'a', .get (-1), .set 7 'b', .uninit] : List (Op Char)), InRange o := by simp [InRange]
/-- A list of two for the negative result, and of 254 for the last one. -/
example : Holds (⟨[some 'a', some 'b'] ++ List.replicate 253 none, 2⟩ : Rrs Char) ['a', 'b'] := ⟨rfl, by decide, rfl⟩
example : ∃ s', unshift (⟨[some 'a', some 'b'] ++ List.replicate 253 none, 2⟩ : Rrs Char) 'x' = .ok (s', 3) ∧ get s' 0 = .ok (some 'a') ∧
    get s' 1 = .ok (some 'a') ∧ get s' 2 = .ok (some 'a') := ⟨_, rfl, rfl, rfl, rfl⟩
example : Holds (⟨List.replicate 254 (some 'a') ++ [none], 254⟩ : Rrs Char) (List.replicate 254 'a') :=
  ⟨List.length_replicate.symm, by rw [List.length_replicate]; decide, by rw [List.length_replicate, List.map_replicate]; rfl⟩

end Verif.Props.RrList
