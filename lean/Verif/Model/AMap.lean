/-
Finite maps as association lists: what the hash tables of src/map.c stand for
(the refinement is C33).
-/
namespace Verif

abbrev AMap (κ ν : Type) := List (κ × ν)

namespace AMap
variable {κ ν : Type} [DecidableEq κ]

def get : AMap κ ν → κ → Option ν
  | [], _ => none
  | (k', v) :: r, k => if k' = k then some v else get r k

def has (m : AMap κ ν) (k : κ) : Bool := (get m k).isSome

def del (m : AMap κ ν) (k : κ) : AMap κ ν := m.filter fun p => p.1 ≠ k

/-- Insert or replace. -/
def set (m : AMap κ ν) (k : κ) (v : ν) : AMap κ ν := (k, v) :: del m k

def size (m : AMap κ ν) : Nat := m.length

@[simp] theorem get_nil (k : κ) : get ([] : AMap κ ν) k = none := rfl

theorem get_del (m : AMap κ ν) (k k' : κ) : get (del m k) k' = if k = k' then none else get m k' := by
  induction m with
  | nil => simp [del]
  | cons p r ih =>
    obtain ⟨a, v⟩ := p
    simp only [del, List.filter_cons] at *
    by_cases ha : a = k
    · subst ha
      simp only [ne_eq, not_true_eq_false, decide_false, Bool.false_eq_true, if_false, get]
      rw [ih]
      split <;> rfl
    · simp only [ne_eq, ha, not_false_eq_true, decide_true, if_true, get]
      by_cases hk : a = k'
      · subst hk
        simp [Ne.symm ha]
      · simp only [hk, if_false]
        exact ih

theorem get_set (m : AMap κ ν) (k k' : κ) (v : ν) :
    get (set m k v) k' = if k = k' then some v else get m k' := by
  simp only [set, get]
  split
  · rfl
  · rename_i h
    rw [get_del, if_neg h]

theorem has_iff (m : AMap κ ν) (k : κ) : has m k = true ↔ ∃ v, get m k = some v := by
  simp [has, Option.isSome_iff_exists]

theorem size_del_le (m : AMap κ ν) (k : κ) : size (del m k) ≤ size m := by
  simp only [size, del]; exact List.length_filter_le _ _

theorem size_set_le (m : AMap κ ν) (k : κ) (v : ν) : size (set m k v) ≤ size m + 1 := by
  have := size_del_le m k
  simp only [size, set, List.length_cons] at *
  omega

theorem get_mem {m : AMap κ ν} {k : κ} {v : ν} (h : get m k = some v) : (k, v) ∈ m := by
  induction m with
  | nil => simp at h
  | cons p r ih =>
    obtain ⟨a, w⟩ := p
    simp only [get] at h
    split at h
    · rename_i ha; subst ha
      simp only [Option.some.injEq] at h
      subst h; simp
    · exact List.mem_cons_of_mem _ (ih h)

theorem size_del_lt {m : AMap κ ν} {k : κ} {v : ν} (h : get m k = some v) :
    size (del m k) < size m := by
  simp only [size, del]
  refine List.length_filter_lt_length_iff_exists.2 ⟨(k, v), get_mem h, by simp⟩

/-- No key occurs twice. -/
def Nodup (m : AMap κ ν) : Prop := (m.map (·.1)).Nodup

theorem nodup_del {m : AMap κ ν} (h : Nodup m) (k : κ) : Nodup (del m k) := by
  unfold Nodup del at *
  exact h.sublist (List.Sublist.map _ List.filter_sublist)

theorem nodup_set {m : AMap κ ν} (h : Nodup m) (k : κ) (v : ν) : Nodup (set m k v) := by
  have := nodup_del h k
  unfold Nodup at *
  simp only [set, List.map_cons, List.nodup_cons]
  refine ⟨?_, this⟩
  simp [del]

theorem get_of_mem {m : AMap κ ν} (hn : Nodup m) {k : κ} {v : ν} (h : (k, v) ∈ m) :
    get m k = some v := by
  induction m with
  | nil => simp at h
  | cons p r ih =>
    obtain ⟨a, w⟩ := p
    unfold Nodup at hn
    simp only [List.map_cons, List.nodup_cons] at hn
    simp only [List.mem_cons, Prod.mk.injEq] at h
    simp only [get]
    rcases h with ⟨rfl, rfl⟩ | h
    · simp
    · have : a ≠ k := by
        rintro rfl
        exact hn.1 (List.mem_map.2 ⟨(a, v), h, rfl⟩)
      rw [if_neg this]
      exact ih hn.2 h

end AMap
end Verif
