import Verif.Model.Label
import Verif.Lemmas.DnsSer
/-
Labels of a valid name.
-/
namespace Verif.Label
open Verif.DnsName Verif.Spec.DnsName

theorem splitLoop_full {size : Nat} (s : Bytes) (i : Nat) (dot : Bool) {acc : List Nat} (h : size ≤ acc.length) : splitLoop size s i dot acc = acc := by
  cases s with
  | nil => rfl
  | cons c s => rw [splitLoop, if_neg (by omega)]

theorem splitLoop_inside {size : Nat} {l : Bytes} (h : 0x2e ∉ l) (rest : Bytes) (i : Nat) {acc : List Nat} (ha : acc.length < size) :
    splitLoop size (l ++ 0x2e :: rest) i false acc = splitLoop size rest (i + l.length + 1) true acc := by
  induction l generalizing i with
  | nil =>
    rw [List.nil_append, splitLoop, if_pos ha, if_pos rfl]
    rfl
  | cons c l ih =>
    have hc : c ≠ 0x2e := fun e => h (by rw [e]; exact List.mem_cons_self)
    rw [List.cons_append, splitLoop, if_pos ha, if_neg hc, if_neg (by simp), ih (fun hm => h (List.mem_cons_of_mem _ hm))]
    rw [List.length_cons, show i + 1 + l.length + 1 = i + (l.length + 1) + 1 by omega]

/-- Where the labels start. -/
def starts : Nat → List Bytes → List Nat
  | _, [] => []
  | i, l :: ls => i :: starts (i + l.length + 1) ls

theorem starts_length (i : Nat) (ls : List Bytes) : (starts i ls).length = ls.length := by
  induction ls generalizing i with
  | nil => rfl
  | cons l ls ih => simp [starts, ih]

theorem splitLoop_body {size : Nat} {ls : List Bytes} (h : ∀ l ∈ ls, OkLabel l) (i : Nat) (acc : List Nat) (hi : i + (body ls).length ≤ 256) :
    splitLoop size (body ls) i true acc = acc ++ (starts i ls).take (size - acc.length) := by
  induction ls generalizing i acc with
  | nil => simp [body, splitLoop, starts]
  | cons l ls ih =>
    obtain ⟨h1, h2, h3, h4⟩ := h l List.mem_cons_self
    by_cases ha : acc.length < size
    · cases l with
      | nil => simp at h1
      | cons c l =>
        have hc : c ≠ 0x2e := fun e => h4 (by rw [e]; exact List.mem_cons_self)
        have hl : 0x2e ∉ l := fun hm => h4 (List.mem_cons_of_mem _ hm)
        rw [body_cons] at hi ⊢
        simp only [List.cons_append, List.length_cons, List.length_append] at hi
        rw [List.cons_append, splitLoop, if_pos ha, if_neg hc, if_pos rfl, Nat.mod_eq_of_lt (by omega)]
        rw [starts, show size - acc.length = (size - (acc.length + 1)) + 1 by omega, List.take_succ_cons]
        by_cases ha2 : acc.length + 1 < size
        · rw [splitLoop_inside hl _ _ (by simpa using ha2), ih (fun x hx => h x (List.mem_cons_of_mem _ hx)) _ _ (by omega)]
          simp only [List.length_append, List.length_cons, List.length_nil, List.append_assoc, List.cons_append, List.nil_append]
          rw [show i + 1 + l.length + 1 = i + (l.length + 1) + 1 by omega]
        · rw [splitLoop_full _ _ _ (by simp; omega), show size - (acc.length + 1) = 0 by omega]
          simp
    · rw [splitLoop_full _ _ _ (by omega), show size - acc.length = 0 by omega]
      simp

theorem okName_labels {ls : List Bytes} (h : OkName ls) : ls.length ≤ 127 := by
  have h1 := two_le_body h.1
  have h2 := body_length_of_text h.2
  omega

theorem split_text {ls : List Bytes} (h : OkName ls) (size : Nat) : split (text ls) size = (starts 0 ls).take size := by
  unfold split text
  by_cases hls : ls = []
  · subst hls
    rw [if_pos rfl]
    by_cases hs : 0 < size
    · simp [splitLoop, hs, starts]
    · simp [splitLoop, hs, starts]
  · rw [if_neg hls, splitLoop_body h.1 0 [] (by have := body_length_of_text h.2; omega)]
    simp

theorem count_text {ls : List Bytes} (h : OkName ls) : count (text ls) = ls.length := by
  unfold count
  rw [split_text h, List.length_take, starts_length]
  have := okName_labels h
  omega

theorem positions_text {ls : List Bytes} (h : OkName ls) : positions (text ls) = .ok (starts 0 ls) := by
  unfold positions
  rw [count_text h, split_text h, List.take_of_length_le (by rw [starts_length]; omega), if_pos (starts_length _ _)]

theorem starts_get {i j : Nat} {ls : List Bytes} (h : j < ls.length) : (starts i ls).getD j 0 = i + (body (ls.take j)).length := by
  induction ls generalizing i j with
  | nil => simp at h
  | cons l ls ih =>
    cases j with
    | zero => simp [starts, body]
    | succ j =>
      have := ih (i := i + l.length + 1) (j := j) (by simpa using h)
      simp only [starts, List.getD_cons_succ, List.take_succ_cons]
      rw [this, body_cons]
      simp
      omega

theorem body_append (a b : List Bytes) : body (a ++ b) = body a ++ body b := by simp [body]

theorem drop_start {j : Nat} (ls : List Bytes) : (body ls).drop (body (ls.take j)).length = body (ls.drop j) := by
  have : body ls = body (ls.take j) ++ body (ls.drop j) := by rw [← body_append, List.take_append_drop]
  rw [this]
  exact List.drop_left' rfl

/-- What an index means. -/
def index (n : Nat) (i : Int) : Int := if i < 0 then i + n else i

theorem position_starts {ls : List Bytes} {i : Int} (hi : 0 ≤ index ls.length i) :
    position (starts 0 ls) i = .ok (if (index ls.length i).toNat < ls.length then some (index ls.length i).toNat else none) := by
  unfold position
  rw [starts_length]
  unfold index at hi ⊢
  dsimp only
  generalize (if i < 0 then i + (ls.length : Int) else i) = k at *
  by_cases h : k ≥ (ls.length : Int)
  · rw [if_pos h, if_neg (by omega)]
  · rw [if_neg h, if_neg (by omega), if_pos (by omega)]

theorem text_ne {ls : List Bytes} (h : ls ≠ []) : text ls = body ls := by unfold text; rw [if_neg h]

theorem from2_text {ls : List Bytes} (h : OkName ls) {i : Int} (hi : 0 ≤ index ls.length i) :
    from2 (text ls) (starts 0 ls) i = .ok (body (ls.drop (index ls.length i).toNat)) := by
  unfold from2
  rw [position_starts hi]
  simp only [Out.bind]
  generalize hj : (index ls.length i).toNat = j
  by_cases hlt : j < ls.length
  · rw [if_pos hlt]
    have hne : ls ≠ [] := by intro e; rw [e] at hlt; simp at hlt
    have hl := congrArg List.length (drop_start (j := j) ls)
    rw [List.length_drop] at hl
    have h1 := two_le_body (ls := ls.drop j) (fun l hl => h.1 l (List.mem_of_mem_drop hl))
    have h2 := body_length_of_text h.2
    rw [List.length_drop] at h1
    dsimp only
    rw [text_ne hne, starts_get hlt, Nat.zero_add, if_neg (by omega), if_neg (by omega), memSlice_ok (by omega), drop_start, List.take_of_length_le (by omega)]
  · rw [if_neg hlt, List.drop_of_length_le (by omega)]
    rfl

theorem get2_text {ls : List Bytes} (h : OkName ls) {i : Int} (hi : 0 ≤ index ls.length i) :
    get2 (text ls) (starts 0 ls) i = .ok (ls.getD (index ls.length i).toNat []) := by
  unfold get2
  rw [position_starts hi]
  simp only [Out.bind]
  generalize hj : (index ls.length i).toNat = j
  by_cases hlt : j < ls.length
  · rw [if_pos hlt]
    have hne : ls ≠ [] := by intro e; rw [e] at hlt; simp at hlt
    obtain ⟨o1, o2, o3, o4⟩ := h.1 ls[j] (List.getElem_mem hlt)
    have hd : (body ls).drop (body (ls.take j)).length = ls[j] ++ 0x2e :: body (ls.drop (j + 1)) := by
      rw [drop_start, List.drop_eq_getElem_cons hlt, body_cons]
    have hlen := congrArg List.length hd
    simp only [List.length_drop, List.length_append, List.length_cons] at hlen
    have hend : labelEnd (text ls) (starts 0 ls) j = .ok ((body (ls.take j)).length + ls[j].length) := by
      unfold labelEnd
      rw [starts_length, text_ne hne]
      by_cases hn : j + 1 ≥ ls.length
      · rw [if_pos hn]
        have hd0 : ls.drop (j + 1) = [] := List.drop_of_length_le hn
        rw [hd0] at hlen
        simp only [body, List.map_nil, List.flatten_nil, List.length_nil] at hlen
        rw [memGet_ok (by simp only [body] at hlen ⊢; omega)]
        have hlast : (body ls)[(body ls).length - 1]'(by simp only [body] at hlen ⊢; omega) = 0x2e := by
          have := getLast?_body hne
          rw [List.getLast?_eq_getElem?, List.getElem?_eq_getElem (by simp only [body] at hlen ⊢; omega)] at this
          exact Option.some.inj this
        simp only [Out.bind]
        rw [hlast, if_neg (by simp)]
        simp only [body] at hlen ⊢
        congr 1
        omega
      · rw [if_neg hn, starts_get (by omega), List.take_succ_eq_append_getElem hlt, body_append]
        simp [body]
    dsimp only
    rw [hend]
    dsimp only
    rw [starts_get hlt, Nat.zero_add, if_neg (by omega), if_neg (by omega), text_ne hne, memSlice_ok (by omega), hd]
    rw [show (body (ls.take j)).length + ls[j].length - (body (ls.take j)).length = ls[j].length by omega, List.take_left' rfl]
    rw [List.getD_eq_getElem?_getD, List.getElem?_eq_getElem hlt]
    rfl
  · rw [if_neg hlt, List.getD_eq_getElem?_getD, List.getElem?_eq_none (by omega)]
    rfl

theorem labelGet_text {ls : List Bytes} (h : OkName ls) {i : Int} (hi : 0 ≤ index ls.length i) :
    labelGet (text ls) i = .ok (ls.getD (index ls.length i).toNat []) := by
  unfold labelGet
  rw [count_text h]
  split
  · rename_i h0
    rw [List.length_eq_zero_iff.1 h0]
    simp
  · rw [positions_text h]
    exact get2_text h hi

theorem labelFrom_text {ls : List Bytes} (h : OkName ls) {i : Int} (hi : 0 ≤ index ls.length i) :
    labelFrom (text ls) i = .ok (body (ls.drop (index ls.length i).toNat)) := by
  unfold labelFrom
  rw [count_text h]
  split
  · rename_i h0
    rw [List.length_eq_zero_iff.1 h0]
    simp [body]
  · rw [positions_text h]
    exact from2_text h hi

end Verif.Label
