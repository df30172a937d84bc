import Verif.Model.Tld
import Verif.Spec.Tld
namespace Verif.Tld
open Verif.Spec.Tld

theorem lower_toNat (c : UInt8) : (lower c).toNat = fold c := by
  have : ∀ i : Fin 256, (lower (UInt8.ofNat i)).toNat = fold (UInt8.ofNat i) := by decide +kernel
  have h := this ⟨c.toNat, c.toNat_lt⟩
  simpa using h

theorem fold_pos {c : UInt8} (h : c ≠ 0) : 0 < fold c := by
  have : c.toNat ≠ 0 := fun e => h (UInt8.toNat.inj (by simpa using e))
  unfold fold
  split <;> omega

theorem lower_eq {a b : UInt8} : lower a = lower b ↔ fold a = fold b := by
  rw [← lower_toNat, ← lower_toNat]
  exact ⟨fun h => by rw [h], fun h => UInt8.toNat.inj h⟩

/-- Lexicographic order on folded names. -/
inductive Lt : List Nat → List Nat → Prop
  | nil {y : Nat} {ys : List Nat} : Lt [] (y :: ys)
  | head {x y : Nat} {xs ys : List Nat} (h : x < y) : Lt (x :: xs) (y :: ys)
  | tail {x : Nat} {xs ys : List Nat} (h : Lt xs ys) : Lt (x :: xs) (x :: ys)

theorem Lt.trans {a b c : List Nat} (h1 : Lt a b) (h2 : Lt b c) : Lt a c := by
  induction h1 generalizing c with
  | nil => cases h2 <;> exact .nil
  | head h => cases h2 with
    | head h' => exact .head (by omega)
    | tail h' => exact .head h
  | tail h ih => cases h2 with
    | head h' => exact .head h'
    | tail h' => exact .tail (ih h')

theorem Lt.irrefl {a : List Nat} : ¬ Lt a a := by
  induction a with
  | nil => intro h; cases h
  | cons x xs ih =>
    intro h
    cases h with
    | head h => omega
    | tail h => exact ih h

theorem strcasecmp_spec {a b : Bytes} (ha : 0 ∉ a) (hb : 0 ∉ b) :
    (strcasecmp a b = 0 ↔ SameName a b) ∧ (strcasecmp a b < 0 ↔ Lt (a.map fold) (b.map fold)) ∧
    (strcasecmp a b > 0 ↔ Lt (b.map fold) (a.map fold)) := by
  induction a generalizing b with
  | nil =>
    cases b with
    | nil =>
      simp only [strcasecmp, SameName, List.map_nil]
      refine ⟨by simp, ⟨fun h => by omega, fun h => absurd h Lt.irrefl⟩, ⟨fun h => by omega, fun h => absurd h Lt.irrefl⟩⟩
    | cons y ys =>
      have := fold_pos (c := y) (fun e => hb (by simp [e]))
      simp only [strcasecmp, SameName, List.map_nil, List.map_cons, lower_toNat]
      refine ⟨by constructor <;> intro h <;> first | omega | simp at h, ⟨fun _ => .nil, fun _ => by omega⟩,
        ⟨fun h => by omega, fun h => by cases h⟩⟩
  | cons x xs ih =>
    have hx := fold_pos (c := x) (fun e => ha (by simp [e]))
    cases b with
    | nil =>
      simp only [strcasecmp, SameName, List.map_nil, List.map_cons, lower_toNat]
      refine ⟨by constructor <;> intro h <;> first | omega | simp at h, ⟨fun h => by omega, fun h => by cases h⟩,
        ⟨fun _ => .nil, fun _ => by omega⟩⟩
    | cons y ys =>
      obtain ⟨i1, i2, i3⟩ := ih (b := ys) (fun h => ha (List.mem_cons_of_mem _ h)) (fun h => hb (List.mem_cons_of_mem _ h))
      simp only [strcasecmp, List.map_cons, lower_toNat]
      by_cases he : lower x = lower y
      · have hf := lower_eq.1 he
        rw [if_pos he, hf]
        refine ⟨?_, ?_, ?_⟩
        · rw [i1]; simp [SameName, hf]
        · rw [i2]; exact ⟨.tail, fun h => by cases h with | head h => omega | tail h => exact h⟩
        · rw [i3]; exact ⟨.tail, fun h => by cases h with | head h => omega | tail h => exact h⟩
      · have hf : fold x ≠ fold y := fun h => he (lower_eq.2 h)
        rw [if_neg he]
        refine ⟨?_, ?_, ?_⟩
        · constructor
          · intro h; omega
          · intro h; simp [SameName] at h; exact absurd h.1 hf
        · constructor
          · intro h; exact .head (by omega)
          · intro h
            generalize hp : fold x = p at h hf
            generalize hq : fold y = q at h hf
            cases h with
            | head h => omega
            | tail h => exact absurd rfl hf
        · constructor
          · intro h; exact .head (by omega)
          · intro h
            generalize hp : fold x = p at h hf
            generalize hq : fold y = q at h hf
            cases h with
            | head h => omega
            | tail h => exact absurd rfl hf

/-- Adjacent entries are in strict order. -/
def sortedB : List Bytes → Bool
  | a :: b :: r => decide (strcasecmp a b < 0) && sortedB (b :: r)
  | _ => true

theorem sorted_lt {l : List Bytes} (hs : sortedB l = true) (hz : ∀ a ∈ l, 0 ∉ a) {i j : Nat} {a b : Bytes} (hij : i < j)
    (ha : l[i]? = some a) (hb : l[j]? = some b) : Lt (a.map fold) (b.map fold) := by
  induction l generalizing i j a with
  | nil => simp at ha
  | cons x r ih =>
    cases r with
    | nil =>
      cases j with
      | zero => omega
      | succ j => simp at hb
    | cons y r =>
      simp only [sortedB, Bool.and_eq_true, decide_eq_true_eq] at hs
      have hxy := ((strcasecmp_spec (hz x (by simp)) (hz y (by simp))).2.1).1 hs.1
      cases j with
      | zero => omega
      | succ j =>
        have hb' : (y :: r)[j]? = some b := by simpa using hb
        have hz' : ∀ a ∈ y :: r, 0 ∉ a := fun a ha => hz a (List.mem_cons_of_mem _ ha)
        cases i with
        | zero =>
          have : a = x := by simpa using ha.symm
          subst this
          cases j with
          | zero =>
            have : b = y := by simpa using hb'.symm
            subst this
            exact hxy
          | succ j => exact hxy.trans (ih hs.2 hz' (i := 0) (j := j + 1) (a := y) (by omega) (by simp) hb')
        | succ i => exact ih hs.2 hz' (i := i) (j := j) (by omega) (by simpa using ha) hb'

/-- Binary search over a sorted table. -/
theorem search_spec {l : List Bytes} (hs : sortedB l = true) (hz : ∀ a ∈ l, 0 ∉ a) {name : Bytes} (hn : 0 ∉ name) (fuel : Nat)
    (start stop : Int) (h0 : 0 ≤ start) (h1 : stop < l.length) (hf : stop + 1 - start < fuel) (hle : start ≤ stop + 1)
    (lo : ∀ (i : Nat) (a : Bytes), (i : Int) < start → l[i]? = some a → ¬ SameName a name)
    (hi : ∀ (i : Nat) (a : Bytes), stop < (i : Int) → l[i]? = some a → ¬ SameName a name) :
    ∃ r, search l name fuel start stop = .ok r ∧
      (∀ i, r = some i → ∃ a, l[i]? = some a ∧ SameName a name) ∧ (r = none → ∀ a ∈ l, ¬ SameName a name) := by
  induction fuel generalizing start stop with
  | zero => omega
  | succ fuel ih =>
    rw [search]
    by_cases hc : start ≤ stop
    · rw [if_pos hc]
      dsimp only
      generalize hpos : (start + stop) / 2 = pos
      have hp1 : start ≤ pos := by omega
      have hp2 : pos ≤ stop := by omega
      rw [if_neg (by omega)]
      have hlt : pos.toNat < l.length := by omega
      rw [List.getElem?_eq_getElem hlt]
      dsimp only
      have hg : l[pos.toNat]? = some l[pos.toNat] := List.getElem?_eq_getElem hlt
      generalize hT : l[pos.toNat] = t at *
      have hzt : 0 ∉ t := hz t (List.mem_of_getElem? hg)
      obtain ⟨s1, s2, s3⟩ := strcasecmp_spec hzt hn
      by_cases e : strcasecmp t name = 0
      · rw [if_pos e]
        refine ⟨_, rfl, ?_, by simp⟩
        intro i hi'
        cases hi'
        exact ⟨t, hg, s1.1 e⟩
      · rw [if_neg e]
        by_cases e2 : strcasecmp t name < 0
        · rw [if_pos e2]
          refine ih (pos + 1) stop (by omega) h1 (by omega) (by omega) ?_ hi
          intro i a hia ha hsame
          have hta := s2.1 e2
          rw [← hsame] at hta
          rcases Nat.lt_trichotomy i pos.toNat with h | h | h
          · exact Lt.irrefl ((sorted_lt hs hz h ha hg).trans hta)
          · subst h
            rw [hg] at ha
            cases ha
            exact Lt.irrefl hta
          · omega
        · rw [if_neg e2]
          refine ih start (pos - 1) h0 (by omega) (by omega) (by omega) lo ?_
          intro i a hia ha hsame
          have hta := s3.1 (by omega)
          rw [← hsame] at hta
          rcases Nat.lt_trichotomy i pos.toNat with h | h | h
          · omega
          · subst h
            rw [hg] at ha
            cases ha
            exact Lt.irrefl hta
          · exact Lt.irrefl (hta.trans (sorted_lt hs hz h hg ha))
    · rw [if_neg hc]
      refine ⟨none, rfl, by simp, fun _ a ha => ?_⟩
      obtain ⟨i, hi'⟩ := List.mem_iff_getElem?.1 ha
      rcases Int.lt_or_le (i : Int) start with h | h
      · exact lo i a h hi'
      · exact hi i a (by omega) hi'

/-! Table entries, without unpacking them byte by byte. -/

theorem unpack_eq {k f n : Nat} (acc : Bytes) (hf : k < f) (h : n / 256 ^ k = 1) :
    unpack f n acc = (List.range k).map (fun i => UInt8.ofNat (n / 256 ^ (k - 1 - i) % 256)) ++ acc := by
  induction k generalizing f n acc with
  | zero =>
    cases f with
    | zero => omega
    | succ f => rw [unpack, if_pos (by simp at h; omega)]; simp
  | succ k ih =>
    cases f with
    | zero => omega
    | succ f =>
      have hn : n / 256 / 256 ^ k = 1 := by
        rw [Nat.div_div_eq_div_mul, ← Nat.pow_succ']
        exact h
      have hge : ¬ n < 256 := by
        intro hlt
        rw [Nat.div_eq_of_lt hlt, Nat.zero_div] at hn
        omega
      rw [unpack, if_neg hge, ih _ (by omega) hn, List.range_succ, List.map_append, List.append_assoc]
      congr 1
      · apply List.map_congr_left
        intro i hi
        have hi := List.mem_range.1 hi
        have e : k + 1 - 1 - i = (k - 1 - i) + 1 := by omega
        rw [e, Nat.pow_succ', Nat.div_div_eq_div_mul]
      · simp

/-- The number of bytes of an entry, by bisection. -/
def widthOf (n : Nat) : Nat → Nat → Nat
  | 0, k => k
  | f + 1, k => bif Nat.ble (256 ^ (k + 2 ^ f)) n then widthOf n f (k + 2 ^ f) else widthOf n f k

/-- The check of one data entry of `k` bytes. -/
def entryOkAt (n k : Nat) : Bool :=
  Nat.beq (n / 256 ^ k) 1 && Nat.ble (k + 1) 500 && Nat.ble 2 k &&
    Nat.beq (n / 256 ^ (k - 2) % 256 * 256 + n / 256 ^ (k - 1) % 256 + 2) k

def entryOk (n : Nat) : Bool := entryOkAt n (widthOf n 9 0)

theorem entryOk_spec {n : Nat} (h : entryOk n = true) : ∃ b0 b1 r, unpack 500 n [] = b0 :: b1 :: r ∧ r.length = b1.toNat * 256 + b0.toNat := by
  unfold entryOk entryOkAt at h
  generalize widthOf n 9 0 = k at h
  simp only [Bool.and_eq_true] at h
  obtain ⟨⟨⟨h1, h2⟩, h3⟩, h4⟩ := h
  have h1 := Nat.eq_of_beq_eq_true h1
  have h4 := Nat.eq_of_beq_eq_true h4
  have h2 := Nat.le_of_ble_eq_true h2
  have h3 := Nat.le_of_ble_eq_true h3
  obtain ⟨j, rfl⟩ : ∃ j, k = j + 2 := ⟨k - 2, by omega⟩
  rw [unpack_eq [] h2 h1, List.append_nil, List.range_succ_eq_map, List.range_succ_eq_map]
  refine ⟨_, _, _, rfl, ?_⟩
  simp only [List.length_map, List.length_range, UInt8.toNat_ofNat', Nat.succ_eq_add_one]
  simp at h4 ⊢
  omega

end Verif.Tld
