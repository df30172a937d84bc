import Verif.Model.Timedata
import Verif.Spec.Timedata
import Verif.Lemmas.ChainRules
/-
Helper lemmas for the network time model.
-/
namespace Verif.Timedata
open Verif.Spec.Timedata

theorem i64_ok {i : Int} (h : -2 ^ 63 ≤ i ∧ i < 2 ^ 63) : i64 i = .ok i := by unfold i64; rw [if_pos h]

/-- Samples small enough that no difference overflows. -/
def Small (l : List Int) : Prop := ∀ x ∈ l, -2 ^ 62 < x ∧ x < 2 ^ 62

theorem search_spec (l : List Int) (x : Int) (hs : l.Pairwise (· ≤ ·)) (hl : Small l) (hx : -2 ^ 62 < x ∧ x < 2 ^ 62)
    (fuel a b : Nat) (hab : a ≤ b) (hb : b ≤ l.length) (hf : b < fuel + a)
    (hlo : ∀ (i : Nat) (h : i < l.length), i < a → l[i] ≤ x)
    (hhi : ∀ (i : Nat) (h : i < l.length), b ≤ i → x ≤ l[i]) :
    ∃ i, search l x fuel a b = .ok i ∧ i ≤ l.length ∧
      (∀ (j : Nat) (h : j < l.length), j < i → l[j] ≤ x) ∧ (∀ (j : Nat) (h : j < l.length), i ≤ j → x ≤ l[j]) := by
  induction fuel generalizing a b with
  | zero => omega
  | succ f ih =>
    unfold search
    by_cases hlt : a < b
    · rw [if_pos hlt]
      dsimp only
      have hpos : (a + (b - 1)) / 2 < l.length := by omega
      have hrange : a ≤ (a + (b - 1)) / 2 ∧ (a + (b - 1)) / 2 < b := by omega
      generalize (a + (b - 1)) / 2 = p at *
      rw [List.getElem?_eq_getElem hpos]
      have hm := hl _ (List.getElem_mem hpos)
      simp only
      rw [i64_ok (by omega)]
      simp only [Out.bind]
      have hp := List.pairwise_iff_getElem.1 hs
      have mono : ∀ (i j : Nat) (h1 : i < l.length) (h2 : j < l.length), i ≤ j → l[i] ≤ l[j] := by
        intro i j h1 h2 h
        rcases Nat.lt_or_eq_of_le h with h | h
        · exact hp i j h1 h2 h
        · subst h; exact Int.le_refl _
      by_cases h0 : l[p] - x = 0
      · rw [if_pos h0]
        refine ⟨p, rfl, by omega, ?_, ?_⟩
        · intro j hj hjp; have := mono j p hj hpos (by omega); omega
        · intro j hj hjp; have := mono p j hpos hj hjp; omega
      · rw [if_neg h0]
        by_cases h1 : l[p] - x < 0
        · rw [if_pos h1]
          refine ih (p + 1) b (by omega) hb (by omega) ?_ hhi
          intro i hi hip; have := mono i p hi hpos (by omega); omega
        · rw [if_neg h1]
          refine ih a p (by omega) (by omega) (by omega) hlo ?_
          intro i hi hip; have := mono p i hpos hi hip; omega
    · rw [if_neg hlt]
      have : a = b := by omega
      subst this
      exact ⟨a, rfl, by omega, hlo, hhi⟩

theorem insert_spec (l : List Int) (x : Int) (hs : l.Pairwise (· ≤ ·)) (hl : Small l) (hx : -2 ^ 62 < x ∧ x < 2 ^ 62)
    (hlen : l.length < 200) :
    ∃ l', insert l x = .ok l' ∧ l'.Pairwise (· ≤ ·) ∧ l'.Perm (x :: l) := by
  obtain ⟨i, h1, h2, h3, h4⟩ := search_spec l x hs hl hx (l.length + 1) 0 l.length (by omega) (Nat.le_refl _)
    (by omega) (by omega) (by omega)
  refine ⟨l.take i ++ x :: l.drop i, ?_, ?_, ?_⟩
  · unfold insert; rw [h1]; simp only [Out.bind]; rw [if_pos (by omega)]
  · rw [List.pairwise_append]
    have hd := hs
    rw [← List.take_append_drop i l, List.pairwise_append] at hd
    have htake : ∀ a ∈ l.take i, a ≤ x := by
      intro a ha
      obtain ⟨j, hj, rfl⟩ := List.mem_iff_getElem.1 ha
      rw [List.getElem_take]
      simp at hj
      exact h3 j (by omega) (by omega)
    have hdrop : ∀ a ∈ l.drop i, x ≤ a := by
      intro a ha
      obtain ⟨j, hj, rfl⟩ := List.mem_iff_getElem.1 ha
      rw [List.getElem_drop]
      simp at hj
      exact h4 (i + j) (by omega) (by omega)
    refine ⟨hd.1, List.pairwise_cons.2 ⟨hdrop, hd.2.1⟩, ?_⟩
    intro a ha b hb
    rcases List.mem_cons.1 hb with rfl | hb
    · exact htake a ha
    · exact hd.2.2 a ha b hb
  · calc (l.take i ++ x :: l.drop i).Perm (x :: (l.take i ++ l.drop i)) := List.perm_middle
      _ = x :: l := by rw [List.take_append_drop]

theorem absI64_ok {x : Int} (h : -2 ^ 62 < x ∧ x < 2 ^ 62) : absI64 x = .ok |x| := by
  unfold absI64
  split
  · rw [i64_ok (by omega)]; congr 1; rw [abs_of_neg (by assumption)]
  · congr 1; rw [abs_of_nonneg (by omega)]

theorem anyClose_ok (l : List Int) (hl : Small l) : ∃ b, anyClose l = .ok b := by
  induction l with
  | nil => exact ⟨_, rfl⟩
  | cons x r ih =>
    unfold anyClose
    rw [absI64_ok (hl x (by simp))]
    simp only [Out.bind]
    split
    · exact ⟨_, rfl⟩
    · exact ih (fun y hy => hl y (by simp [hy]))

/-- What the code does: the rule of the specification up to the sign. -/
def AbsOffset (v : List Int) (o : Int) : Prop :=
  if v.length < 5 then o = 0
  else ∃ m, IsMedian m (v.take (counted v.length)) ∧ o = if -4200 < m ∧ m < 4200 then |m| else 0

theorem isMedian_of_sorted {s v : List Int} (hs : s.Pairwise (· ≤ ·)) (hp : s.Perm v) (h0 : 0 < s.length) :
    ∃ m, s[s.length / 2]? = some m ∧ IsMedian m v := by
  have hi : s.length / 2 < s.length := by omega
  refine ⟨s[s.length / 2], List.getElem?_eq_getElem hi, hp.mem_iff.1 (List.getElem_mem hi), ?_⟩
  obtain ⟨m1, m2⟩ := Chain.sorted_median s hs _ hi
  rw [← hp.countP_eq, ← hp.countP_eq, ← hp.length_eq]
  exact ⟨m1, m2⟩

variable {κ : Type} [DecidableEq κ]

structure Inv (v : List (κ × Int)) (s : State κ) : Prop where
  sorted : s.samples.Pairwise (· ≤ ·)
  perm : s.samples.Perm (v.map (·.2))
  known : ∀ a, AMap.has s.known a = true ↔ a ∈ v.map (·.1)
  small : Small s.samples
  len : v.length ≤ 200
  offset : AbsOffset (v.map (·.2)) s.offset

theorem Inv.add {v : List (κ × Int)} {s : State κ} (hi : Inv v s) (r : Report κ)
    (hr : 0 ≤ r.now ∧ r.now < 2 ^ 62 ∧ 0 ≤ r.time ∧ r.time < 2 ^ 62) :
    ∃ s', Timedata.add s r.now r.addr r.time = .ok s' ∧
      Inv (if v.length < 200 ∧ r.addr ∉ v.map (·.1) then v ++ [(r.addr, r.time - r.now)] else v) s' := by
  have hlen : s.samples.length = v.length := by rw [hi.perm.length_eq, List.length_map]
  unfold Timedata.add
  by_cases h1 : v.length < 200
  swap
  · rw [if_pos (by omega), if_neg (by simp [h1])]; exact ⟨s, rfl, hi⟩
  rw [if_neg (by omega)]
  by_cases h2 : r.addr ∈ v.map (·.1)
  · rw [if_pos ((hi.known _).2 h2), if_neg (by simp only [h2, not_true, and_false, not_false_iff])]; exact ⟨s, rfl, hi⟩
  rw [if_neg (fun h => h2 ((hi.known _).1 h)), if_pos ⟨h1, h2⟩, i64_ok (by omega)]
  simp only [Out.bind]
  have hx : -2 ^ 62 < r.time - r.now ∧ r.time - r.now < 2 ^ 62 := by omega
  obtain ⟨l, l1, l2, l3⟩ := insert_spec s.samples (r.time - r.now) hi.sorted hi.small hx (by omega)
  rw [l1]
  simp only
  have hsmall : Small l := by
    intro y hy
    rcases List.mem_cons.1 (l3.mem_iff.1 hy) with rfl | h
    · exact hx
    · exact hi.small y h
  have hperm : l.Perm ((v ++ [(r.addr, r.time - r.now)]).map (·.2)) := by
    rw [List.map_append]
    exact l3.trans ((List.Perm.cons _ hi.perm).trans (by
      simpa using (List.perm_append_comm (l₁ := [r.time - r.now]) (l₂ := v.map (·.2)))))
  have hknown : ∀ a, AMap.has (AMap.set s.known r.addr ()) a = true ↔ a ∈ (v ++ [(r.addr, r.time - r.now)]).map (·.1) := by
    intro a
    have := hi.known a
    simp only [AMap.has, AMap.get_set, List.map_append, List.mem_append, List.map_cons, List.map_nil, List.mem_singleton] at *
    by_cases ha : r.addr = a
    · subst ha; simp
    · rw [if_neg ha, this]; simp [Ne.symm ha]
  have hll : l.length = v.length + 1 := by rw [hperm.length_eq]; simp
  have base : ∀ (o : Int) (c : Bool), AbsOffset ((v ++ [(r.addr, r.time - r.now)]).map (·.2)) o →
      Inv (v ++ [(r.addr, r.time - r.now)]) { samples := l, known := AMap.set s.known r.addr (), offset := o, checked := c } :=
    fun o c ho => ⟨l2, hperm, hknown, hsmall, by simp; omega, ho⟩
  unfold update
  simp only
  by_cases h5 : l.length ≥ 5 ∧ l.length % 2 = 1
  · rw [if_pos h5]
    obtain ⟨m, m1, m2⟩ := isMedian_of_sorted l2 hperm (by omega)
    rw [m1]
    simp only
    have hmr := hsmall m (List.mem_of_getElem? m1)
    rw [absI64_ok hmr]
    simp only [Out.bind]
    have htake : ∀ o, (o = if -4200 < m ∧ m < 4200 then |m| else 0) → AbsOffset ((v ++ [(r.addr, r.time - r.now)]).map (·.2)) o := by
      intro o ho
      unfold AbsOffset
      rw [if_neg (by rw [← hperm.length_eq]; omega)]
      refine ⟨m, ?_, ho⟩
      unfold counted
      rw [← hperm.length_eq, if_pos h5.2, hperm.length_eq, List.take_length]
      exact m2
    unfold judge
    by_cases hj : |m| ≥ 4200
    · rw [if_pos hj]
      have hz : ¬ (-4200 < m ∧ m < 4200) := by rw [ge_iff_le, le_abs] at hj; omega
      split
      · exact ⟨_, rfl, base 0 _ (htake 0 (by rw [if_neg hz]))⟩
      · obtain ⟨b, hb⟩ := anyClose_ok l hsmall
        rw [hb]
        exact ⟨_, rfl, base 0 _ (htake 0 (by rw [if_neg hz]))⟩
    · rw [if_neg hj]
      have hz : -4200 < m ∧ m < 4200 := by rw [ge_iff_le, le_abs] at hj; omega
      exact ⟨_, rfl, base |m| _ (htake _ (by rw [if_pos hz]))⟩
  · rw [if_neg h5]
    refine ⟨_, rfl, base s.offset s.checked ?_⟩
    have ho := hi.offset
    unfold AbsOffset at ho ⊢
    rw [← hperm.length_eq, hll]
    rw [List.length_map] at ho
    by_cases hlt : v.length + 1 < 5
    · rw [if_pos hlt]; rwa [if_pos (by omega)] at ho
    · rw [if_neg hlt]
      -- even count: the previous odd prefix decides
      have hev : (v.length + 1) % 2 = 0 := by omega
      rw [if_neg (by omega)] at ho
      obtain ⟨m, m1, m2⟩ := ho
      refine ⟨m, ?_, m2⟩
      have hc : counted v.length = v.length := by unfold counted; rw [if_pos (by omega)]
      have hc' : counted (v.length + 1) = v.length := by unfold counted; rw [if_neg (by omega)]; omega
      rw [hc'] 
      rw [hc, ← List.map_take, List.take_length] at m1
      rw [← List.map_take, List.take_left]
      exact m1

/-- Adding reports one after the other. -/
def run (s : State κ) : List (Report κ) → Out Unit (State κ)
  | [] => .ok s
  | r :: rs => (add s r.now r.addr r.time).bind fun s => run s rs

theorem run_inv (rs : List (Report κ)) (hr : ∀ r ∈ rs, 0 ≤ r.now ∧ r.now < 2 ^ 62 ∧ 0 ≤ r.time ∧ r.time < 2 ^ 62)
    {v : List (κ × Int)} {s : State κ} (hi : Inv v s) : ∃ s', run s rs = .ok s' ∧ Inv (votes rs v) s' := by
  induction rs generalizing v s with
  | nil => exact ⟨s, rfl, hi⟩
  | cons r rs ih =>
    obtain ⟨s1, h1, h2⟩ := hi.add r (hr r (by simp))
    obtain ⟨s2, h3, h4⟩ := ih (fun x hx => hr x (by simp [hx])) h2
    refine ⟨s2, by simp only [run, h1, Out.bind]; exact h3, ?_⟩
    unfold votes
    split
    · rename_i hc; rw [if_pos hc] at h4; exact h4
    · rename_i hc; rw [if_neg hc] at h4; exact h4

theorem init_inv : Inv ([] : List (κ × Int)) (init κ) where
  sorted := List.Pairwise.nil
  perm := List.Perm.refl _
  known := by intro a; simp [init, AMap.has]
  small := by intro x hx; simp [init] at hx
  len := by simp
  offset := by simp [AbsOffset, init]

end Verif.Timedata
