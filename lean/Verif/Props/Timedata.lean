import Verif.Lemmas.Timedata
/-
Property C20: network-adjusted time (src/timedata.c).
-/
namespace Verif.Props.Timedata
open Verif Verif.Timedata Verif.Spec.Timedata

variable {κ : Type} [DecidableEq κ]

/-- Clock values and claimed times between 0 and 2^62 (a hundred billion years). -/
def Sane (rs : List (Report κ)) : Prop := ∀ r ∈ rs, 0 ≤ r.now ∧ r.now < 2 ^ 62 ∧ 0 ≤ r.time ∧ r.time < 2 ^ 62

/-- C20: after any sane history the samples are the votes that count, sorted: one
per address, at most 200; and nothing overflows or aborts on the way. -/
theorem C20_one_vote_each (rs : List (Report κ)) (hr : Sane rs) :
    ∃ s, run (init κ) rs = .ok s ∧ s.samples.Pairwise (· ≤ ·) ∧ s.samples.Perm ((votes rs []).map (·.2)) ∧
      ((votes rs []).map (·.1)).Nodup ∧ s.samples.length ≤ 200 := by
  obtain ⟨s, h1, h2⟩ := run_inv rs hr (init_inv (κ := κ))
  have hnd : ∀ (rs : List (Report κ)) (acc : List (κ × Int)), (acc.map (·.1)).Nodup →
      ((votes rs acc).map (·.1)).Nodup := by
    intro rs
    induction rs with
    | nil => intro acc h; exact h
    | cons r rs ih =>
      intro acc h
      unfold votes
      split
      · rename_i hc
        apply ih
        rw [List.map_append, List.nodup_append]
        refine ⟨h, by simp, ?_⟩
        intro a ha b hb
        simp only [List.map_cons, List.map_nil, List.mem_singleton] at hb
        subst hb
        rintro rfl
        exact hc.2 ha
      · exact ih acc h
  refine ⟨s, h1, h2.sorted, h2.perm, hnd rs [] (by simp), ?_⟩
  rw [h2.perm.length_eq, List.length_map]
  exact h2.len

/-- C20: after any sane history the adjusted clock is less than 70 minutes from the
system clock. -/
theorem C20_bounded (rs : List (Report κ)) (hr : Sane rs) {s : State κ} (h : run (init κ) rs = .ok s) (now : Int) :
    now - 4200 < adjusted s now ∧ adjusted s now < now + 4200 := by
  obtain ⟨s', h1, h2⟩ := run_inv rs hr (init_inv (κ := κ))
  rw [h] at h1; cases h1
  have ho := h2.offset
  unfold AbsOffset at ho
  unfold adjusted
  split at ho
  · omega
  · obtain ⟨m, _, hm⟩ := ho
    split at hm
    · rename_i hc
      have : |m| < 4200 := abs_lt.2 hc
      have := abs_nonneg m
      omega
    · omega

/-- C20, the part that holds of the clock's movement: it is the median of the votes
counted so far without its sign. -/
theorem C20_offset_partial (rs : List (Report κ)) (hr : Sane rs) {s : State κ} (h : run (init κ) rs = .ok s) (now : Int) :
    ∃ o, adjusted s now = now + |o| ∧ Offset ((votes rs []).map (·.2)) o := by
  obtain ⟨s', h1, h2⟩ := run_inv rs hr (init_inv (κ := κ))
  rw [h] at h1; cases h1
  have ho := h2.offset
  unfold AbsOffset at ho
  unfold adjusted Offset
  split at ho
  · exact ⟨0, by rw [ho]; simp, by rw [if_pos (by assumption)]⟩
  · rename_i hc
    obtain ⟨m, m1, hm⟩ := ho
    refine ⟨if -4200 < m ∧ m < 4200 then m else 0, ?_, ?_⟩
    · rw [hm]; split <;> simp
    · rw [if_neg hc]; exact ⟨m, m1, rfl⟩

/-- C20: in particular the rule is followed exactly when the median is not negative. -/
theorem C20_offset_nonneg (rs : List (Report κ)) (hr : Sane rs) {s : State κ} (h : run (init κ) rs = .ok s)
    (hpos : ∀ r ∈ rs, r.now ≤ r.time) :
    ∃ o, (∀ now, adjusted s now = now + o) ∧ Offset ((votes rs []).map (·.2)) o := by
  obtain ⟨o, h1, h2⟩ := C20_offset_partial rs hr h 0
  have hv : ∀ (rs : List (Report κ)) (acc : List (κ × Int)), (∀ r ∈ rs, r.now ≤ r.time) → (∀ x ∈ acc.map (·.2), 0 ≤ x) →
      ∀ x ∈ (votes rs acc).map (·.2), 0 ≤ x := by
    intro rs
    induction rs with
    | nil => intro acc _ h; exact h
    | cons r rs ih =>
      intro acc hp h
      unfold votes
      split
      · apply ih _ (fun x hx => hp x (by simp [hx]))
        intro x hx
        rw [List.map_append] at hx
        rcases List.mem_append.1 hx with hx | hx
        · exact h x hx
        · have := hp r (by simp)
          simp at hx; omega
      · exact ih acc (fun x hx => hp x (by simp [hx])) h
  have ho : 0 ≤ o := by
    unfold Offset at h2
    split at h2
    · omega
    · obtain ⟨m, m1, m2⟩ := h2
      have := hv rs [] hpos (by simp) m (List.mem_of_mem_take m1.1)
      split at m2 <;> omega
  refine ⟨o, ?_, h2⟩
  intro now
  unfold adjusted at h1 ⊢
  rw [abs_of_nonneg ho] at h1
  omega

/-- Five peers whose clocks are 100 seconds behind. -/
def behind : List (Report Nat) := (List.range 5).map fun i => ⟨100000, i, 99900⟩

/-- C20 is false of the code: five peers that are 100 seconds behind move the clock
100 seconds forward, away from them (src/timedata.c:123-124). -/
theorem C20_sign_lost : ∃ s, run (init Nat) behind = .ok s ∧ adjusted s 100000 = 100100 ∧
    ¬ Offset ((votes behind []).map (·.2)) (adjusted s 100000 - 100000) := by
  have h : (match run (init Nat) behind with
    | .ok s => decide (adjusted s 100000 = 100100)
    | _ => false) = true := by decide +kernel
  cases hc : run (init Nat) behind with
  | ok s =>
    rw [hc] at h
    have h1 := of_decide_eq_true h
    refine ⟨s, rfl, h1, ?_⟩
    rw [h1]
    have hv : (votes behind []).map (·.2) = [-100, -100, -100, -100, -100] := by decide +kernel
    rw [hv]
    intro ho
    unfold Offset at ho
    rw [if_neg (by simp)] at ho
    obtain ⟨m, m1, m2⟩ := ho
    have hm := m1.1
    have : m = -100 := by
      have := List.mem_of_mem_take hm
      simpa using this
    subst this
    simp at m2
  | err e => rw [hc] at h; cases h
  | ub => rw [hc] at h; cases h

/-- C20: without the sanity bound one peer can make the subtraction overflow: the
time field of its version message is read as a signed number. -/
theorem C20_overflow : run (init Nat) [⟨100000, 0, -2 ^ 63⟩] = .ub := by decide +kernel

/-- A sane history that moves the clock: six peers, of which five vote (one twice). -/
example : Sane behind ∧ ∃ s, run (init Nat) ([⟨10, 1, 50⟩, ⟨10, 2, 40⟩, ⟨10, 1, 99⟩, ⟨10, 3, 30⟩, ⟨10, 4, 20⟩, ⟨10, 5, 60⟩]) = .ok s ∧
    s.samples = [10, 20, 30, 40, 50] ∧ adjusted s 1000 = 1030 := by
  refine ⟨by unfold Sane; decide +kernel, ?_⟩
  have h : (match run (init Nat) ([⟨10, 1, 50⟩, ⟨10, 2, 40⟩, ⟨10, 1, 99⟩, ⟨10, 3, 30⟩, ⟨10, 4, 20⟩, ⟨10, 5, 60⟩]) with
    | .ok s => decide (s.samples = [10, 20, 30, 40, 50] ∧ adjusted s 1000 = 1030)
    | _ => false) = true := by decide +kernel
  split at h
  · rename_i s hs; exact ⟨s, hs, of_decide_eq_true h⟩
  · cases h

end Verif.Props.Timedata
