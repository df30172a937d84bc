import Verif.Spec.Pool
/-
Records of observations.
-/
namespace Verif.Pool
open Verif.Spec.Pool

theorem live_append (a b : List Act) : live (a ++ b) = b.foldl liveStep (live a) := List.foldl_append ..

theorem live_snoc (t : List Act) (a : Act) : live (t ++ [a]) = liveStep (live t) a := by rw [live_append]; rfl

variable {hash : Bytes → Bytes}

theorem sound_nil : Sound hash [] := by
  intro t1 a t2 h
  cases t1 <;> cases h

theorem sound_snoc {t : List Act} {a : Act} (h : Sound hash t) (ha : May hash t a) : Sound hash (t ++ [a]) := by
  intro t1 b t2 he
  rcases List.eq_nil_or_concat t2 with rfl | ⟨t2', c, rfl⟩
  · obtain ⟨h1, h2⟩ := List.append_inj' he rfl
    cases h2; subst h1; exact ha
  · rw [List.concat_eq_append, show t1 ++ b :: (t2' ++ [c]) = (t1 ++ b :: t2') ++ [c] by simp] at he
    obtain ⟨h1, _⟩ := List.append_inj' he rfl
    exact h _ _ _ h1

theorem sound_init {t : List Act} {a : Act} (h : Sound hash (t ++ [a])) : Sound hash t ∧ May hash t a := by
  refine ⟨?_, h t a [] rfl⟩
  intro t1 b t2 he
  exact h t1 b (t2 ++ [a]) (by rw [he]; simp)

/-- Acts that neither take up nor call back. -/
def Plain : Act → Prop
  | .asked _ _ => False
  | .called _ _ => False
  | _ => True

theorem live_plain {t : List Act} {a : Act} (h : Plain a) : live (t ++ [a]) = live t := by
  rw [live_snoc]; cases a <;> first | rfl | exact h.elim

theorem may_plain {t : List Act} {a : Act} (h : Plain a) : May hash t a := by
  cases a <;> first | trivial | exact h.elim

theorem live_sub {log : List Act} {x : Option Nat × Req} (h : x ∈ live log) : Act.asked x.2 x.1 ∈ log := by
  induction hn : log.length generalizing log with
  | zero => rw [List.length_eq_zero_iff.1 hn] at h; cases h
  | succ n ih =>
    rcases List.eq_nil_or_concat log with rfl | ⟨t, a, rfl⟩
    · cases hn
    rw [List.concat_eq_append] at h hn ⊢
    rw [live_snoc] at h
    rw [List.length_append, List.length_singleton] at hn
    cases a with
    | asked r a =>
      rcases List.mem_cons.1 h with rfl | h
      · simp
      · exact List.mem_append_left _ (ih h (by omega))
    | called r a => exact List.mem_append_left _ (ih (List.mem_filter.1 h).1 (by omega))
    | unsynced a => exact List.mem_append_left _ (ih h (by omega))
    | returned a b => exact List.mem_append_left _ (ih h (by omega))
    | heard a b => exact List.mem_append_left _ (ih h (by omega))
    | wrote a b => exact List.mem_append_left _ (ih h (by omega))

/-- In a sound record no two live requests have the same number. -/
theorem live_nodup {log : List Act} (h : Sound hash log) : ((live log).map fun x => x.2.no).Nodup := by
  induction hn : log.length generalizing log with
  | zero => rw [List.length_eq_zero_iff.1 hn]; exact List.nodup_nil
  | succ n ih =>
    rcases List.eq_nil_or_concat log with rfl | ⟨t, a, rfl⟩
    · cases hn
    rw [List.concat_eq_append] at h hn ⊢
    rw [live_snoc]
    rw [List.length_append, List.length_singleton] at hn
    obtain ⟨h1, h2⟩ := sound_init h
    have ht := ih h1 (by omega)
    cases a with
    | asked r a =>
      refine List.nodup_cons.2 ⟨?_, ht⟩
      intro hm
      obtain ⟨x, hx, hxe⟩ := List.mem_map.1 hm
      exact h2 x.2 x.1 (live_sub hx) hxe
    | called r a => exact List.Nodup.sublist (List.Sublist.map _ List.filter_sublist) ht
    | unsynced a => exact ht
    | returned a b => exact ht
    | heard a b => exact ht
    | wrote a b => exact ht

theorem nodup_inj {α β : Type} {f : α → β} {l : List α} (h : (l.map f).Nodup) {x y : α} (hx : x ∈ l) (hy : y ∈ l) (he : f x = f y) : x = y := by
  induction l with
  | nil => cases hx
  | cons a l ih =>
    rw [List.map_cons, List.nodup_cons] at h
    rcases List.mem_cons.1 hx with rfl | hx1 <;> rcases List.mem_cons.1 hy with rfl | hy1
    · rfl
    · exact absurd (he ▸ List.mem_map_of_mem (f := f) hy1) h.1
    · exact absurd (he ▸ List.mem_map_of_mem (f := f) hx1) h.1
    · exact ih h.2 hx1 hy1

theorem live_inj {log : List Act} (h : Sound hash log) {x y : Option Nat × Req} (hx : x ∈ live log) (hy : y ∈ live log)
    (he : x.2.no = y.2.no) : x = y :=
  nodup_inj (f := fun x : Option Nat × Req => x.2.no) (live_nodup h) hx hy he

/-- In a sound record, a request taken up has been called back once, or is live and has not
been called back. -/
theorem calls_of_sound {log : List Act} (h : Sound hash log) :
    (∀ r a, Act.asked r a ∈ log → ((a, r) ∈ live log ∧ calls r.no log = 0) ∨ ((∀ x ∈ live log, x.2.no ≠ r.no) ∧ calls r.no log = 1)) ∧
    (∀ no, (∀ r a, Act.asked r a ∈ log → r.no ≠ no) → calls no log = 0) := by
  induction hn : log.length generalizing log with
  | zero =>
    rw [List.length_eq_zero_iff.1 hn]
    exact ⟨(fun r a hm => by cases hm), fun _ _ => rfl⟩
  | succ n ih =>
    rcases List.eq_nil_or_concat log with rfl | ⟨t, a, rfl⟩
    · cases hn
    rw [List.concat_eq_append] at h hn ⊢
    rw [List.length_append, List.length_singleton] at hn
    obtain ⟨h1, h2⟩ := sound_init h
    obtain ⟨i1, i2⟩ := ih h1 (by omega)
    have hcalls : ∀ no, calls no (t ++ [a]) = calls no t + (if isCall no a then 1 else 0) := by
      intro no; unfold calls; rw [List.countP_append, List.countP_singleton]
    have plain : Plain a → (∀ r b, Act.asked r b ∈ t ++ [a] →
        ((b, r) ∈ live (t ++ [a]) ∧ calls r.no (t ++ [a]) = 0) ∨
        ((∀ x ∈ live (t ++ [a]), x.2.no ≠ r.no) ∧ calls r.no (t ++ [a]) = 1)) ∧
        (∀ no, (∀ r b, Act.asked r b ∈ t ++ [a] → r.no ≠ no) → calls no (t ++ [a]) = 0) := by
      intro hpl
      have hc : ∀ no, calls no (t ++ [a]) = calls no t := by
        intro no; rw [hcalls]; cases a <;> first | rfl | exact hpl.elim
      rw [live_plain hpl]
      refine ⟨fun r b hm => ?_, fun no hno => ?_⟩
      · rw [hc]
        refine i1 r b ?_
        rcases List.mem_append.1 hm with hm | hm
        · exact hm
        · rw [← List.mem_singleton.1 hm] at hpl; exact hpl.elim
      · rw [hc]; exact i2 no (fun x y hxy => hno x y (List.mem_append_left _ hxy))
    cases a with
    | asked r b =>
      rw [live_snoc]
      refine ⟨?_, ?_⟩
      · intro r' a' hm
        rw [hcalls]
        show _ ∨ _
        rcases List.mem_append.1 hm with hm | hm
        · rcases i1 r' a' hm with ⟨k1, k2⟩ | ⟨k1, k2⟩
          · exact Or.inl ⟨List.mem_cons_of_mem _ k1, by rw [k2]; rfl⟩
          · refine Or.inr ⟨?_, by rw [k2]; rfl⟩
            intro x hx
            rcases List.mem_cons.1 hx with rfl | hx
            · exact fun hc => h2 r' a' hm hc.symm
            · exact k1 x hx
        · cases List.mem_singleton.1 hm
          refine Or.inl ⟨List.mem_cons_self .., ?_⟩
          rw [i2 r.no (fun x y hxy => h2 x y hxy)]; rfl
      · intro no hno
        rw [hcalls, i2 no (fun x y hxy => hno x y (List.mem_append_left _ hxy))]; rfl
    | called r b =>
      rw [live_snoc]
      have hlive : ∃ a, (a, r) ∈ live t := by
        cases b with
        | none => exact h2
        | some ans => exact h2.1
      obtain ⟨a0, ha0⟩ := hlive
      refine ⟨?_, ?_⟩
      · intro r' a' hm
        have hm' : Act.asked r' a' ∈ t := by
          rcases List.mem_append.1 hm with hm | hm
          · exact hm
          · cases List.mem_singleton.1 hm
        rw [hcalls]
        by_cases hno : r.no = r'.no
        · rcases i1 r' a' hm' with ⟨k1, k2⟩ | ⟨k1, k2⟩
          · refine Or.inr ⟨?_, by rw [k2]; simp [isCall, hno]⟩
            intro x hx
            have := (List.mem_filter.1 hx).2
            rw [← hno]; simpa using this
          · exact absurd hno (k1 _ ha0)
        · have hic : isCall r'.no (Act.called r b) = false := by simp [isCall, hno]
          rcases i1 r' a' hm' with ⟨k1, k2⟩ | ⟨k1, k2⟩
          · exact Or.inl ⟨List.mem_filter.2 ⟨k1, by simp; exact fun hc => hno hc.symm⟩, by rw [k2, hic]; rfl⟩
          · exact Or.inr ⟨fun x hx => k1 x (List.mem_filter.1 hx).1, by rw [k2, hic]; rfl⟩
      · intro no hno
        have hr : r.no ≠ no := hno r a0 (List.mem_append_left _ (live_sub ha0))
        rw [hcalls, i2 no (fun x y hxy => hno x y (List.mem_append_left _ hxy))]
        simp [isCall, hr]
    | unsynced b => exact plain trivial
    | returned b c => exact plain trivial
    | heard b c => exact plain trivial
    | wrote b c => exact plain trivial

/-- Calling back a list of different live requests. -/
theorem calls_append {t : List Act} (h : Sound hash t) (ans : Option Proof.Answer) (l : List Req)
    (hl : ∀ r ∈ l, ∃ a, (a, r) ∈ live t) (hn : (l.map fun r => r.no).Nodup)
    (hp : ∀ a, ans = some a → ∀ r ∈ l, ∀ cs, (∀ c ∈ cs, AnyCall c) → Proven hash (t ++ cs) r a) :
    Sound hash (t ++ l.map fun r => Act.called r ans) ∧
    ∀ x, x ∈ live (t ++ l.map fun r => Act.called r ans) ↔ x ∈ live t ∧ ∀ r ∈ l, x.2.no ≠ r.no := by
  induction hk : l.length generalizing l with
  | zero =>
    rw [List.length_eq_zero_iff.1 hk, List.map_nil, List.append_nil]
    exact ⟨h, fun x => ⟨fun hx => ⟨hx, fun r hr => by cases hr⟩, fun hx => hx.1⟩⟩
  | succ n ih =>
    rcases List.eq_nil_or_concat l with rfl | ⟨l0, r, rfl⟩
    · cases hk
    rw [List.concat_eq_append] at *
    rw [List.length_append, List.length_singleton] at hk
    rw [List.map_append, List.nodup_append] at hn
    obtain ⟨s1, s2⟩ := ih l0 (fun x hx => hl x (List.mem_append_left _ hx)) hn.1
      (fun a ha x hx => hp a ha x (List.mem_append_left _ hx)) (by omega)
    rw [List.map_append, ← List.append_assoc, List.map_singleton]
    have hr : ∃ a, (a, r) ∈ live (t ++ l0.map fun r => Act.called r ans) := by
      obtain ⟨a, ha⟩ := hl r (by simp)
      refine ⟨a, (s2 _).2 ⟨ha, ?_⟩⟩
      intro x hx hc
      exact hn.2.2 _ (List.mem_map_of_mem (f := fun r : Req => r.no) hx) r.no (by simp) hc.symm
    refine ⟨sound_snoc s1 ?_, ?_⟩
    · cases ans with
      | none => exact hr
      | some a =>
        refine ⟨hr, hp a rfl r (by simp) _ ?_⟩
        intro c hc
        obtain ⟨x, _, rfl⟩ := List.mem_map.1 hc
        exact ⟨x, _, rfl⟩
    · intro x
      rw [live_snoc]
      show x ∈ List.filter _ _ ↔ _
      rw [List.mem_filter, s2]
      constructor
      · rintro ⟨⟨h1, h2⟩, h3⟩
        refine ⟨h1, fun y hy => ?_⟩
        rcases List.mem_append.1 hy with hy | hy
        · exact h2 y hy
        · rw [List.mem_singleton.1 hy]; simpa using h3
      · rintro ⟨h1, h2⟩
        exact ⟨⟨h1, fun y hy => h2 y (List.mem_append_left _ hy)⟩, by simpa using h2 r (by simp)⟩

end Verif.Pool
