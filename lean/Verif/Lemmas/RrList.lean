import Verif.Spec.RrList
namespace Verif.RrList

variable {α : Type}

/-- The array and the size stand for a list. -/
structure Holds (s : Rrs α) (l : List α) : Prop where
  size : s.size = l.length
  le : l.length ≤ 255
  items : s.items = l.map some ++ List.replicate (255 - l.length) none

theorem load_mid (P R : List (Option α)) (p : Option α) (n i : Nat) (hi : i = P.length) (h : i < 255) : load ⟨P ++ p :: R, n⟩ i = .ok p := by
  subst hi
  unfold load
  rw [if_pos h]
  simp [List.getD_eq_getElem?_getD]

theorem store_mid (P R : List (Option α)) (p q : Option α) (n i : Nat) (hi : i = P.length) (h : i < 255) :
    store ⟨P ++ p :: R, n⟩ i q = .ok ⟨P ++ q :: R, n⟩ := by
  subst hi
  unfold store
  rw [if_pos h]
  simp

theorem present_mid (P R : List (Option α)) (a : α) (n i : Nat) (hi : i = P.length) (h : i < 255) : present ⟨P ++ some a :: R, n⟩ i = .ok a := by
  unfold present
  rw [load_mid P R _ n i hi h]
  rfl

theorem holds_init : Holds (init : Rrs α) [] := ⟨rfl, Nat.zero_le _, rfl⟩

theorem holds_eq {s : Rrs α} {l : List α} (h : Holds s l) : s = ⟨l.map some ++ List.replicate (255 - l.length) none, l.length⟩ := by
  cases s
  have h1 := h.size
  have h2 := h.items
  dsimp only at h1 h2
  rw [h1, h2]

theorem push_spec (s : Rrs α) (l : List α) (x : α) (h : Holds s l) :
    (l.length < 255 → ∃ s', push s x = .ok (s', l.length + 1) ∧ Holds s' (l ++ [x])) ∧ (l.length = 255 → push s x = .ok (s, 0)) := by
  have he := holds_eq h
  constructor
  · intro hl
    obtain ⟨r, hr⟩ : ∃ r, 255 - l.length = r + 1 := ⟨254 - l.length, by omega⟩
    rw [hr, List.replicate_succ] at he
    subst he
    refine ⟨⟨l.map some ++ some x :: List.replicate r none, l.length + 1⟩, ?_, ?_, ?_, ?_⟩
    · unfold push
      dsimp only
      rw [if_neg (by omega), if_neg (by omega), load_mid _ _ _ _ _ (by simp) hl]
      dsimp only [Out.bind]
      rw [if_neg (by simp), store_mid _ _ _ _ _ _ (by simp) hl]
    · simp
    · simp; omega
    · have : 255 - (l ++ [x]).length = r := by simp; omega
      rw [this]
      simp
  · intro hl
    unfold push
    rw [if_pos (by rw [h.size]; exact hl)]

theorem pop_spec (s : Rrs α) (l : List α) (a : α) (h : Holds s (l ++ [a])) : ∃ s', pop s = .ok (s', some a) ∧ Holds s' l := by
  have he := holds_eq h
  have hle := h.le
  have hlen : (l ++ [a]).length = l.length + 1 := by simp
  rw [hlen] at he hle
  have e : (l ++ [a]).map some ++ List.replicate (255 - (l.length + 1)) none = l.map some ++ some a :: List.replicate (255 - (l.length + 1)) none := by simp
  rw [e] at he
  subst he
  refine ⟨⟨l.map some ++ none :: List.replicate (255 - (l.length + 1)) none, l.length⟩, ?_, rfl, ?_, ?_⟩
  · unfold pop
    dsimp only
    rw [if_neg (by omega), present_mid _ _ _ _ _ (by simp) (by omega)]
    dsimp only [Out.bind]
    rw [store_mid _ _ _ _ _ _ (by simp) (by omega)]
    rfl
  · omega
  · rw [← List.replicate_succ, show 255 - (l.length + 1) + 1 = 255 - l.length by omega]

theorem pop_nil (s : Rrs α) (h : Holds s []) : pop s = .ok (s, none) := by
  unfold pop
  rw [if_pos (show s.size = 0 from h.size)]

theorem shiftLoop_spec (R : List (Option α)) (sz : Nat) : ∀ (l : List α) (P : List (Option α)) (a : α), P.length + l.length + 1 ≤ 255 →
    ∃ b, shiftLoop l.length P.length ⟨P ++ (some a :: (l.map some ++ R)), sz⟩ = .ok ⟨P ++ (l.map some ++ (some b :: R)), sz⟩
  | [], P, a, _ => ⟨a, rfl⟩
  | c :: l, P, a, h => by
    rw [List.length_cons] at h
    obtain ⟨b, hb⟩ := shiftLoop_spec R sz l (P ++ [some c]) c (by rw [List.length_append, List.length_singleton]; omega)
    refine ⟨b, ?_⟩
    have e1 : P ++ (some a :: ((c :: l).map some ++ R)) = (P ++ [some a]) ++ some c :: (l.map some ++ R) := by simp
    rw [List.length_cons, shiftLoop, present_mid _ _ _ _ _ rfl (by omega)]
    dsimp only [Out.bind]
    rw [e1, load_mid _ _ _ _ _ (by simp) (by omega), ← e1]
    dsimp only
    rw [store_mid _ _ _ _ _ _ rfl (by omega)]
    dsimp only
    have e2 : P ++ some c :: ((c :: l).map some ++ R) = (P ++ [some c]) ++ (some c :: (l.map some ++ R)) := by simp
    have e3 : P.length + 1 = (P ++ [some c]).length := by simp
    rw [e2, e3, hb]
    simp

theorem shift_spec (s : Rrs α) (a : α) (l : List α) (h : Holds s (a :: l)) : ∃ s', shift s = .ok (s', some a) ∧ Holds s' l := by
  have he := holds_eq h
  have hle := h.le
  rw [List.length_cons] at he hle
  subst he
  obtain ⟨b, hb⟩ := shiftLoop_spec (List.replicate (255 - (l.length + 1)) none) (l.length + 1) l [] a (by rw [List.length_nil]; omega)
  rw [List.length_nil, List.nil_append, List.nil_append] at hb
  refine ⟨⟨l.map some ++ none :: List.replicate (255 - (l.length + 1)) none, l.length⟩, ?_, rfl, by omega, ?_⟩
  · unfold shift
    dsimp only
    have h0 := load_mid [] (l.map some ++ List.replicate (255 - (l.length + 1)) none) (some a) (l.length + 1) 0 rfl (by decide)
    rw [List.nil_append] at h0
    rw [if_neg (by omega), List.map_cons, List.cons_append, h0]
    dsimp only [Out.bind]
    rw [show l.length + 1 - 1 = l.length by omega, hb]
    dsimp only
    rw [store_mid _ _ _ _ _ _ (by simp) (by omega)]
    rfl
  · rw [← List.replicate_succ, show 255 - (l.length + 1) + 1 = 255 - l.length by omega]

theorem shift_nil (s : Rrs α) (h : Holds s []) : shift s = .ok (s, none) := by
  unfold shift
  rw [if_pos (show s.size = 0 from h.size)]

theorem place_spec (i : Int) (n : Nat) (h1 : -2 ^ 31 ≤ i) (h2 : i < 2 ^ 31) (hn : n ≤ 255) :
    (Spec.RrList.pos i n = none ∧ place i n ≥ n) ∨ (Spec.RrList.pos i n = some (place i n) ∧ place i n < n) := by
  unfold Spec.RrList.pos place
  dsimp only
  by_cases hi : i < 0
  · rw [if_pos hi, if_neg (by omega)]
    by_cases hm : -(n : Int) ≤ i
    · rw [if_pos ⟨hm, hi⟩]
      have : (i + n) % 2 ^ 64 = n + i := by rw [Int.emod_eq_of_lt (by omega) (by omega)]; omega
      rw [this]
      exact .inr ⟨rfl, by omega⟩
    · rw [if_neg (by omega)]
      exact .inl ⟨rfl, by omega⟩
  · rw [if_neg hi, Int.emod_eq_of_lt (by omega) (by omega)]
    by_cases hm : i < n
    · rw [if_pos ⟨by omega, hm⟩]
      exact .inr ⟨rfl, by omega⟩
    · rw [if_neg (by omega), if_neg (by omega)]
      exact .inl ⟨rfl, by omega⟩

theorem get_spec (s : Rrs α) (l : List α) (i : Int) (h1 : -2 ^ 31 ≤ i) (h2 : i < 2 ^ 31) (h : Holds s l) :
    get s i = .ok ((Spec.RrList.pos i l.length).bind fun k => l[k]?) := by
  unfold get
  dsimp only
  rw [h.size]
  have hle := h.le
  rcases place_spec i l.length h1 h2 hle with ⟨e, g⟩ | ⟨e, g⟩
  · rw [if_pos g, e]; rfl
  · rw [if_neg (by omega), e]
    unfold load
    rw [if_pos (by omega), h.items]
    generalize place i l.length = k at *
    rw [List.getD_eq_getElem?_getD, List.getElem?_append_left (by simpa using g)]
    simp [g]

theorem set_spec (s : Rrs α) (l : List α) (i : Int) (x : α) (h1 : -2 ^ 31 ≤ i) (h2 : i < 2 ^ 31) (h : Holds s l) :
    (Spec.RrList.pos i l.length = none → set s i x = .ok (s, 0)) ∧
    (∀ k, Spec.RrList.pos i l.length = some k → ∃ s', set s i x = .ok (s', l.length) ∧ Holds s' (l.set k x)) := by
  unfold set
  dsimp only
  rw [h.size]
  have hle := h.le
  rcases place_spec i l.length h1 h2 hle with ⟨e, g⟩ | ⟨e, g⟩
  · rw [if_pos g, e]
    exact ⟨fun _ => rfl, by simp⟩
  · rw [if_neg (by omega), e]
    refine ⟨by simp, ?_⟩
    intro k hk
    cases hk
    generalize place i l.length = k at *
    unfold store
    rw [if_pos (by omega)]
    refine ⟨_, by dsimp only [Out.bind]; rw [h.size], ?_, ?_, ?_⟩
    · simp
    · simpa using hle
    · dsimp only
      rw [h.items, List.set_append_left _ _ (by simpa using g), List.length_set, List.map_set]

theorem freeLoop_spec (R : List (Option α)) (sz : Nat) : ∀ (l : List α) (i : Nat), i + l.length ≤ 255 →
    freeLoop l.length i ⟨List.replicate i none ++ (l.map some ++ R), sz⟩ = .ok (⟨List.replicate (i + l.length) none ++ R, sz⟩, l)
  | [], _, _ => rfl
  | a :: l, i, h => by
    rw [List.length_cons] at h ⊢
    rw [freeLoop, List.map_cons, List.cons_append, present_mid _ _ _ _ _ (by simp) (by omega)]
    dsimp only [Out.bind]
    rw [store_mid _ _ _ _ _ _ (by simp) (by omega)]
    dsimp only
    have e : List.replicate i none ++ none :: (l.map some ++ R) = List.replicate (i + 1) none ++ (l.map some ++ R) := by
      rw [List.replicate_succ']; simp
    rw [e, freeLoop_spec R sz l (i + 1) (by omega), show i + 1 + l.length = i + (l.length + 1) by omega]

theorem uninit_spec (s : Rrs α) (l : List α) (h : Holds s l) : uninit s = .ok (init, l) := by
  have he := holds_eq h
  have hle := h.le
  subst he
  have := freeLoop_spec (List.replicate (255 - l.length) none) l.length l 0 (by omega)
  rw [List.replicate_zero, List.nil_append, Nat.zero_add] at this
  unfold uninit
  dsimp only
  rw [this]
  dsimp only [Out.bind]
  rw [List.replicate_append_replicate, show l.length + (255 - l.length) = 255 by omega]
  rfl

theorem drain_spec : ∀ (n : Nat) (s : Rrs α) (l : List α), l.length = n → Holds s l → ∀ fuel, n < fuel →
    ∃ s', drain fuel s = .ok (s', l.reverse) ∧ Holds s' []
  | 0, s, l, hl, h, fuel, hf => by
    obtain ⟨f, rfl⟩ : ∃ f, fuel = f + 1 := ⟨fuel - 1, by omega⟩
    have : l = [] := List.eq_nil_of_length_eq_zero hl
    subst this
    rw [drain, if_neg (by rw [h.size]; exact Nat.lt_irrefl 0)]
    exact ⟨s, rfl, h⟩
  | n + 1, s, l, hl, h, fuel, hf => by
    obtain ⟨f, rfl⟩ : ∃ f, fuel = f + 1 := ⟨fuel - 1, by omega⟩
    rcases List.eq_nil_or_concat l with rfl | ⟨l, a, rfl⟩
    · cases hl
    · rw [List.concat_eq_append] at *
      obtain ⟨s1, e1, h1⟩ := pop_spec s l a h
      obtain ⟨s2, e2, h2⟩ := drain_spec n s1 l (by simpa using hl) h1 f (by omega)
      refine ⟨s2, ?_, h2⟩
      rw [drain, if_pos (by rw [h.size]; simp), e1]
      dsimp only [Out.bind]
      rw [e2]
      simp

/-- The index of a call is an `int`. -/
def InRange : Op α → Prop
  | .get i => -2 ^ 31 ≤ i ∧ i < 2 ^ 31
  | .set i _ => -2 ^ 31 ≤ i ∧ i < 2 ^ 31
  | _ => True

theorem call_spec (s : Rrs α) (l : List α) (o : Op α) (hr : InRange o) (h : Holds s l) :
    ∃ s', call s o = .ok (s', (Spec.RrList.step l o).2) ∧ Holds s' (Spec.RrList.step l o).1 := by
  cases o with
  | push x =>
    obtain ⟨p1, p2⟩ := push_spec s l x h
    by_cases hl : l.length < 255
    · obtain ⟨s', e, h'⟩ := p1 hl
      unfold call Spec.RrList.step
      dsimp only
      rw [if_pos hl, e]
      exact ⟨s', rfl, h'⟩
    · unfold call Spec.RrList.step
      dsimp only
      rw [if_neg hl, p2 (by have := h.le; omega)]
      exact ⟨s, rfl, h⟩
  | pop =>
    unfold call Spec.RrList.step
    dsimp only
    rcases List.eq_nil_or_concat l with rfl | ⟨l, a, rfl⟩
    · rw [pop_nil s h]
      exact ⟨s, rfl, h⟩
    · rw [List.concat_eq_append] at *
      obtain ⟨s', e, h'⟩ := pop_spec s l a h
      rw [e]
      refine ⟨s', ?_, ?_⟩
      · simp [Out.bind]
      · simpa using h'
  | shift =>
    unfold call Spec.RrList.step
    dsimp only
    cases l with
    | nil =>
      rw [shift_nil s h]
      exact ⟨s, rfl, h⟩
    | cons a l =>
      obtain ⟨s', e, h'⟩ := shift_spec s a l h
      rw [e]
      exact ⟨s', rfl, h'⟩
  | get i =>
    unfold call Spec.RrList.step
    dsimp only
    rw [get_spec s l i hr.1 hr.2 h]
    exact ⟨s, rfl, h⟩
  | set i x =>
    obtain ⟨p1, p2⟩ := set_spec s l i x hr.1 hr.2 h
    unfold call Spec.RrList.step
    dsimp only
    cases hp : Spec.RrList.pos i l.length with
    | none =>
      rw [p1 hp]
      exact ⟨s, rfl, h⟩
    | some k =>
      obtain ⟨s', e, h'⟩ := p2 k hp
      rw [e]
      exact ⟨s', rfl, h'⟩
  | uninit =>
    unfold call Spec.RrList.step
    dsimp only
    rw [uninit_spec s l h]
    exact ⟨init, rfl, holds_init⟩
  | drain =>
    obtain ⟨s', e, h'⟩ := drain_spec l.length s l rfl h 256 (by have := h.le; omega)
    unfold call Spec.RrList.step
    dsimp only
    rw [e]
    exact ⟨s', rfl, h'⟩

theorem calls_spec : ∀ (os : List (Op α)) (s : Rrs α) (l : List α), (∀ o ∈ os, InRange o) → Holds s l →
    ∃ s', calls os s = .ok (s', (Spec.RrList.steps os l).2) ∧ Holds s' (Spec.RrList.steps os l).1
  | [], s, _, _, h => ⟨s, rfl, h⟩
  | o :: os, s, l, hr, h => by
    obtain ⟨s1, e1, h1⟩ := call_spec s l o (hr o (by simp)) h
    obtain ⟨s2, e2, h2⟩ := calls_spec os s1 _ (fun o ho => hr o (by simp [ho])) h1
    refine ⟨s2, ?_, h2⟩
    rw [calls, e1]
    dsimp only [Out.bind]
    rw [e2]
    rfl

/-! ## Unshift -/

theorem unshiftLoop_spec (a : α) (R : List (Option α)) (sz : Nat) : ∀ (M : List (Option α)) (i : Nat), i + M.length + 1 ≤ 255 →
    unshiftLoop M.length (i + 1) ⟨List.replicate (i + 1) (some a) ++ (M ++ R), sz⟩ =
      .ok (⟨List.replicate (i + 1 + M.length) (some a) ++ R, sz⟩, i + 1 + M.length)
  | [], _, _ => rfl
  | m :: M, i, h => by
    rw [List.length_cons] at h ⊢
    have e0 : List.replicate (i + 1) (some a) ++ (m :: M ++ R) = List.replicate i (some a) ++ some a :: (m :: M ++ R) := by
      rw [List.replicate_succ']; simp
    rw [unshiftLoop, e0, show i + 1 - 1 = i by omega, present_mid _ _ _ _ _ (by simp) (by omega), ← e0]
    dsimp only [Out.bind]
    rw [List.cons_append, store_mid _ _ _ _ _ _ (by simp) (by omega)]
    dsimp only
    have e : List.replicate (i + 1) (some a) ++ some a :: (M ++ R) = List.replicate (i + 1 + 1) (some a) ++ (M ++ R) := by
      rw [List.replicate_succ' (n := i + 1)]; simp
    rw [e, unshiftLoop_spec a R sz M (i + 1) (by omega), show i + 1 + 1 + M.length = i + 1 + (M.length + 1) by omega]

/-- What it leaves: as many copies of the first pointer as the new size says, and the new one behind them. -/
theorem unshift_cons (s : Rrs α) (a x : α) (l : List α) (h : Holds s (a :: l)) (hl : l.length + 1 < 254) :
    unshift s x = .ok (⟨List.replicate (l.length + 2) (some a) ++ some x :: List.replicate (252 - l.length) none, l.length + 2⟩, l.length + 2) := by
  have he := holds_eq h
  rw [List.length_cons] at he
  obtain ⟨r, hr⟩ : ∃ r, 255 - (l.length + 1) = r + 2 := ⟨252 - l.length, by omega⟩
  rw [hr, List.replicate_succ, List.replicate_succ] at he
  have e : (a :: l).map some ++ none :: none :: List.replicate r none =
      List.replicate (0 + 1) (some a) ++ ((l.map some ++ [none]) ++ none :: List.replicate r none) := by simp
  rw [e] at he
  subst he
  have hm : (l.map some ++ [(none : Option α)]).length = l.length + 1 := by simp
  have := unshiftLoop_spec a (none :: List.replicate r none) (l.length + 1) (l.map some ++ [none]) 0 (by rw [hm]; omega)
  rw [hm, show 0 + 1 + (l.length + 1) = l.length + 2 by omega] at this
  unfold unshift
  dsimp only
  rw [if_neg (by omega), if_neg (by omega), this]
  dsimp only [Out.bind]
  rw [store_mid _ _ _ _ _ _ (by simp) (by omega), show 252 - l.length = r by omega]

theorem unshift_nil (x : α) : unshift init x = .ok (⟨none :: some x :: List.replicate 253 none, 1⟩, 1) := rfl

/-- With 254 in the list it writes behind the array. -/
theorem unshift_over (s : Rrs α) (x : α) (l : List α) (h : Holds s l) (hl : l.length = 254) : unshift s x = .ub := by
  cases l with
  | nil => cases hl
  | cons a l =>
    have he := holds_eq h
    rw [List.length_cons] at he hl
    have hr : 255 - (l.length + 1) = 1 := by omega
    rw [hr] at he
    have e : (a :: l).map some ++ List.replicate 1 none = List.replicate (0 + 1) (some a) ++ ((l.map some ++ [none]) ++ []) := by simp
    rw [e] at he
    subst he
    have hm : (l.map some ++ [(none : Option α)]).length = l.length + 1 := by simp
    have := unshiftLoop_spec a [] (l.length + 1) (l.map some ++ [none]) 0 (by rw [hm]; omega)
    rw [hm] at this
    unfold unshift
    dsimp only
    rw [if_neg (by omega), if_neg (by omega), this]
    dsimp only [Out.bind]
    unfold store
    rw [if_neg (by omega)]

end Verif.RrList
