import Verif.Lemmas.Brontide
/-
Helper lemmas: reading a stream in pieces is reading it at once.
-/
namespace Verif.Brontide
variable {σ : Type}

/-- The state after reading, without the code returned. -/
def feed (P : Prim) (E : Env σ) (m : M σ) (data : Bytes) : Out Unit (M σ) :=
  (onRead P E m data).bind fun r => .ok r.1

/-- Reading pieces one after the other. -/
def feedAll (P : Prim) (E : Env σ) : List Bytes → M σ → Out Unit (M σ)
  | [], m => .ok m
  | d :: ds, m => (feed P E m d).bind fun m => feedAll P E ds m

theorem readLoop_fuel {P : Prim} {E : Env σ} : ∀ (f g : Nat) (m : M σ) (buf data : Bytes),
    data.length < f → data.length < g → readLoop P E f m buf data = readLoop P E g m buf data := by
  intro f
  induction f with
  | zero => intro g m buf data h; omega
  | succ f ih =>
    intro g m buf data hf hg
    cases g with
    | zero => omega
    | succ g =>
      unfold readLoop
      by_cases hn : m.b.need ≤ buf.length + data.length
      case neg => rw [if_neg hn, if_neg hn]
      rw [if_pos hn, if_pos hn]
      by_cases h2 : m.b.need ≤ buf.length
      · rw [if_pos h2, if_pos h2]
      rw [if_neg h2, if_neg h2]
      dsimp only
      congr 1
      funext r
      cases r.2 with
      | fail c => rfl
      | next n =>
        dsimp only
        by_cases hz : r.1.b.state = .none
        · rw [if_pos hz, if_pos hz]
        rw [if_neg hz, if_neg hz]
        by_cases h0 : n = 0
        · rw [if_pos h0, if_pos h0]
        rw [if_neg h0, if_neg h0]
        apply ih <;> rw [List.length_drop] <;> omega

theorem bind_assoc' {ε α β γ : Type} (x : Out ε α) (f : α → Out ε β) (g : β → Out ε γ) :
    (x.bind f).bind g = x.bind fun a => (f a).bind g := by cases x <;> rfl

theorem readLoop_append {P : Prim} {E : Env σ} : ∀ (f : Nat) (m : M σ) (buf x y : Bytes), x.length < f →
    m.b.state ≠ .none →
    (readLoop P E (f + y.length) m buf (x ++ y)).bind (fun r => (.ok r.1 : Out Unit (M σ))) =
      (readLoop P E f m buf x).bind fun r => feed P E r.1 y := by
  intro f
  induction f with
  | zero => intro m buf x y h; omega
  | succ f ih =>
    intro m buf x y hx hst
    rw [show f + 1 + y.length = (f + y.length) + 1 by omega]
    by_cases hn : m.b.need ≤ buf.length + x.length
    case neg =>
      -- nothing is complete before `y`
      have e1 : readLoop P E (f + 1) m buf x = .ok ({ m with b := { m.b with buf := some (buf ++ x) } }, 0) := by
        rw [readLoop, if_neg hn]
      rw [e1]
      show _ = feed P E { m with b := { m.b with buf := some (buf ++ x) } } y
      unfold feed onRead
      dsimp only
      rw [if_neg hst]
      congr 1
      rw [readLoop_fuel (y.length + 1) (f + y.length + 1) _ _ _ (by omega) (by omega)]
      unfold readLoop
      dsimp only
      have el : (buf ++ x).length + y.length = buf.length + (x ++ y).length := by
        simp only [List.length_append]; omega
      rw [el]
      by_cases h2 : m.b.need ≤ buf.length + (x ++ y).length
      case neg =>
        rw [if_neg h2, if_neg h2, List.append_assoc]
      rw [if_pos h2, if_pos h2, if_neg (by omega), if_neg (by simp only [List.length_append]; omega)]
      have et : buf ++ (x ++ y).take (m.b.need - buf.length) = buf ++ x ++ y.take (m.b.need - (buf ++ x).length) := by
        rw [List.append_assoc, List.take_append, List.take_of_length_le (by omega)]
        congr 3; simp only [List.length_append]; omega
      have ed : (x ++ y).drop (m.b.need - buf.length) = y.drop (m.b.need - (buf ++ x).length) := by
        rw [List.drop_append, List.drop_of_length_le (by omega), List.nil_append]
        congr 1; simp only [List.length_append]; omega
      rw [et, ed]
    -- a piece is complete within `x`
    unfold readLoop
    rw [if_pos (by simp only [List.length_append]; omega), if_pos hn]
    by_cases h2 : m.b.need ≤ buf.length
    · rw [if_pos h2, if_pos h2]; rfl
    rw [if_neg h2, if_neg h2]
    dsimp only
    have et : (x ++ y).take (m.b.need - buf.length) = x.take (m.b.need - buf.length) :=
      List.take_append_of_le_length (by omega)
    have ed : (x ++ y).drop (m.b.need - buf.length) = x.drop (m.b.need - buf.length) ++ y :=
      List.drop_append_of_le_length (by omega)
    rw [et, ed, bind_assoc', bind_assoc']
    congr 1
    funext r
    have hnone : ∀ (m' : M σ), m'.b.state = .none → feed P E m' y = .ok m' := by
      intro m' h; unfold feed onRead; rw [if_pos h]; rfl
    obtain ⟨m1, p⟩ := r
    cases p with
    | fail c => exact (hnone _ rfl).symm
    | next n =>
      dsimp only
      by_cases hz : m1.b.state = .none
      · rw [if_pos hz, if_pos hz]
        exact (hnone _ hz).symm
      rw [if_neg hz, if_neg hz]
      by_cases h0 : n = 0
      · rw [if_pos h0, if_pos h0]; rfl
      rw [if_neg h0, if_neg h0]
      exact ih _ _ _ _ (by rw [List.length_drop]; omega) hz

theorem feed_append {P : Prim} {E : Env σ} (m : M σ) (x y : Bytes) :
    feed P E m (x ++ y) = (feed P E m x).bind fun m' => feed P E m' y := by
  by_cases hst : m.b.state = .none
  · unfold feed onRead
    rw [if_pos hst, if_pos hst]
    show Out.ok m = (if m.b.state = .none then (Out.ok (m, 0) : Out Unit (M σ × Nat)) else _).bind _
    rw [if_pos hst]; rfl
  cases hb : m.b.buf with
  | none => unfold feed onRead; rw [if_neg hst, if_neg hst, hb]; rfl
  | some buf =>
    have h := readLoop_append (P := P) (E := E) (x.length + 1) m buf x y (by omega) hst
    have e1 : feed P E m (x ++ y) =
        (readLoop P E (x.length + 1 + y.length) m buf (x ++ y)).bind (fun r => (.ok r.1 : Out Unit (M σ))) := by
      unfold feed onRead
      rw [if_neg hst, hb]
      dsimp only
      rw [readLoop_fuel _ (x.length + 1 + y.length) _ _ _ (by omega) (by simp only [List.length_append]; omega)]
    have e2 : feed P E m x = (readLoop P E (x.length + 1) m buf x).bind (fun r => (.ok r.1 : Out Unit (M σ))) := by
      unfold feed onRead
      rw [if_neg hst, hb]
    rw [e1, h, e2, bind_assoc']
    rfl

/-- There is room for another byte, or the session is over. -/
def Ready (m : M σ) : Prop := m.b.state = .none ∨ ∃ buf, m.b.buf = some buf ∧ buf.length < m.b.need

theorem feed_nil {P : Prim} {E : Env σ} {m : M σ} (h : Ready m) : feed P E m [] = .ok m := by
  unfold feed onRead
  by_cases hst : m.b.state = .none
  · rw [if_pos hst]; rfl
  rw [if_neg hst]
  rcases h with h | ⟨buf, hb, hl⟩
  · exact absurd h hst
  rw [hb]
  dsimp only [List.length_nil]
  unfold readLoop
  rw [if_neg (by simp only [List.length_nil]; omega), List.append_nil]
  show Out.ok _ = _
  rw [← hb]

theorem readLoop_ready {P : Prim} {E : Env σ} : ∀ (f : Nat) (m : M σ) (buf data : Bytes) (r : M σ × Nat),
    readLoop P E f m buf data = .ok r → Ready r.1 := by
  intro f
  induction f with
  | zero => intro m buf data r h; cases h
  | succ f ih =>
    intro m buf data r hr
    unfold readLoop at hr
    by_cases hn : m.b.need ≤ buf.length + data.length
    case neg =>
      rw [if_neg hn] at hr; cases Out.ok.inj hr
      exact Or.inr ⟨_, rfl, by simp only [List.length_append]; omega⟩
    rw [if_pos hn] at hr
    by_cases hn2 : m.b.need ≤ buf.length
    · rw [if_pos hn2] at hr; cases hr
    rw [if_neg hn2] at hr
    dsimp only at hr
    obtain ⟨⟨m1, p⟩, hp, hr⟩ := Out.bind_eq_ok.1 hr
    cases p with
    | fail c => cases Out.ok.inj hr; exact Or.inl rfl
    | next n =>
      dsimp only at hr
      by_cases hz : m1.b.state = .none
      · rw [if_pos hz] at hr; cases Out.ok.inj hr; exact Or.inl hz
      rw [if_neg hz] at hr
      by_cases hn0 : n = 0
      · rw [if_pos hn0] at hr; cases hr
      rw [if_neg hn0] at hr
      exact ih _ _ _ _ hr

theorem feed_ready {P : Prim} {E : Env σ} {m m' : M σ} {data : Bytes} (h : Ready m)
    (hf : feed P E m data = .ok m') : Ready m' := by
  unfold feed onRead at hf
  by_cases hst : m.b.state = .none
  · rw [if_pos hst] at hf; cases Out.ok.inj hf; exact h
  rw [if_neg hst] at hf
  rcases h with h | ⟨buf, hb, hl⟩
  · exact absurd h hst
  rw [hb] at hf
  obtain ⟨r, hr, e⟩ := Out.bind_eq_ok.1 hf
  cases Out.ok.inj e
  exact readLoop_ready _ _ _ _ _ hr

theorem ready_kept {m m' : M σ} (h : Ready m) (k : Kept m m') : Ready m' := by
  obtain ⟨s, st, e⟩ := k.b
  rcases h with h | ⟨buf, hb, hl⟩
  · rcases k.state with hs | hs
    · exact Or.inl (hs.trans h)
    · exact Or.inl hs
  · exact Or.inr ⟨buf, by rw [e]; exact hb, by rw [e]; exact hl⟩

theorem step_ready {P : Prim} {E : Env σ} {m m' : M σ} {o : Op σ} (h : Ready m) (hs : step P E m o = .ok m') : Ready m' := by
  cases o with
  | read d => exact feed_ready h hs
  | act f => cases Out.ok.inj hs; exact ready_kept h (runHost_kept P E _ _)

theorem run_ready {P : Prim} {E : Env σ} : ∀ (os : List (Op σ)) {m m' : M σ}, Ready m → run P E os m = .ok m' → Ready m' := by
  intro os
  induction os with
  | nil => intro m m' h hr; cases Out.ok.inj hr; exact h
  | cons o os ih =>
    intro m m' h hr
    obtain ⟨m1, h1, h2⟩ := Out.bind_eq_ok.1 hr
    exact ih (step_ready h h1) h2

theorem feedAll_eq {P : Prim} {E : Env σ} : ∀ (ds : List Bytes) {m : M σ}, Ready m →
    feedAll P E ds m = feed P E m ds.flatten := by
  intro ds
  induction ds with
  | nil => intro m h; rw [List.flatten_nil, feed_nil h]; rfl
  | cons d ds ih =>
    intro m h
    rw [List.flatten_cons, feed_append]
    unfold feedAll
    cases hf : feed P E m d with
    | ok m1 => exact ih (feed_ready h hf)
    | err e => rfl
    | ub => rfl

theorem onConnect_ready {P : Prim} {E : Env σ} {m : M σ} {r : M σ × Nat} (h : onConnect P E m = .ok r) : Ready r.1 := by
  unfold onConnect at h
  by_cases hi : m.b.initiator = true
  · rw [if_pos hi] at h
    obtain ⟨g, _, h⟩ := Out.bind_eq_ok.1 h
    dsimp only at h
    by_cases hw : (emit E { m with b := g.1 } g.2).2 ≠ 0
    · rw [if_pos hw] at h; cases Out.ok.inj h; exact Or.inl rfl
    · rw [if_neg hw] at h; cases Out.ok.inj h; exact Or.inr ⟨[], rfl, (by decide : 0 < actTwoSize)⟩
  · rw [if_neg hi] at h; cases Out.ok.inj h; exact Or.inr ⟨[], rfl, (by decide : 0 < actOneSize)⟩

theorem dial_ready {P : Prim} {E : Env σ} {s : σ} {k t : Bytes} {m : M σ} (h : dial P E s k t = .ok m) : Ready m := by
  obtain ⟨b, _, h⟩ := Out.bind_eq_ok.1 h
  obtain ⟨r, h3, e⟩ := Out.bind_eq_ok.1 h
  cases Out.ok.inj e
  exact onConnect_ready h3

theorem listen_ready {P : Prim} {E : Env σ} {s : σ} {k : Bytes} {m : M σ} (h : listen P E s k = .ok m) : Ready m := by
  obtain ⟨r, h2, e⟩ := Out.bind_eq_ok.1 h
  cases Out.ok.inj e
  obtain ⟨b, _, h3⟩ := Out.bind_eq_ok.1 h2
  exact onConnect_ready h3

end Verif.Brontide
