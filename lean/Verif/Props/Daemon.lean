import Verif.Lemmas.Daemon
/-
C84: starting and stopping the node.
-/
namespace Verif.Props.Daemon
open Verif.Daemon Verif.Spec.Daemon

theorem up_up (c : Bool) : Up (sUp c) := by cases c <;> exact ⟨rfl, rfl, rfl, rfl, rfl, rfl, rfl⟩
theorem clean_done (c : Bool) : Clean (sDone c) := by
  intro o
  cases c <;> cases o <;> first | exact Or.inl rfl | exact Or.inr rfl

theorem boot_cases (y : Sys) (o : Opt) (h : Lucky y o) :
    (Works y o ∧ boot y o = .ok (true, sUp o.config)) ∨ (¬ Works y o ∧ ∃ s, boot y o = .ok (false, s) ∧ Failed s) := by
  unfold boot
  have hp := prepare_eq h.prepared
  rcases daemonInit_cases y o h.signal.1 h.signal.2 h.keys with ⟨h1, a1, a2, a3, a4, a5, a6, a7, a8, a9, a10, a11, a12⟩ | ⟨s, h1, h2⟩
  · rw [h1]
    simp only [Out.bind, Bool.true_eq_false, if_false]
    rcases daemonOpen_cases y o o.config hp h.handles.1 h.handles.2.1 h.handles.2.2 h.worker.1 h.worker.2.1 h.worker.2.2 with
      ⟨h2, b1, b2, b3, b4, b5, b6, b7, b8, b9, b10, b11, b12⟩ | ⟨s, h2, h3⟩
    · exact Or.inl ⟨⟨h, ⟨a1, a2⟩, ⟨a3, a4, a5, b1⟩, ⟨a6, a7, b2, b3, b4, b5⟩, ⟨a8, a9, a10, a11, a12, b6, b7, b8, b9, b10, b11, b12⟩⟩, h2⟩
    · refine Or.inr ⟨?_, s, h2, h3⟩
      intro hw
      have : daemonOpen y o (sInit o.config) = .ok (true, sUp o.config) := by
        rcases y with ⟨_, _, _, _, _, _, _, _, _, _, _, _, _, _, _, _, _, _, _, _, _, _, _, _, _, _, _, _, _, _, _, _, _, _, _, _, _, _⟩
        obtain ⟨⟨_, _, _, ⟨e1, e2, e3⟩, ⟨e4, e5, e6⟩⟩, _, ⟨_, _, _, e7⟩, ⟨_, _, e8, e9, e10, e11⟩, ⟨_, _, _, _, _, e12, e13, e14, e15, e16, e17, e18⟩⟩ := hw
        simp only at e1 e2 e3 e4 e5 e6 e7 e8 e9 e10 e11 e12 e13 e14 e15 e16 e17 e18
        subst e1 e2 e3 e4 e5 e6 e7 e8 e9 e10 e11 e12 e13 e14 e15 e16 e17 e18
        unfold daemonOpen
        rw [hp]
        cases o.config <;> rfl
      rw [this] at h2
      cases h2
  · rw [h1]
    refine Or.inr ⟨?_, s, rfl, h2⟩
    intro hw
    have : ∃ t, daemonInit y o st0 = .ok (true, t) := by
      rcases y with ⟨_, _, _, _, _, _, _, _, _, _, _, _, _, _, _, _, _, _, _, _, _, _, _, _, _, _, _, _, _, _, _, _, _, _, _, _, _, _⟩
      rcases o with ⟨key, config, c1, c2⟩
      obtain ⟨⟨⟨e1, e2⟩, e3, _, _, _⟩, ⟨e4, e5⟩, ⟨e6, e7, e8, _⟩, ⟨e9, e10, _⟩, ⟨e11, e12, e13, e14, e15, _⟩⟩ := hw
      simp only at e1 e2 e3 e4 e5 e6 e7 e8 e9 e10 e11 e12 e13 e14 e15
      subst e1 e2 e3 e4 e5 e7 e8 e9 e11 e12 e13
      cases key
      · cases config
        · exact ⟨_, rfl⟩
        · rw [e14 rfl]; exact ⟨_, rfl⟩
      · rw [e6 rfl, e10 rfl, e15 rfl]
        cases config
        · exact ⟨_, rfl⟩
        · rw [e14 rfl]; exact ⟨_, rfl⟩
    obtain ⟨t, ht⟩ := this
    rw [ht] at h1
    cases h1

/-- Nothing that is left reacts. -/
theorem run_released (evs : List Ev) : ∀ (s : St), (∀ o, rel (s.mem o) = true) →
    ∃ s', run evs s = .ok s' ∧ (∀ o, rel (s'.mem o) = true) ∧ (Ev.tick ∈ evs ∨ Clean s → Clean s') := by
  induction evs with
  | nil => intro s h; exact ⟨s, rfl, h, by simp⟩
  | cons e r ih =>
    intro s h
    have hn : ∀ o, s.mem o ≠ .opened := by
      intro o ho
      have := h o
      rw [ho] at this
      cases this
    have same : event e s = .ok s → e ≠ .tick → ∃ s', run (e :: r) s = .ok s' ∧ (∀ o, rel (s'.mem o) = true) ∧ (Ev.tick ∈ e :: r ∨ Clean s → Clean s') := by
      intro h1 h2
      obtain ⟨s', h3, h4, h5⟩ := ih s h
      refine ⟨s', by simp only [run, h1, Out.bind, h3], h4, ?_⟩
      rintro (h6 | h6)
      · rcases List.mem_cons.1 h6 with h6 | h6
        · exact absurd h6.symm h2
        · exact h5 (Or.inl h6)
      · exact h5 (Or.inr h6)
    cases e with
    | int => exact same (by simp only [event, if_neg (hn .sigint)]) (by simp)
    | term => exact same (by simp only [event, if_neg (hn .sigterm)]) (by simp)
    | quit => exact same (by simp only [event]; rw [if_neg (fun x => hn .thread x.1)]) (by simp)
    | tick =>
      have hc : Clean { s with mem := fun o => if s.mem o = .closing then .gone else s.mem o } := by
        intro o
        simp only
        have := h o
        cases hs : s.mem o <;> simp_all [rel]
      obtain ⟨s', h3, h4, h5⟩ := ih { s with mem := fun o => if s.mem o = .closing then .gone else s.mem o } (by
        intro o
        simp only
        split
        · rfl
        · exact h o)
      exact ⟨s', by simp only [run, event, Out.bind, h3], h4, fun _ => h5 (Or.inr hc)⟩

/-- C84: if all calls succeed the node runs; if any of the others fails, the process ends in order, with all that
was allocated released once. -/
theorem C84_start_partial (y : Sys) (o : Opt) (h : Lucky y o) :
    (Works y o → ∃ s, boot y o = .ok (true, s) ∧ Up s) ∧
    (¬ Works y o → ∀ evs after, ∃ s, main y o evs after = .ok s ∧ Released s) := by
  constructor
  · intro hw
    rcases boot_cases y o h with ⟨_, h1⟩ | ⟨h1, _⟩
    · exact ⟨_, h1, up_up _⟩
    · exact absurd hw h1
  · intro hw evs after
    rcases boot_cases y o h with ⟨h1, _⟩ | ⟨_, s, h1, s', h2, h3, h4⟩
    · exact absurd h1 hw
    · unfold main
      rw [h1]
      simp only [Out.bind, Bool.false_eq_true, if_false]
      unfold finish at h2
      cases hs : s.signals with
      | junk => rw [hs] at h2; cases h2
      | null =>
        rw [hs] at h2
        simp only [Out.ok.injEq] at h2
        subst h2
        exact ⟨_, rfl, released_of h4⟩
      | set =>
        rw [hs] at h2
        simp only at h2 ⊢
        rw [h2]
        obtain ⟨s'', h5, h6, _⟩ := run_released after s' h4
        exact ⟨s'', h5, released_of h6⟩

theorem rank_signals {c : Bool} {s : St} {n : Nat} (h : rank c s n) : s.signals = if n ≤ 1 then .set else .null := by
  rcases h with ⟨rfl, rfl⟩ | ⟨rfl, rfl⟩ | ⟨rfl, rfl⟩ | ⟨rfl, rfl⟩ <;> cases c <;> rfl

theorem close_rank {c : Bool} {s : St} {n : Nat} (h : rank c s n) (hn : n ≤ 1) : daemonClose s = .ok (sTold c) := by
  rcases h with ⟨rfl, rfl⟩ | ⟨rfl, rfl⟩ | ⟨rfl, rfl⟩ | ⟨rfl, rfl⟩
  · cases c <;> rfl
  · cases c <;> rfl
  · omega
  · omega

theorem rank_clean {c : Bool} {s : St} {n : Nat} (h : rank c s n) (hn : 3 ≤ n) : Clean s := by
  have := rank_le h
  rcases h with ⟨rfl, rfl⟩ | ⟨rfl, rfl⟩ | ⟨rfl, rfl⟩ | ⟨rfl, rfl⟩
  · omega
  · omega
  · omega
  · exact clean_done c

theorem next_stop {e : Ev} (h : Stop e) (n : Nat) : 1 ≤ next e n := by
  rcases h with rfl | rfl <;> simp only [next] <;> split <;> omega

theorem next_quit {n : Nat} (h : 1 ≤ n) : 2 ≤ next .quit n := by
  simp only [next]; split <;> omega

theorem next_tick {n : Nat} (h : 2 ≤ n) : 3 ≤ next .tick n := by
  simp only [next]; split <;> omega

/-- C84: a node that runs goes on until a signal comes, or whatever else ends the loop; signals may come at any time and
more than once. When a signal has come, the worker has ended and the loop has finished the handles, all that was allocated has been
released once; the same if the loop ends otherwise, and `main` tells the node to stop. -/
theorem C84_stop_partial (y : Sys) (o : Opt) (h : Works y o) (s : St) (hs : boot y o = .ok (true, s)) :
    (∀ evs, ∃ s', run evs s = .ok s' ∧ ((∀ e ∈ evs, ¬ Stop e) → Up s')) ∧
    (∀ evs after, ∃ s', main y o evs after = .ok s') ∧
    (∀ e a b c d after, Stop e → ∃ s', main y o (a ++ e :: (b ++ .quit :: (c ++ .tick :: d))) after = .ok s' ∧ Clean s') ∧
    (∀ evs b c d, (∀ e ∈ evs, ¬ Stop e) → ∃ s', main y o evs (b ++ .quit :: (c ++ .tick :: d)) = .ok s' ∧ Clean s') := by
  have hb : boot y o = .ok (true, sUp o.config) := by
    rcases boot_cases y o h.toLucky with ⟨_, h1⟩ | ⟨h1, _⟩
    · exact h1
    · exact absurd h h1
  rw [hb] at hs
  simp only [Out.ok.injEq, Prod.mk.injEq, true_and] at hs
  subst hs
  have r0 : rank o.config (sUp o.config) 0 := Or.inl ⟨rfl, rfl⟩
  have r1 : rank o.config (sTold o.config) 1 := Or.inr (Or.inl ⟨rfl, rfl⟩)
  have quiet : ∀ evs : List Ev, (∀ e ∈ evs, ¬ Stop e) → evs.foldl (fun n e => next e n) 0 = 0 := by
    intro evs
    induction evs with
    | nil => intro _; rfl
    | cons e r ih =>
      intro he
      rw [List.foldl_cons]
      have : next e 0 = 0 := by
        have := he e (by simp)
        cases e with
        | int => exact absurd (Or.inl rfl) this
        | term => exact absurd (Or.inr rfl) this
        | quit => rfl
        | tick => rfl
      rw [this]
      exact ih fun e h => he e (by simp [h])
  have mainEq : ∀ evs after, main y o evs after = (run evs (sUp o.config)).bind fun s => match s.signals with
      | .junk => .ub | .null => .ok s | .set => (daemonClose s).bind (run after) := by
    intro evs after
    unfold main
    rw [hb]
    rfl
  refine ⟨?_, ?_, ?_, ?_⟩
  · intro evs
    obtain ⟨s', h1, h2⟩ := run_rank evs r0
    refine ⟨s', h1, ?_⟩
    intro he
    rw [quiet evs he] at h2
    rcases h2 with ⟨_, rfl⟩ | ⟨h3, _⟩ | ⟨h3, _⟩ | ⟨h3, _⟩
    · exact up_up _
    all_goals cases h3
  · intro evs after
    obtain ⟨s', h1, h2⟩ := run_rank evs r0
    rw [mainEq, h1]
    simp only [Out.bind]
    rw [rank_signals h2]
    split
    · rename_i he; split at he <;> cases he
    · exact ⟨_, rfl⟩
    · rename_i he
      rw [close_rank h2 (by
        rcases Nat.lt_or_ge 1 (evs.foldl (fun n e => next e n) 0) with h3 | h3
        · rw [if_neg (by omega)] at he; cases he
        · exact h3)]
      obtain ⟨s'', h3, _⟩ := run_rank after r1
      exact ⟨s'', h3⟩
  · intro e a b c d after he
    obtain ⟨s', h1, h2⟩ := run_rank (a ++ e :: (b ++ .quit :: (c ++ .tick :: d))) r0
    have hge : 3 ≤ (a ++ e :: (b ++ .quit :: (c ++ .tick :: d))).foldl (fun n e => next e n) 0 := by
      rw [List.foldl_append, List.foldl_cons, List.foldl_append, List.foldl_cons, List.foldl_append, List.foldl_cons]
      refine Nat.le_trans ?_ (fold_ge d _)
      apply next_tick
      refine Nat.le_trans ?_ (fold_ge c _)
      apply next_quit
      refine Nat.le_trans ?_ (fold_ge b _)
      exact next_stop he _
    rw [mainEq, h1]
    simp only [Out.bind]
    rw [rank_signals h2, if_neg (by omega)]
    exact ⟨s', rfl, rank_clean h2 hge⟩
  · intro evs b c d he
    obtain ⟨s', h1, h2⟩ := run_rank evs r0
    rw [quiet evs he] at h2
    rw [mainEq, h1]
    simp only [Out.bind]
    rw [rank_signals h2]
    simp only [Nat.zero_le, if_true]
    rw [close_rank h2 (by omega)]
    obtain ⟨s'', h3, h4⟩ := run_rank (b ++ .quit :: (c ++ .tick :: d)) r1
    refine ⟨s'', h3, rank_clean h4 ?_⟩
    rw [List.foldl_append, List.foldl_cons, List.foldl_append, List.foldl_cons]
    refine Nat.le_trans ?_ (fold_ge d _)
    apply next_tick
    refine Nat.le_trans ?_ (fold_ge c _)
    apply next_quit
    exact fold_ge b 1

/-- C84: with a directory that does not exist or whose name is too long, or when a checkpoint cannot be used, the process does not
report the error and end, but follows a null pointer. -/
theorem C84_prefix_false (y : Sys) (o : Opt) (h : Works y { o with checkpoint := false, pre := false }) (hp : ¬ Prepared y o) (evs after : List Ev) :
    main y o evs after = .ub := by
  have hp' : prepare y o = false := by
    cases hq : prepare y o with
    | false => rfl
    | true =>
      exfalso
      apply hp
      unfold prepare at hq
      refine ⟨?_, ?_⟩
      · intro hc
        cases hi : y.inject with
        | true => rfl
        | false => rw [if_pos ⟨hc, hi⟩] at hq; cases hq
      · intro hc
        split at hq
        · cases hq
        · cases h1 : y.found
          · rw [if_pos h1] at hq; cases hq
          · rw [if_neg (by simp [h1])] at hq
            cases h2 : y.fits
            · rw [if_pos h2] at hq; cases hq
            · rw [if_neg (by simp [h2])] at hq
              refine ⟨rfl, rfl, ?_⟩
              intro h3
              cases h4 : y.fileInject
              · rw [if_pos ⟨h3, h4⟩] at hq; cases hq
              · rfl
  have hinit : daemonInit y o st0 = .ok (true, sInit o.config) := by
    rcases daemonInit_cases y { o with checkpoint := false, pre := false } h.signal.1 h.signal.2 h.keys with ⟨h1, _⟩ | ⟨s, h1, h2⟩
    · exact h1
    · exfalso
      rcases boot_cases y _ h.toLucky with ⟨_, h3⟩ | ⟨h3, _⟩
      · unfold boot at h3
        rw [h1] at h3
        cases h3
      · exact h3 h
  unfold main boot
  rw [hinit]
  simp only [Out.bind, Bool.true_eq_false, if_false, daemonOpen, hp', if_true, Bool.false_eq_true]
  cases o.config <;> rfl

/-- C84: if the first handle for signals cannot be made, a pointer never assigned is followed. -/
theorem C84_signal_false (y : Sys) (o : Opt) (h : y.sigInit1 = false ∨ y.sigStart1 = false) (evs after : List Ev) : main y o evs after = .ub := by
  rcases y with ⟨a, b, _, _, _, _, _, _, _, _, _, _, _, _, _, _, _, _, _, _, _, _, _, _, _, _, _, _, _, _, _, _, _, _, _, _, _, _⟩
  simp only at h
  cases a
  · rfl
  · rcases h with h | h
    · cases h
    · subst h; rfl

/-- C84: the same if the locks of the worker or the first way to wake the loop cannot be made. -/
theorem C84_worker_false (y : Sys) (s : St) (h : y.queueInit = false ∨ y.pendingInit = false ∨ y.asyncInit = false) : workerAlloc y s = .ub := by
  have free_new : ∀ (ob : Obj) (s : St), free ob (new ob s) = .ok { s with mem := upd (upd s.mem ob .raw) ob .gone } := by
    intro ob s; simp [free, new, upd]
  have fail : ∀ s : St, s.quit = .junk → s.exit = false → s.running = false → workerFail s = .ub := by
    intro s h1 h2 h3
    simp [workerFail, workerUninit, h1, h2, h3, freeAsync, ifSet, Out.bind]
  unfold workerAlloc
  cases hq : y.queueInit
  · simp only [allocLocked, if_true, free_new, Out.bind]
    rw [fail _ rfl rfl rfl]
  · cases hp : y.pendingInit
    · simp only [allocLocked, if_true, free_new, Out.bind, Bool.true_eq_false, if_false]
      rw [fail _ rfl rfl rfl]
    · have ha : y.asyncInit = false := by simpa [hq, hp] using h
      simp only [allocLocked, allocAsync, ha, if_true, free_new, Out.bind, Bool.true_eq_false, if_false]
      rw [fail _ rfl rfl rfl]

/-- C84: a pool for which no key can be made is released although it was not filled in. -/
theorem C84_pool_false (y : Sys) (s : St) (h : y.poolKeys = false) : poolAlloc y s = .ub := by
  simp [poolAlloc, h, poolFree, ifSet, Out.bind]

/-! ### Examples -/

example : Works goodSys ⟨true, true, true, true⟩ := by
  refine ⟨⟨⟨rfl, rfl⟩, rfl, ⟨fun _ => rfl, fun _ => ⟨rfl, rfl, fun _ => rfl⟩⟩, ⟨rfl, rfl, rfl⟩, ⟨rfl, rfl, rfl⟩⟩, ⟨rfl, rfl⟩, ⟨fun _ => rfl, rfl, rfl, rfl⟩,
    ⟨rfl, fun _ => rfl, rfl, rfl, rfl, rfl⟩, rfl, rfl, rfl, fun _ => rfl, fun _ => rfl, rfl, rfl, rfl, rfl, rfl, rfl, rfl⟩

/-- The port of the recursive server is in use. -/
example : Lucky { goodSys with rsBind := false } ⟨true, true, true, true⟩ ∧ ¬ Works { goodSys with rsBind := false } ⟨true, true, true, true⟩ :=
  ⟨⟨⟨rfl, rfl⟩, rfl, ⟨fun _ => rfl, fun _ => ⟨rfl, rfl, fun _ => rfl⟩⟩, ⟨rfl, rfl, rfl⟩, ⟨rfl, rfl, rfl⟩⟩, fun h => by
    have := h.rs
    simp at this⟩

/-- `-x` with a directory that does not exist. -/
example : ¬ Prepared { goodSys with found := false } ⟨false, false, false, true⟩ ∧
    Works { goodSys with found := false } ⟨false, false, false, false⟩ := by
  refine ⟨fun h => by simpa using h.2 rfl, ⟨⟨rfl, rfl⟩, rfl, ⟨fun h => by simp at h, fun h => by simp at h⟩, ⟨rfl, rfl, rfl⟩, ⟨rfl, rfl, rfl⟩⟩, ⟨rfl, rfl⟩,
    ⟨fun _ => rfl, rfl, rfl, rfl⟩, ⟨rfl, fun _ => rfl, rfl, rfl, rfl, rfl⟩, rfl, rfl, rfl, fun _ => rfl, fun _ => rfl, rfl, rfl, rfl, rfl, rfl, rfl, rfl⟩

/-- Two signals, the end of the worker, the end of the handles. -/
example : ∃ s, main goodSys ⟨false, true, false, false⟩ [.tick, .int, .term, .quit, .tick] [] = .ok s ∧ s.mem .config = .gone ∧ s.mem .ub = .gone :=
  ⟨_, rfl, rfl, rfl⟩

end Verif.Props.Daemon
