import Verif.Spec.Daemon
/-
The states the node goes through.
-/
namespace Verif.Daemon
open Verif.Spec.Daemon

def out (r : Out Unit (Bool × St)) : St := match r with
  | .ok (_, s) => s
  | _ => st0

def out1 (r : Out Unit St) : St := match r with
  | .ok s => s
  | _ => st0

/-- All calls succeed. -/
def goodSys : Sys :=
  ⟨true, true, true, true, true, true, true, true, true, true, true, true, true, true, true, true, true, true, true, true, true, true, true, true,
   true, true, true, true, true, true, true, true, true, true, true, true, true, true⟩

def goodOpt (c : Bool) : Opt := ⟨false, c, false, false⟩

/-- After hsk_daemon_init. -/
def sInit (c : Bool) : St := out (daemonInit goodSys (goodOpt c) st0)
/-- The node runs. -/
def sUp (c : Bool) : St := out (daemonOpen goodSys (goodOpt c) (sInit c))
/-- The worker was told to end. -/
def sTold (c : Bool) : St := out1 (event .int (sUp c))
/-- The worker has ended. -/
def sDown (c : Bool) : St := out1 (event .quit (sTold c))
/-- The loop has finished the handles. -/
def sDone (c : Bool) : St := out1 (event .tick (sDown c))

/-- What `main` does at the end. -/
def finish (s : St) : Out Unit St := match s.signals with
  | .junk => .ub
  | .null => .ok s
  | .set => daemonClose s

/-- Released, as a function. -/
def rel : Status → Bool
  | .none | .gone | .closing => true
  | _ => false

theorem released_of {s : St} (h : ∀ o, rel (s.mem o) = true) : Released s := by
  intro o
  have := h o
  cases hs : s.mem o <;> simp_all [rel]

/-- A failed start: afterwards all is released, and the daemon is gone. -/
def Failed (s : St) : Prop := ∃ s', finish s = .ok s' ∧ s'.signals = .null ∧ ∀ o, rel (s'.mem o) = true

theorem daemonInit_cases (y : Sys) (o : Opt) (h1 : y.sigInit1 = true) (h2 : y.sigStart1 = true) (h3 : y.poolKeys = true) :
    (daemonInit y o st0 = .ok (true, sInit o.config) ∧ y.sigInit2 = true ∧ y.sigStart2 = true ∧ (o.key = true → y.poolKey = true) ∧
      y.poolSize = true ∧ y.poolAgent = true ∧ y.nsIp = true ∧ (o.key = true → y.nsKey = true) ∧ y.ubCreate = true ∧ y.ubAsync = true ∧
      y.stub = true ∧ (o.config = true → y.rsConfig = true) ∧ (o.key = true → y.rsKey = true)) ∨
    ∃ s, daemonInit y o st0 = .ok (false, s) ∧ Failed s := by
  rcases y with ⟨a1, a2, sigInit2, sigStart2, a3, poolKey, poolSize, poolAgent, nsIp, nsKey, ubCreate, ubAsync, stub, rsConfig, rsKey, b1, b2, b3, b4, b5, b6, b7, b8, b9, b10,
    b11, b12, b13, b14, b15, b16, b17, b18, b19, b20, b21, b22, b23⟩
  rcases o with ⟨key, config, c1, c2⟩
  simp only at h1 h2 h3
  subst h1 h2 h3
  simp only
  cases sigInit2
  · exact Or.inr ⟨_, rfl, _, rfl, rfl, by intro o; cases o <;> rfl⟩
  cases sigStart2
  · exact Or.inr ⟨_, rfl, _, rfl, rfl, by intro o; cases o <;> rfl⟩
  cases key
  · cases poolSize
    · exact Or.inr ⟨_, rfl, _, rfl, rfl, by intro o; cases o <;> rfl⟩
    cases poolAgent
    · exact Or.inr ⟨_, rfl, _, rfl, rfl, by intro o; cases o <;> rfl⟩
    cases nsIp
    · exact Or.inr ⟨_, rfl, _, rfl, rfl, by intro o; cases o <;> rfl⟩
    cases ubCreate
    · exact Or.inr ⟨_, rfl, _, rfl, rfl, by intro o; cases o <;> rfl⟩
    cases ubAsync
    · exact Or.inr ⟨_, rfl, _, rfl, rfl, by intro o; cases o <;> rfl⟩
    cases stub
    · exact Or.inr ⟨_, rfl, _, rfl, rfl, by intro o; cases o <;> rfl⟩
    cases config
    · exact Or.inl ⟨rfl, by simp⟩
    cases rsConfig
    · exact Or.inr ⟨_, rfl, _, rfl, rfl, by intro o; cases o <;> rfl⟩
    exact Or.inl ⟨rfl, by simp⟩
  · cases poolKey
    · exact Or.inr ⟨_, rfl, _, rfl, rfl, by intro o; cases o <;> rfl⟩
    cases poolSize
    · exact Or.inr ⟨_, rfl, _, rfl, rfl, by intro o; cases o <;> rfl⟩
    cases poolAgent
    · exact Or.inr ⟨_, rfl, _, rfl, rfl, by intro o; cases o <;> rfl⟩
    cases nsIp
    · exact Or.inr ⟨_, rfl, _, rfl, rfl, by intro o; cases o <;> rfl⟩
    cases nsKey
    · exact Or.inr ⟨_, rfl, _, rfl, rfl, by intro o; cases o <;> rfl⟩
    cases ubCreate
    · exact Or.inr ⟨_, rfl, _, rfl, rfl, by intro o; cases o <;> rfl⟩
    cases ubAsync
    · exact Or.inr ⟨_, rfl, _, rfl, rfl, by intro o; cases o <;> rfl⟩
    cases stub
    · exact Or.inr ⟨_, rfl, _, rfl, rfl, by intro o; cases o <;> rfl⟩
    cases config
    · cases rsKey
      · exact Or.inr ⟨_, rfl, _, rfl, rfl, by intro o; cases o <;> rfl⟩
      exact Or.inl ⟨rfl, by simp⟩
    cases rsConfig
    · exact Or.inr ⟨_, rfl, _, rfl, rfl, by intro o; cases o <;> rfl⟩
    cases rsKey
    · exact Or.inr ⟨_, rfl, _, rfl, rfl, by intro o; cases o <;> rfl⟩
    exact Or.inl ⟨rfl, by simp⟩

theorem prepare_eq {y : Sys} {o : Opt} (h : Prepared y o) : prepare y o = true := by
  obtain ⟨h1, h2⟩ := h
  unfold prepare
  cases hc : o.checkpoint <;> cases hp : o.pre <;> simp_all
  all_goals (cases hf : y.fileRead <;> simp_all)

theorem daemonOpen_cases (y : Sys) (o : Opt) (c : Bool) (hp : prepare y o = true) (h1 : y.timerInit = true) (h2 : y.nsInit = true)
    (h3 : y.rsInit = true) (h4 : y.queueInit = true) (h5 : y.pendingInit = true) (h6 : y.asyncInit = true) :
    (daemonOpen y o (sInit c) = .ok (true, sUp c) ∧ y.timerStart = true ∧ y.nsBind = true ∧ y.nsSend = true ∧ y.nsRecv = true ∧
      y.nsStart = true ∧ y.rsOptions = true ∧ y.rsBind = true ∧ y.rsSend = true ∧ y.rsRecv = true ∧ y.rsStart = true ∧ y.quitInit = true ∧
      y.thread = true) ∨
    ∃ s, daemonOpen y o (sInit c) = .ok (false, s) ∧ Failed s := by
  unfold daemonOpen
  rw [hp]
  clear hp
  rcases y with ⟨a1, a2, a3, a4, a5, a6, a7, a8, a9, a10, a11, a12, a13, a14, a15, a16, a17, a18, a19, a20, b1, timerStart, b2, nsBind, nsSend, nsRecv, nsStart, rsOptions,
    b3, rsBind, rsSend, rsRecv, rsStart, b4, b5, b6, quitInit, thread⟩
  simp only at h1 h2 h3 h4 h5 h6
  subst h1 h2 h3 h4 h5 h6
  simp only
  cases timerStart
  · cases c <;> exact Or.inr ⟨_, rfl, _, rfl, rfl, by intro o; cases o <;> rfl⟩
  cases nsBind
  · cases c <;> exact Or.inr ⟨_, rfl, _, rfl, rfl, by intro o; cases o <;> rfl⟩
  cases nsSend
  · cases c <;> exact Or.inr ⟨_, rfl, _, rfl, rfl, by intro o; cases o <;> rfl⟩
  cases nsRecv
  · cases c <;> exact Or.inr ⟨_, rfl, _, rfl, rfl, by intro o; cases o <;> rfl⟩
  cases nsStart
  · cases c <;> exact Or.inr ⟨_, rfl, _, rfl, rfl, by intro o; cases o <;> rfl⟩
  cases rsOptions
  · cases c <;> exact Or.inr ⟨_, rfl, _, rfl, rfl, by intro o; cases o <;> rfl⟩
  cases rsBind
  · cases c <;> exact Or.inr ⟨_, rfl, _, rfl, rfl, by intro o; cases o <;> rfl⟩
  cases rsSend
  · cases c <;> exact Or.inr ⟨_, rfl, _, rfl, rfl, by intro o; cases o <;> rfl⟩
  cases rsRecv
  · cases c <;> exact Or.inr ⟨_, rfl, _, rfl, rfl, by intro o; cases o <;> rfl⟩
  cases rsStart
  · cases c <;> exact Or.inr ⟨_, rfl, _, rfl, rfl, by intro o; cases o <;> rfl⟩
  cases quitInit
  · cases c <;> exact Or.inr ⟨_, rfl, _, rfl, rfl, by intro o; cases o <;> rfl⟩
  cases thread
  · cases c <;> exact Or.inr ⟨_, rfl, _, rfl, rfl, by intro o; cases o <;> rfl⟩
  left
  refine ⟨?_, by simp⟩
  cases c <;> rfl

theorem tick_eq (s t : St) (hm : ∀ o, (if s.mem o = .closing then .gone else s.mem o) = t.mem o)
    (h : { s with mem := t.mem } = t) : event .tick s = .ok t := by
  have : (fun o => if s.mem o = .closing then .gone else s.mem o) = t.mem := funext hm
  simp only [event, this, h]

theorem tick_up (c : Bool) : event .tick (sUp c) = .ok (sUp c) := by
  cases c <;> exact tick_eq _ _ (by intro o; cases o <;> rfl) rfl
theorem tick_told (c : Bool) : event .tick (sTold c) = .ok (sTold c) := by
  cases c <;> exact tick_eq _ _ (by intro o; cases o <;> rfl) rfl
theorem tick_down (c : Bool) : event .tick (sDown c) = .ok (sDone c) := rfl
theorem tick_done (c : Bool) : event .tick (sDone c) = .ok (sDone c) := by
  cases c <;> exact tick_eq _ _ (by intro o; cases o <;> rfl) rfl

theorem stop_up {e : Ev} (h : Stop e) (c : Bool) : event e (sUp c) = .ok (sTold c) := by
  rcases h with rfl | rfl <;> cases c <;> rfl
theorem stop_told {e : Ev} (h : Stop e) (c : Bool) : event e (sTold c) = .ok (sTold c) := by
  rcases h with rfl | rfl <;> cases c <;> rfl
theorem stop_down {e : Ev} (h : Stop e) (c : Bool) : event e (sDown c) = .ok (sDown c) := by
  rcases h with rfl | rfl <;> cases c <;> rfl
theorem stop_done {e : Ev} (h : Stop e) (c : Bool) : event e (sDone c) = .ok (sDone c) := by
  rcases h with rfl | rfl <;> cases c <;> rfl
theorem quit_up (c : Bool) : event .quit (sUp c) = .ok (sUp c) := by cases c <;> rfl
theorem quit_told (c : Bool) : event .quit (sTold c) = .ok (sDown c) := by cases c <;> rfl
theorem quit_down (c : Bool) : event .quit (sDown c) = .ok (sDown c) := by cases c <;> rfl
theorem quit_done (c : Bool) : event .quit (sDone c) = .ok (sDone c) := by cases c <;> rfl

/-- How far the node is. -/
def rank (c : Bool) (s : St) (n : Nat) : Prop := (n = 0 ∧ s = sUp c) ∨ (n = 1 ∧ s = sTold c) ∨ (n = 2 ∧ s = sDown c) ∨ (n = 3 ∧ s = sDone c)

/-- How far the node gets by an event. -/
def next (e : Ev) (n : Nat) : Nat :=
  match e with
  | .int | .term => if n = 0 then 1 else n
  | .quit => if n = 1 then 2 else n
  | .tick => if n = 2 then 3 else n

theorem event_rank {c : Bool} {s : St} {n : Nat} (h : rank c s n) (e : Ev) : ∃ s', event e s = .ok s' ∧ rank c s' (next e n) := by
  have hs : ∀ e, Stop e → next e n = if n = 0 then 1 else n := by rintro e (rfl | rfl) <;> rfl
  have stop : ∀ e, Stop e → ∃ s', event e s = .ok s' ∧ rank c s' (next e n) := by
    intro e he
    rw [hs e he]
    rcases h with ⟨rfl, rfl⟩ | ⟨rfl, rfl⟩ | ⟨rfl, rfl⟩ | ⟨rfl, rfl⟩
    · exact ⟨_, stop_up he c, Or.inr (Or.inl ⟨rfl, rfl⟩)⟩
    · exact ⟨_, stop_told he c, Or.inr (Or.inl ⟨rfl, rfl⟩)⟩
    · exact ⟨_, stop_down he c, Or.inr (Or.inr (Or.inl ⟨rfl, rfl⟩))⟩
    · exact ⟨_, stop_done he c, Or.inr (Or.inr (Or.inr ⟨rfl, rfl⟩))⟩
  cases e with
  | int => exact stop _ (Or.inl rfl)
  | term => exact stop _ (Or.inr rfl)
  | quit =>
    rcases h with ⟨rfl, rfl⟩ | ⟨rfl, rfl⟩ | ⟨rfl, rfl⟩ | ⟨rfl, rfl⟩
    · exact ⟨_, quit_up c, Or.inl ⟨rfl, rfl⟩⟩
    · exact ⟨_, quit_told c, Or.inr (Or.inr (Or.inl ⟨rfl, rfl⟩))⟩
    · exact ⟨_, quit_down c, Or.inr (Or.inr (Or.inl ⟨rfl, rfl⟩))⟩
    · exact ⟨_, quit_done c, Or.inr (Or.inr (Or.inr ⟨rfl, rfl⟩))⟩
  | tick =>
    rcases h with ⟨rfl, rfl⟩ | ⟨rfl, rfl⟩ | ⟨rfl, rfl⟩ | ⟨rfl, rfl⟩
    · exact ⟨_, tick_up c, Or.inl ⟨rfl, rfl⟩⟩
    · exact ⟨_, tick_told c, Or.inr (Or.inl ⟨rfl, rfl⟩)⟩
    · exact ⟨_, tick_down c, Or.inr (Or.inr (Or.inr ⟨rfl, rfl⟩))⟩
    · exact ⟨_, tick_done c, Or.inr (Or.inr (Or.inr ⟨rfl, rfl⟩))⟩

theorem run_rank {c : Bool} (evs : List Ev) : ∀ {s : St} {n : Nat}, rank c s n → ∃ s', run evs s = .ok s' ∧ rank c s' (evs.foldl (fun n e => next e n) n) := by
  induction evs with
  | nil => intro s n h; exact ⟨s, rfl, h⟩
  | cons e r ih =>
    intro s n h
    obtain ⟨s1, h1, h2⟩ := event_rank h e
    obtain ⟨s2, h3, h4⟩ := ih h2
    exact ⟨s2, by simp only [run, h1, Out.bind, h3], h4⟩

theorem rank_le {c : Bool} {s : St} {n : Nat} (h : rank c s n) : n ≤ 3 := by
  rcases h with ⟨rfl, _⟩ | ⟨rfl, _⟩ | ⟨rfl, _⟩ | ⟨rfl, _⟩ <;> omega

theorem next_ge (e : Ev) (n : Nat) : n ≤ next e n := by
  cases e <;> simp only [next] <;> split <;> omega

theorem fold_ge (evs : List Ev) : ∀ n, n ≤ evs.foldl (fun n e => next e n) n := by
  induction evs with
  | nil => intro n; exact Nat.le_refl n
  | cons e r ih => intro n; exact Nat.le_trans (next_ge e n) (ih _)

theorem run_append (a b : List Ev) (s : St) : run (a ++ b) s = (run a s).bind (run b) := by
  induction a generalizing s with
  | nil => rfl
  | cons e r ih =>
    simp only [List.cons_append, run]
    cases event e s with
    | ok s' => simp only [Out.bind]; exact ih s'
    | err _ => rfl
    | ub => rfl

end Verif.Daemon
