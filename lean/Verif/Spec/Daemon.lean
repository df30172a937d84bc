import Verif.Model.Daemon
/-
When the parts of the node are released.
-/
namespace Verif.Spec.Daemon
open Verif.Daemon

/-- Everything that was allocated is released, and the loop has nothing left. -/
def Clean (s : St) : Prop := ∀ o, s.mem o = .none ∨ s.mem o = .gone

/-- Everything that was allocated is released, or closed so that the loop releases it. -/
def Released (s : St) : Prop := ∀ o, s.mem o = .none ∨ s.mem o = .gone ∨ s.mem o = .closing

/-- Everything is there: the node runs. -/
def Up (s : St) : Prop :=
  s.mem .sigint = .opened ∧ s.mem .sigterm = .opened ∧ s.mem .timer = .opened ∧ s.mem .nsSocket = .opened ∧ s.mem .rsSocket = .opened ∧
  s.mem .thread = .opened ∧ s.exit = false

/-- The calls before the pool is opened succeed. -/
def Prepared (y : Sys) (o : Opt) : Prop :=
  (o.checkpoint = true → y.inject = true) ∧
  (o.pre = true → y.found = true ∧ y.fits = true ∧ (y.fileRead = true → y.fileInject = true))

/-- The calls that must succeed for the node to survive. -/
structure Lucky (y : Sys) (o : Opt) : Prop where
  /-- The first handle for signals. -/
  signal : y.sigInit1 = true ∧ y.sigStart1 = true
  /-- Random numbers for the pool's key. -/
  keys : y.poolKeys = true
  prepared : Prepared y o
  /-- The handles themselves (libuv documents no failure of these). -/
  handles : y.timerInit = true ∧ y.nsInit = true ∧ y.rsInit = true
  /-- Locks, and the first way to wake the loop. -/
  worker : y.queueInit = true ∧ y.pendingInit = true ∧ y.asyncInit = true

/-- All calls succeed. -/
structure Works (y : Sys) (o : Opt) : Prop extends Lucky y o where
  signals : y.sigInit2 = true ∧ y.sigStart2 = true
  pool : (o.key = true → y.poolKey = true) ∧ y.poolSize = true ∧ y.poolAgent = true ∧ y.timerStart = true
  ns : y.nsIp = true ∧ (o.key = true → y.nsKey = true) ∧ y.nsBind = true ∧ y.nsSend = true ∧ y.nsRecv = true ∧ y.nsStart = true
  rs : y.ubCreate = true ∧ y.ubAsync = true ∧ y.stub = true ∧ (o.config = true → y.rsConfig = true) ∧ (o.key = true → y.rsKey = true) ∧
    y.rsOptions = true ∧ y.rsBind = true ∧ y.rsSend = true ∧ y.rsRecv = true ∧ y.rsStart = true ∧ y.quitInit = true ∧ y.thread = true

/-- The node is told to stop, by a signal of either kind. -/
def Stop (e : Ev) : Prop := e = .int ∨ e = .term

end Verif.Spec.Daemon
