import Verif.Model.Mem
/-
Model of starting and stopping the node: hsk_daemon_* and main of src/daemon.c, src/signals.c, and the
functions of src/pool.c, src/ns.c, src/rs.c and src/rs_worker.c that open and close its parts.

The state is what has been allocated and which pointers are set. Every call that may fail for reasons outside the
program is a field of `Sys` (`true`: it succeeds); each is made at most once. Allocation succeeds. `uv_timer_stop`,
`uv_udp_recv_stop` and `uv_signal_stop` succeed. Peers, requests, the cache and the chain are not part of this model;
logging is left out.
-/
namespace Verif.Daemon

/-- What is allocated. -/
inductive Obj where
  | signals | sigint | sigterm | pool | poolEc | agent | timer | ns | nsEc | nsSocket | rs | rsEc | ub | config | rsSocket
  | worker | queue | pending | async | quit | thread
  deriving DecidableEq

/-- `raw` memory; a libuv handle (or a thread) is `opened`, then `closing` until the loop has finished it. -/
inductive Status where
  | none | raw | opened | closing | gone
  deriving DecidableEq

/-- A pointer in memory: `junk` if nothing was assigned. -/
inductive P where
  | junk | null | set
  deriving DecidableEq

structure St where
  mem : Obj → Status
  -- hsk_daemon_t
  signals : P
  pool : P
  ns : P
  rs : P
  -- hsk_signals_t
  sigint : P
  sigterm : P
  -- hsk_pool_t
  poolEc : P
  timer : P
  agent : P
  -- hsk_ns_t
  nsSocket : P
  nsReceiving : Bool
  nsEc : P
  -- hsk_rs_t
  rsSocket : P
  rsReceiving : Bool
  rsEc : P
  ub : P
  config : P
  worker : P
  -- hsk_rs_worker_t
  queue : P
  pending : P
  async : P
  quit : P
  /-- The worker's context of the resolver, set while the thread runs. -/
  running : Bool
  /-- The worker was told to end. -/
  exit : Bool

/-- Outcomes of calls. -/
structure Sys where
  sigInit1 : Bool
  sigStart1 : Bool
  sigInit2 : Bool
  sigStart2 : Bool
  poolKeys : Bool
  poolKey : Bool
  poolSize : Bool
  poolAgent : Bool
  nsIp : Bool
  nsKey : Bool
  ubCreate : Bool
  ubAsync : Bool
  stub : Bool
  rsConfig : Bool
  rsKey : Bool
  inject : Bool
  found : Bool
  fits : Bool
  fileRead : Bool
  fileInject : Bool
  timerInit : Bool
  timerStart : Bool
  nsInit : Bool
  nsBind : Bool
  nsSend : Bool
  nsRecv : Bool
  nsStart : Bool
  rsOptions : Bool
  rsInit : Bool
  rsBind : Bool
  rsSend : Bool
  rsRecv : Bool
  rsStart : Bool
  queueInit : Bool
  pendingInit : Bool
  asyncInit : Bool
  quitInit : Bool
  thread : Bool

/-- The options that matter here: whether there is an identity key, a file for the resolver, a wish to start from the
checkpoint, a directory. -/
structure Opt where
  key : Bool
  config : Bool
  checkpoint : Bool
  pre : Bool

abbrev M := St → Out Unit St

def upd (f : Obj → Status) (o : Obj) (v : Status) : Obj → Status := fun x => if x = o then v else f x

/-- `malloc`. -/
def new (o : Obj) (s : St) : St := { s with mem := upd s.mem o .raw }

/-- A successful `uv_*_init`. -/
def opened (o : Obj) (s : St) : St := { s with mem := upd s.mem o .opened }

/-- `free`; also of a mutex with its owner. Freeing what is not allocated, or a handle that the loop still knows,
is `ub`. -/
def free (o : Obj) (s : St) : Out Unit St := if s.mem o = .raw then .ok { s with mem := upd s.mem o .gone } else .ub

/-- hsk_uv_close_free (src/utils.c:240-243) of a handle: it must be initialised, and not be closed already. -/
def closeFree (o : Obj) (s : St) : Out Unit St := if s.mem o = .opened then .ok { s with mem := upd s.mem o .closing } else .ub

/-- An access to memory. -/
def touch (o : Obj) (s : St) : Out Unit St := if s.mem o = .none ∨ s.mem o = .gone then .ub else .ok s

/-- `if (p) …`. -/
def ifSet (p : P) (m : M) (s : St) : Out Unit St := match p with
  | .junk => .ub
  | .null => .ok s
  | .set => m s

/-! ### signals.c -/

/-- free_signal (src/signals.c:104-111). -/
def freeSignal (o : Obj) (p : P) (s : St) : Out Unit St := ifSet p (fun s => (touch o s).bind fun s => closeFree o s) s

/-- hsk_signals_uninit (src/signals.c:47-53). `sigterm` is cleared twice, `sigint` is not. -/
def signalsUninit (s : St) : Out Unit St :=
  (freeSignal .sigterm s.sigterm s).bind fun s =>
    let s := { s with sigterm := .null }
    (freeSignal .sigint s.sigint s).bind fun s => .ok { s with sigterm := .null }

/-- hsk_signals_free (src/signals.c:69-75). -/
def signalsFree (s : St) : Out Unit St := (signalsUninit s).bind (free .signals)

/-- alloc_signal (src/signals.c:77-102): whether there is one. -/
def allocSignal (o : Obj) (init start : Bool) (s : St) : Out Unit (Bool × St) :=
  let s := new o s
  if init = false then (free o s).bind fun s => .ok (false, s)
  else
    let s := opened o s
    if start = false then (closeFree o s).bind fun s => .ok (false, s) else .ok (true, s)

def ptr (b : Bool) : P := if b then .set else .null

/-- hsk_signals_alloc, hsk_signals_init (src/signals.c:22-45, src/signals.c:55-67). -/
def signalsAlloc (y : Sys) (s : St) : Out Unit (Bool × St) :=
  let s := { new .signals s with sigint := .junk, sigterm := .junk }
  (allocSignal .sigint y.sigInit1 y.sigStart1 s).bind fun (b, s) =>
    let s := { s with sigint := ptr b }
    if b = false then (signalsUninit s).bind fun s => (free .signals s).bind fun s => .ok (false, s)
    else (allocSignal .sigterm y.sigInit2 y.sigStart2 s).bind fun (b, s) =>
      let s := { s with sigterm := ptr b }
      if b = false then (signalsUninit s).bind fun s => (free .signals s).bind fun s => .ok (false, s)
      else .ok (true, s)

/-! ### pool.c -/

/-- hsk_pool_uninit (src/pool.c:182-216) and hsk_pool_free (src/pool.c:337-344). Peers, pending requests and tables
are left out. -/
def poolFree (s : St) : Out Unit St :=
  (ifSet s.poolEc (fun s => (free .poolEc s).bind fun s => .ok { s with poolEc := .null }) s).bind fun s =>
  (ifSet s.agent (fun s => (free .agent s).bind fun s => .ok { s with agent := .null }) s).bind (free .pool)

/-- hsk_pool_alloc, hsk_pool_init (src/pool.c:143-180, src/pool.c:322-335): if no key can be made, `ec` is lost, and the
pool, not filled in, is released. -/
def poolAlloc (y : Sys) (s : St) : Out Unit (Bool × St) :=
  let s := { new .poolEc (new .pool s) with poolEc := .junk, timer := .junk, agent := .junk }
  if y.poolKeys = false then (poolFree s).bind fun s => .ok (false, s)
  else .ok (true, { new .agent s with poolEc := .set, timer := .null, agent := .set })

/-- hsk_pool_open (src/pool.c:346-368). -/
def poolOpen (y : Sys) (s : St) : Bool × St :=
  let s := { new .timer s with timer := .set }
  if y.timerInit = false then (false, s)
  else (y.timerStart, opened .timer s)

/-- hsk_pool_close (src/pool.c:370-382). `uv_timer_stop` reads the handle. -/
def poolClose (s : St) : Out Unit St :=
  if s.timer = .set then
    (touch .timer s).bind fun s => (closeFree .timer s).bind fun s => .ok { s with timer := .null }
  else .ub

/-! ### ns.c -/

/-- hsk_ns_alloc, hsk_ns_init (src/ns.c:103-127, src/ns.c:244-257). -/
def nsAlloc (s : St) : St := { new .nsEc (new .ns s) with nsSocket := .null, nsReceiving := false, nsEc := .set }

/-- hsk_ns_uninit, hsk_ns_free (src/ns.c:129-140, src/ns.c:259-266). -/
def nsFree (s : St) : Out Unit St :=
  (ifSet s.nsEc (fun s => (free .nsEc s).bind fun s => .ok { s with nsEc := .null }) s).bind (free .ns)

/-- hsk_ns_open (src/ns.c:183-222). -/
def nsOpen (y : Sys) (s : St) : Bool × St :=
  let s := { new .nsSocket s with nsSocket := .set }
  if y.nsInit = false then (false, s)
  else
    let s := opened .nsSocket s
    if y.nsBind = false ∨ y.nsSend = false ∨ y.nsRecv = false ∨ y.nsStart = false then (false, s)
    else (true, { s with nsReceiving := true })

/-- hsk_ns_close (src/ns.c:224-242). -/
def nsClose (s : St) : Out Unit St :=
  (if s.nsReceiving then (touch .nsSocket s).bind fun s => .ok { s with nsReceiving := false } else .ok s).bind fun s =>
  ifSet s.nsSocket (fun s => (closeFree .nsSocket s).bind fun s => (touch .nsSocket s).bind fun s => .ok { s with nsSocket := .null }) s

/-! ### rs_worker.c -/

/-- free_async (src/rs_worker.c:525-531). -/
def freeAsync (o : Obj) (p : P) (s : St) : Out Unit St := ifSet p (fun s => (touch o s).bind fun s => closeFree o s) s

/-- hsk_rs_worker_uninit (src/rs_worker.c:352-376). -/
def workerUninit (s : St) : Out Unit St :=
  if s.pending = .set ∧ s.exit = true then .ub
  else if s.running then .ub
  else
    (freeAsync .quit s.quit s).bind fun s =>
    (freeAsync .async s.async s).bind fun s =>
    (ifSet s.pending (fun s => (free .pending s).bind fun s => .ok { s with pending := .null }) s).bind fun s =>
    ifSet s.queue (fun s => (free .queue s).bind fun s => .ok { s with queue := .null }) s

/-- hsk_rs_queue_alloc, hsk_rs_pending_alloc (src/rs_worker.c:72-84, src/rs_worker.c:168-180). -/
def allocLocked (o : Obj) (init : Bool) (s : St) : Out Unit (Bool × St) :=
  let s := new o s
  if init = false then (free o s).bind fun s => .ok (false, s) else .ok (true, s)

/-- alloc_async (src/rs_worker.c:504-523). -/
def allocAsync (o : Obj) (init : Bool) (s : St) : Out Unit (Bool × St) :=
  let s := new o s
  if init = false then (free o s).bind fun s => .ok (false, s) else .ok (true, opened o s)

/-- The failure of hsk_rs_worker_alloc (src/rs_worker.c:346-350, src/rs_worker.c:430-433). -/
def workerFail (s : St) : Out Unit (Bool × St) := (workerUninit s).bind fun s => (free .worker s).bind fun s => .ok (false, s)

/-- hsk_rs_worker_alloc, hsk_rs_worker_init (src/rs_worker.c:311-350, src/rs_worker.c:423-436). `rs_quit_async` is not
cleared at the start. -/
def workerAlloc (y : Sys) (s : St) : Out Unit (Bool × St) :=
  let s := { new .worker s with queue := .null, pending := .null, async := .null, quit := .junk, running := false, exit := false }
  (allocLocked .queue y.queueInit s).bind fun (b, s) =>
    let s := { s with queue := ptr b }
    if b = false then workerFail s
    else (allocLocked .pending y.pendingInit s).bind fun (b, s) =>
      let s := { s with pending := ptr b }
      if b = false then workerFail s
      else (allocAsync .async y.asyncInit s).bind fun (b, s) =>
        let s := { s with async := ptr b }
        if b = false then workerFail s
        else (allocAsync .quit y.quitInit s).bind fun (b, s) =>
          let s := { s with quit := ptr b }
          if b = false then workerFail s else .ok (true, s)

/-- hsk_rs_worker_open (src/rs_worker.c:378-396). -/
def workerOpen (y : Sys) (s : St) : Out Unit (Bool × St) :=
  if s.exit then .ub
  else if s.running then .ub
  else if y.thread = false then .ok (false, s)
  else .ok (true, { opened .thread s with running := true })

/-- hsk_rs_worker_close, hsk_rs_pending_exit (src/rs_worker.c:403-421, src/rs_worker.c:243-263). -/
def workerClose (s : St) : Out Unit St :=
  if s.exit then .ok s
  else if s.running = false then .ub
  else .ok { s with exit := true }

/-- hsk_rs_worker_free (src/rs_worker.c:438-444). -/
def workerFree (s : St) : Out Unit St := (workerUninit s).bind (free .worker)

/-! ### rs.c -/

/-- hsk_rs_alloc, hsk_rs_init (src/rs.c:77-134, src/rs.c:317-330). -/
def rsAlloc (y : Sys) (s : St) : Out Unit (Bool × St) :=
  let s := new .rs s
  if y.ubCreate = false then (free .rs s).bind fun s => .ok (false, s)
  else
    let s := new .ub s
    if y.ubAsync = false then (free .ub s).bind fun s => (free .rs s).bind fun s => .ok (false, s)
    else
      let s := { new .rsEc s with ub := .set, rsSocket := .null, worker := .null, rsEc := .set, config := .null, rsReceiving := false }
      if y.stub = false then (free .ub s).bind fun s => (free .rsEc s).bind fun s => (free .rs s).bind fun s => .ok (false, s)
      else .ok (true, s)

/-- hsk_rs_uninit, hsk_rs_free (src/rs.c:136-155, src/rs.c:332-339). -/
def rsFree (s : St) : Out Unit St :=
  (ifSet s.rsEc (fun s => (free .rsEc s).bind fun s => .ok { s with rsEc := .null }) s).bind fun s =>
  (ifSet s.ub (fun s => (free .ub s).bind fun s => .ok { s with ub := .null }) s).bind fun s =>
  (ifSet s.config (fun s => (free .config s).bind fun s => .ok { s with config := .null }) s).bind (free .rs)

/-- hsk_rs_set_config (src/rs.c:157-175); it fails for an empty text. -/
def rsSetConfig (y : Sys) (s : St) : Bool × St :=
  if y.rsConfig = false then (false, s) else (true, { new .config s with config := .set })

/-- hsk_rs_open (src/rs.c:251-297). -/
def rsOpen (y : Sys) (s : St) : Out Unit (Bool × St) :=
  if y.rsOptions = false then .ok (false, s)
  else
    let s := { new .rsSocket s with rsSocket := .set }
    if y.rsInit = false then .ok (false, s)
    else
      let s := opened .rsSocket s
      if y.rsBind = false ∨ y.rsSend = false ∨ y.rsRecv = false ∨ y.rsStart = false then .ok (false, s)
      else
        let s := { s with rsReceiving := true }
        (workerAlloc y s).bind fun (b, s) =>
          let s := { s with worker := ptr b }
          if b = false then .ok (false, s) else workerOpen y s

/-! ### daemon.c -/

/-- hsk_daemon_uninit (src/daemon.c:585-609). -/
def daemonUninit (s : St) : Out Unit St :=
  (ifSet s.signals (fun s => (signalsFree s).bind fun s => .ok { s with signals := .null }) s).bind fun s =>
  (ifSet s.rs (fun s => (rsFree s).bind fun s => .ok { s with rs := .null }) s).bind fun s =>
  (ifSet s.pool (fun s => (poolFree s).bind fun s => .ok { s with pool := .null }) s).bind fun s =>
  ifSet s.ns (fun s => (nsFree s).bind fun s => .ok { s with ns := .null }) s

/-- The failure of hsk_daemon_init (src/daemon.c:579-582). -/
def initFail (s : St) : Out Unit (Bool × St) := (daemonUninit s).bind fun s => .ok (false, s)

/-- hsk_daemon_init from the recursive server on (src/daemon.c:551-577). -/
def initRs (y : Sys) (o : Opt) (s : St) : Out Unit (Bool × St) :=
  (rsAlloc y s).bind fun (b, s) =>
    let s := { s with rs := ptr b }
    if b = false then initFail s
    else
      let r := if o.config then rsSetConfig y s else (true, s)
      if r.1 = false then initFail r.2
      else if o.key ∧ y.rsKey = false then initFail r.2
      else .ok (true, r.2)

/-- hsk_daemon_init after the signals (src/daemon.c:498-549). -/
def initParts (y : Sys) (o : Opt) (s : St) : Out Unit (Bool × St) :=
  (poolAlloc y s).bind fun (b, s) =>
    let s := { s with pool := ptr b }
    if b = false then initFail s
    else if o.key ∧ y.poolKey = false then initFail s
    else if y.poolSize = false then initFail s
    else if y.poolAgent = false then initFail s
    else
      let s := { nsAlloc s with ns := .set }
      if y.nsIp = false then initFail s
      else if o.key ∧ y.nsKey = false then initFail s
      else initRs y o s

/-- hsk_daemon_init (src/daemon.c:480-583). -/
def daemonInit (y : Sys) (o : Opt) (s : St) : Out Unit (Bool × St) :=
  let s := { s with signals := .null, pool := .null, ns := .null, rs := .null }
  (signalsAlloc y s).bind fun (b, s) =>
    let s := { s with signals := ptr b }
    if b = false then initFail s else initParts y o s

/-- What hsk_daemon_open does before it opens anything (src/daemon.c:615-657). -/
def prepare (y : Sys) (o : Opt) : Bool :=
  if o.checkpoint ∧ y.inject = false then false
  else if o.pre then
    if y.found = false then false
    else if y.fits = false then false
    else if y.fileRead ∧ y.fileInject = false then false
    else true
  else true

/-- hsk_daemon_open (src/daemon.c:611-677). -/
def daemonOpen (y : Sys) (o : Opt) (s : St) : Out Unit (Bool × St) :=
  if prepare y o = false then .ok (false, s)
  else
    let r := poolOpen y s
    if r.1 = false then .ok (false, r.2)
    else
      let r := nsOpen y r.2
      if r.1 = false then .ok (false, r.2) else rsOpen y r.2

/-- hsk_daemon_after_close (src/daemon.c:706-725). -/
def daemonAfterClose (s : St) : Out Unit St :=
  (ifSet s.ns nsClose s).bind fun s => (ifSet s.pool poolClose s).bind daemonUninit

/-- after_worker_stop (src/rs.c:586-617) with its callback. -/
def afterWorkerStop (s : St) : Out Unit St :=
  (ifSet s.worker (fun s => (workerFree s).bind fun s => .ok { s with worker := .null }) s).bind fun s =>
  (if s.rsReceiving then (touch .rsSocket s).bind fun s => .ok { s with rsReceiving := false } else .ok s).bind fun s =>
  (ifSet s.rsSocket (fun s => (closeFree .rsSocket s).bind fun s => (touch .rsSocket s).bind fun s => .ok { s with rsSocket := .null }) s).bind fun s =>
  (ifSet s.ub (fun s => (free .ub s).bind fun s => .ok { s with ub := .null }) s).bind daemonAfterClose

/-- hsk_rs_close (src/rs.c:299-315). -/
def rsClose (s : St) : Out Unit St :=
  (touch .rs s).bind fun s => match s.worker with
    | .junk => .ub
    | .null => afterWorkerStop s
    | .set => if s.running then workerClose s else afterWorkerStop s

/-- hsk_daemon_close (src/daemon.c:687-704), with hsk_daemon_destroyed (src/daemon.c:681-685). -/
def daemonClose (s : St) : Out Unit St := match s.signals with
  | .junk => .ub
  | .null => .ok s
  | .set => match s.rs with
    | .junk => .ub
    | .null => daemonAfterClose s
    | .set => rsClose s

/-- What the loop may do. -/
inductive Ev where
  /-- A signal arrives: signal_handler (src/signals.c:113-124) if the handle is active. -/
  | int | term
  /-- The thread, told to end, has ended: after_quit_async (src/rs_worker.c:600-618). -/
  | quit
  /-- The handles closed are finished and their memory is released (src/utils.c:234-237). -/
  | tick
  deriving DecidableEq

/-- after_quit_async (src/rs_worker.c:600-618). `hsk_rs_pending_reset` clears `exit`. -/
def afterQuit (s : St) : Out Unit St :=
  (touch .worker s).bind fun s => afterWorkerStop { s with mem := upd s.mem .thread .gone, exit := false, running := false }

/-- One step of the loop. -/
def event (e : Ev) (s : St) : Out Unit St := match e with
  | .int => if s.mem .sigint = .opened then daemonClose s else .ok s
  | .term => if s.mem .sigterm = .opened then daemonClose s else .ok s
  | .quit => if s.mem .thread = .opened ∧ s.exit then afterQuit s else .ok s
  | .tick => .ok { s with mem := fun o => if s.mem o = .closing then .gone else s.mem o }

/-- Steps of the loop. -/
def run : List Ev → St → Out Unit St
  | [], s => .ok s
  | e :: r, s => (event e s).bind (run r)

/-- Nothing is allocated, nothing is assigned. -/
def st0 : St :=
  { mem := fun _ => .none, signals := .junk, pool := .junk, ns := .junk, rs := .junk, sigint := .junk, sigterm := .junk
    poolEc := .junk, timer := .junk, agent := .junk, nsSocket := .junk, nsReceiving := false, nsEc := .junk, rsSocket := .junk
    rsReceiving := false, rsEc := .junk, ub := .junk, config := .junk, worker := .junk, queue := .junk, pending := .junk, async := .junk
    quit := .junk, running := false, exit := false }

/-- `main` up to the loop (src/daemon.c:770-781): whether it is run. -/
def boot (y : Sys) (o : Opt) : Out Unit (Bool × St) :=
  (daemonInit y o st0).bind fun (b, s) => if b = false then .ok (false, s) else daemonOpen y o s

/-- `main` (src/daemon.c:770-806), with what the loop does before it ends and then, if the parts
are still there, after they were told to close. -/
def main (y : Sys) (o : Opt) (evs after : List Ev) : Out Unit St :=
  (boot y o).bind fun (b, s) => (if b then run evs s else .ok s).bind fun s => match s.signals with
    | .junk => .ub
    | .null => .ok s
    | .set => (daemonClose s).bind (run after)

end Verif.Daemon
