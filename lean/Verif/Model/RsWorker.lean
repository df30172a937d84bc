import Verif.Base
/-
Model of rs_worker.c: the thread that waits for the resolver library and hands its answers
back to the event loop. Two threads interleave; a section under a mutex is one step, together
with the code after it that touches nothing shared. Logging is left out.

The resolver library is a set of requests it has taken and not answered yet; it may take or
refuse a request, answer any it has taken, on the worker's thread inside `ub_wait`, and return
from `ub_wait` at any time. An async handle is a flag: sends before the event loop looks are
coalesced.
-/
namespace Verif.RsWorker

/-- `hsk_rs_rsp_t` (src/rs_worker.h:76-90) but for the pointer to the worker, the id for the log
and the callback, which is the same for all here. -/
structure Rsp where
  prev : Option Nat
  next : Option Nat
  data : Nat
  status : Int
  result : Option Nat
  deriving DecidableEq, Repr

/-- Memory of the responses: what is not allocated is `none`. -/
abbrev Heap := Nat → Option Rsp

def upd (h : Heap) (a : Nat) (n : Option Rsp) : Heap := fun x => if x = a then n else h x

/-- Head and tail of a list of responses (src/rs_worker.h:24-28, :39-49). -/
structure Q where
  head : Option Nat
  tail : Option Nat
  deriving DecidableEq, Repr

/-! ### The lists -/

/-- Appends: the body of `hsk_rs_queue_enqueue` and of `hsk_rs_pending_enqueue`, which are the
same (src/rs_worker.c:120-138, :191-208). -/
def enqueue (h : Heap) (q : Q) (a : Nat) : Out Unit (Heap × Q) :=
  match q.tail with
  | none => if q.head.isSome then .ub else .ok (h, ⟨some a, some a⟩)
  | some t =>
    match h t with
    | none => .ub
    | some nt =>
      let h1 := upd h t (some { nt with next := some a })
      match h1 a with
      | none => .ub
      | some na => .ok (upd h1 a (some { na with prev := some t }), ⟨q.head, some a⟩)

/-- `hsk_rs_queue_dequeue` (src/rs_worker.c:97-117). -/
def dequeue (h : Heap) (q : Q) : Out Unit (Option Nat × Heap × Q) :=
  match q.head with
  | none => .ok (none, h, q)
  | some a =>
    match h a with
    | none => .ub
    | some na =>
      let h1 := upd h a (some { na with next := none })
      match na.next with
      | none => if q.tail = some a then .ok (some a, h1, ⟨none, none⟩) else .ub
      | some b =>
        match h1 b with
        | none => .ub
        | some nb => .ok (some a, upd h1 b (some { nb with prev := none }), ⟨some b, q.tail⟩)

/-- The link to the response removed, `na`, from the one before it (src/rs_worker.c:220-226). -/
def unlinkPrev (h : Heap) (q : Q) (a : Nat) (na : Rsp) : Out Unit (Heap × Q) :=
  match na.prev with
  | some p =>
    match h p with
    | none => .ub
    | some np => .ok (upd h p (some { np with next := na.next }), q)
  | none => if q.head = some a then .ok (h, { q with head := na.next }) else .ub

/-- The link from the one after it (src/rs_worker.c:228-234). -/
def unlinkNext (h : Heap) (q : Q) (a : Nat) (na : Rsp) : Out Unit (Heap × Q) :=
  match na.next with
  | some x =>
    match h x with
    | none => .ub
    | some nx => .ok (upd h x (some { nx with prev := na.prev }), q)
  | none => if q.tail = some a then .ok (h, { q with tail := na.prev }) else .ub

/-- `hsk_rs_pending_remove` (src/rs_worker.c:211-240). -/
def remove (h : Heap) (q : Q) (a : Nat) : Out Unit (Heap × Q) :=
  if q.head.isNone ∨ q.tail.isNone then .ub else
  match h a with
  | none => .ub
  | some na =>
    (unlinkPrev h q a na).bind fun x1 =>
    (unlinkNext x1.1 x1.2 a na).bind fun x2 =>
    match x2.1 a with
    | none => .ub
    | some n2 => .ok (upd x2.1 a (some { n2 with prev := none, next := none }), x2.2)

/-! ### The threads -/

/-- Where the worker's thread is (src/rs_worker.c:533-575). -/
inductive WPc where
  | none                -- not running, or joined
  | check               -- about to look at the pending requests, in `hsk_rs_pending_wait`
  | asleep              -- in `uv_cond_wait`
  | waiting             -- in `ub_wait`
  | rm (a : Nat)        -- in `after_resolve_onthread`, about to remove `a` from the pending requests
  | enq (a : Nat)       -- about to enqueue the response
  | send                -- about to signal the event loop
  | quit                -- about to signal that it quits
  | leaving             -- has signalled it, about to end
  | done                -- ended, not joined
  deriving DecidableEq, Repr

/-- Where the thread of the event loop is. -/
inductive MPc where
  | idle
  | enq (a : Nat)       -- in `hsk_rs_worker_resolve`: about to enqueue the request
  | submit (a : Nat)    -- about to call `ub_resolve_async`
  | fail (a : Nat)      -- the library refused, about to remove the request
  | ret (a : Nat)       -- the library took it, about to return
  | exit                -- in `hsk_rs_worker_close`: about to set the flag
  | deq                 -- in `after_resolve_async`: about to dequeue
  | call (a : Nat)      -- about to call back
  | join                -- in `after_quit_async`: about to join
  | reset               -- about to reset
  | drain (c : Option Nat) -- in `hsk_rs_queue_uninit`: the response it is at
  deriving DecidableEq, Repr

/-- What the user of the worker, and the library, see. -/
inductive Ev where
  | sent (d : Nat)                                   -- the library took a request
  | refused (d : Nat)                                -- it refused one
  | ret (d : Nat) (ok : Bool)                        -- `hsk_rs_worker_resolve` returned
  | answer (d : Nat) (s : Int) (r : Option Nat)      -- the library answered
  | call (d : Nat) (s : Int) (r : Option Nat)        -- the callback was called
  | opened (ok : Bool)                               -- `hsk_rs_worker_open` returned
  | stopped                                          -- the stop callback was called
  | freed                                            -- the worker was released
  deriving DecidableEq, Repr

/-- `hsk_rs_worker_t` (src/rs_worker.h:53-72), with the lists it points to, the threads, the
library and the log. -/
structure St where
  heap : Heap
  fresh : Nat
  pending : Q
  exit : Bool
  queue : Q
  rsSig : Bool
  quitSig : Bool
  ub : Bool
  alive : Bool
  w : WPc
  m : MPc
  out : List Nat
  log : List Ev

/-- A worker just allocated (src/rs_worker.c:311-346 where nothing fails). -/
def start : St :=
  { heap := fun _ => Option.none, fresh := 0, pending := ⟨none, none⟩, exit := false, queue := ⟨none, none⟩,
    rsSig := false, quitSig := false, ub := false, alive := true, w := .none, m := .idle, out := [], log := [] }

def say (s : St) (e : Ev) : St := { s with log := s.log ++ [e] }

/-- `uv_cond_signal` on the condition of the pending requests: the worker, if asleep, wakes. -/
def signal (s : St) : St := if s.w = .asleep then { s with w := .check } else s

/-- What the user of the worker may do while the event loop is idle. -/
inductive Host where
  | resolve (d : Nat)    -- `hsk_rs_worker_resolve` with `cb_data` `d`
  | opn (ok : Bool)      -- `hsk_rs_worker_open`; whether the thread can be created
  | close                -- `hsk_rs_worker_close`
  | free                 -- `hsk_rs_worker_free`
  deriving DecidableEq, Repr

/-- The calls, up to their first section under a mutex and what follows it. Calls on a released
worker are undefined. -/
def hostStep (s : St) (c : Host) : Out Unit St :=
  if s.alive = false then .ub else
  match c with
  | .resolve d =>
    -- src/rs_worker.c:446-465
    if s.exit || !s.ub then .ok (say s (.ret d false))
    else .ok { s with heap := upd s.heap s.fresh (some ⟨none, none, d, 0, none⟩), fresh := s.fresh + 1, m := .enq s.fresh }
  | .opn ok =>
    -- src/rs_worker.c:378-396
    if s.exit || s.ub then .ub
    else if ok then .ok (say { s with ub := true, w := .check } (.opened true))
    else .ok (say s (.opened false))
  | .close =>
    -- src/rs_worker.c:403-420
    if s.exit then .ok s
    else if s.ub then .ok { s with m := .exit }
    else .ub
  | .free =>
    -- src/rs_worker.c:352-376 and :158-166: the asserts, the asyncs, the pending requests
    if s.exit || s.ub then .ub
    else if s.pending.head.isSome then .ub
    else .ok { s with alive := false, m := .drain s.queue.head }

/-- The event loop's thread goes on with what it is doing; `b` is whether the library takes the
request. -/
def mainStep (s : St) (b : Bool) : Out Unit St :=
  match s.m with
  | .idle => .ok s
  | .enq a =>
    -- src/rs_worker.c:191-208
    (enqueue s.heap s.pending a).bind fun x => .ok (signal { s with heap := x.1, pending := x.2, m := .submit a })
  | .submit a =>
    -- src/rs_worker.c:471-473
    match s.heap a with
    | none => .ub
    | some n =>
      if b then .ok (say { s with out := a :: s.out, m := .ret a } (.sent n.data))
      else .ok (say { s with m := .fail a } (.refused n.data))
  | .fail a =>
    -- src/rs_worker.c:473-478: the response is not freed
    match s.heap a with
    | none => .ub
    | some n => (remove s.heap s.pending a).bind fun x =>
        .ok (say { s with heap := x.1, pending := x.2, m := .idle } (.ret n.data false))
  | .ret a =>
    -- src/rs_worker.c:479-481
    match s.heap a with
    | none => .ub
    | some n => .ok (say { s with m := .idle } (.ret n.data true))
  | .exit =>
    -- src/rs_worker.c:243-263
    .ok (signal { s with exit := true, m := .idle })
  | .deq =>
    -- src/rs_worker.c:588-596
    (dequeue s.heap s.queue).bind fun x =>
      match x.1 with
      | none => .ok { s with heap := x.2.1, queue := x.2.2, m := .idle }
      | some a => .ok { s with heap := x.2.1, queue := x.2.2, m := .call a }
  | .call a =>
    -- src/rs_worker.c:589-594
    match s.heap a with
    | none => .ub
    | some n => .ok (say { s with heap := upd s.heap a none, m := .deq } (.call n.data n.status n.result))
  | .join =>
    -- src/rs_worker.c:608: blocks until the thread has ended
    if s.w = .done then .ok { s with w := .none, m := .reset } else .ok s
  | .reset =>
    -- src/rs_worker.c:276-288, :610-617
    if s.pending.head.isSome || s.pending.tail.isSome then .ub
    else .ok (say { s with exit := false, ub := false, m := .idle } .stopped)
  | .drain none => .ok (say { s with queue := ⟨none, none⟩, m := .idle } .freed)
  | .drain (some a) =>
    -- src/rs_worker.c:55-67
    match s.heap a with
    | none => .ub
    | some n => .ok (say { s with heap := upd s.heap a none, m := .drain n.next } (.call n.data n.status n.result))

/-- The worker's thread goes on. It reads the worker, which must not have been released. -/
def workerStep (s : St) : Out Unit St :=
  match s.w with
  | .none => .ok s
  | .done => .ok s
  | .asleep => .ok s
  | .leaving => .ok { s with w := .done }
  | .check =>
    -- src/rs_worker.c:291-308, :542-546
    if s.alive = false then .ub
    else if s.pending.head.isSome then (if s.ub then .ok { s with w := .waiting } else .ub)
    else if s.exit then .ok { s with w := .quit }
    else .ok { s with w := .asleep }
  | .waiting => .ok { s with w := .check }
  | .rm a =>
    -- src/rs_worker.c:563
    if s.alive = false then .ub
    else (remove s.heap s.pending a).bind fun x => .ok { s with heap := x.1, pending := x.2, w := .enq a }
  | .enq a =>
    -- src/rs_worker.c:569
    if s.alive = false then .ub
    else (enqueue s.heap s.queue a).bind fun x => .ok { s with heap := x.1, queue := x.2, w := .send }
  | .send =>
    -- src/rs_worker.c:574
    if s.alive = false then .ub else .ok { s with rsSig := true, w := .waiting }
  | .quit =>
    -- src/rs_worker.c:549
    if s.alive = false then .ub else .ok { s with quitSig := true, w := .leaving }

/-- What may happen next. -/
inductive Choice where
  | host (c : Host)                                     -- a call, if the event loop is idle
  | main (b : Bool)                                     -- the event loop's thread goes on
  | dispatch                                            -- the event loop sees the signal of an answer
  | dispatchQuit                                        -- it sees the signal that the worker quits
  | worker                                              -- the worker's thread goes on, or `ub_wait` returns
  | wake                                                -- `uv_cond_wait` returns without a signal
  | answer (a : Nat) (st : Int) (r : Option Nat)        -- the library answers a request in `ub_wait`
  deriving DecidableEq, Repr

/-- One step; what cannot happen changes nothing. -/
def step (s : St) (c : Choice) : Out Unit St :=
  match c with
  | .host c => if s.m = .idle then hostStep s c else .ok s
  | .main b => mainStep s b
  | .dispatch =>
    -- src/rs_worker.c:577-584: a handle already closed has no worker any more
    if s.m = .idle ∧ s.rsSig = true then
      if s.alive then .ok { s with rsSig := false, m := .deq } else .ok { s with rsSig := false }
    else .ok s
  | .dispatchQuit =>
    -- src/rs_worker.c:600-606
    if s.m = .idle ∧ s.quitSig = true then
      if s.alive then .ok { s with quitSig := false, m := .join } else .ub
    else .ok s
  | .worker => workerStep s
  | .wake => if s.w = .asleep then .ok { s with w := .check } else .ok s
  | .answer a st r =>
    -- src/rs_worker.c:554-560
    if s.w = .waiting ∧ a ∈ s.out then
      match s.heap a with
      | none => .ub
      | some n => .ok (say { s with heap := upd s.heap a (some { n with status := st, result := r }),
                                    out := s.out.erase a, w := .rm a } (.answer n.data st r))
    else .ok s

def run (s : St) : List Choice → Out Unit St
  | [] => .ok s
  | c :: r => (step s c).bind fun s1 => run s1 r

/-! ### Allocation -/

/-- A pointer in memory from `malloc`: unset, null, or to an object. -/
inductive Ptr where
  | unset
  | null
  | obj
  deriving DecidableEq, Repr

/-- `free_async` (src/rs_worker.c:525-531). -/
def freeAsync : Ptr → Out Unit Unit
  | .unset => .ub
  | _ => .ok ()

/-- `hsk_rs_worker_init` (src/rs_worker.c:311-350): which of its four allocations succeed; the
result is whether it succeeds. `rs_quit_async` is not set before it is allocated. -/
def initWorker (queue pending async quitAsync : Bool) : Out Unit Bool :=
  -- src/rs_worker.c:352-376, reached with what has been set so far
  let uninit (async quitAsync : Ptr) : Out Unit Bool :=
    (freeAsync quitAsync).bind fun _ => (freeAsync async).bind fun _ => .ok false
  if !queue then uninit .null .unset
  else if !pending then uninit .null .unset
  else if !async then uninit .null .unset
  else if !quitAsync then uninit .obj .null
  else .ok true

end Verif.RsWorker
