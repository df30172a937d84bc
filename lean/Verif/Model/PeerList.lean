import Verif.Base
import Verif.Model.AMap
/-
Model of the peer bookkeeping of src/pool.c at the level of pointers: the singly linked
list with its head, tail and size, and the index by address (`pool->peers`). A pointer to
a peer is the number of the allocation; following a pointer to memory that is not
allocated is `ub`, as is a failed assertion. Addresses are of any type `κ`; of a peer only
the fields used here are kept. Allocation succeeds.
-/
namespace Verif.PeerList

/-- The fields `addr` and `next` of hsk_peer_t (src/pool.h:64,85), and whether
`state == HSK_STATE_DISCONNECTING`. -/
structure Node (κ : Type) where
  addr : κ
  next : Option Nat
  closing : Bool
  deriving DecidableEq

/-- The fields `head`, `tail`, `size`, `max_size` and `peers` of hsk_pool_t
(src/pool.h:99-103), with the memory holding the peers and the next allocation. -/
structure State (κ : Type) where
  heap : Nat → Option (Node κ)
  fresh : Nat
  head : Option Nat
  tail : Option Nat
  size : Nat
  max : Nat
  index : AMap κ Nat

variable {κ : Type} [DecidableEq κ]

/-- As set by hsk_pool_init (src/pool.c:167-171). -/
def init (max : Nat) : State κ :=
  { heap := fun _ => none, fresh := 0, head := none, tail := none, size := 0, max := max, index := [] }

/-- Read through a pointer. -/
def deref (s : State κ) (p : Nat) : Out Unit (Node κ) :=
  match s.heap p with
  | some n => .ok n
  | none => .ub

/-- Write to allocated memory. -/
def store (s : State κ) (p : Nat) (n : Node κ) : State κ :=
  { s with heap := fun q => if q = p then some n else s.heap q }

/-- The assignment `p->next = x`. -/
def setNext (s : State κ) (p : Nat) (x : Option Nat) : Out Unit (State κ) :=
  (deref s p).bind fun n => .ok (store s p { n with next := x })

/-- `if (pool->tail) pool->tail->next = peer` (src/pool.c:1050-1051). -/
def linkTail (s : State κ) (p : Nat) : Out Unit (State κ) :=
  match s.tail with
  | some t => setNext s t (some p)
  | none => .ok s

/-- hsk_peer_push (src/pool.c:1038-1058). -/
def push (s : State κ) (p : Nat) : Out Unit (State κ) :=
  (setNext s p none).bind fun s =>
    (linkTail { s with head := match s.head with | none => some p | some h => some h } p).bind fun s =>
      (deref s p).bind fun n =>
        if s.index.has n.addr then .ub
        else .ok { s with tail := some p, size := s.size + 1, index := s.index.set n.addr p }

/-- The search for the predecessor (src/pool.c:1084-1087): `n` bounds the rounds, running
out of it is `ub`. -/
def findPrev (s : State κ) (p : Nat) : Nat → Option Nat → Out Unit (Option Nat)
  | 0, _ => .ub
  | _ + 1, none => .ok none
  | n + 1, some q => (deref s q).bind fun x => if x.next = some p then .ok (some q) else findPrev s p n x.next

/-- The end of hsk_peer_remove in either case (src/pool.c:1075-1077, 1097-1100). -/
def unindex (s : State κ) (p : Nat) : Out Unit (State κ) :=
  if s.size > 0 then
    (deref s p).bind fun n =>
      if s.index.has n.addr then .ok { s with size := s.size - 1, index := s.index.del n.addr } else .ub
  else .ub

/-- The case of the head (src/pool.c:1070-1079). -/
def removeHead (s : State κ) (p : Nat) : Out Unit (State κ) :=
  (deref s p).bind fun n =>
    (setNext { s with tail := if s.tail = some p then none else s.tail, head := n.next } p none).bind fun s => unindex s p

/-- The other case, `prev` found (src/pool.c:1092-1100). -/
def removeAfter (s : State κ) (prev p : Nat) : Out Unit (State κ) :=
  (deref s p).bind fun n =>
    (setNext { s with tail := if s.tail = some p then some prev else s.tail } prev n.next).bind fun s => unindex s p

/-- hsk_peer_remove (src/pool.c:1060-1101). -/
def remove (s : State κ) (p : Nat) : Out Unit (State κ) :=
  match s.head with
  | none => .ok s
  | some h =>
    if h = p then removeHead s p
    else (findPrev s p (s.size + 1) (some h)).bind fun r => match r with
      | none => .ok s
      | some prev => removeAfter s prev p

/-- hsk_peer_close (src/pool.c:990-1021), which is hsk_peer_destroy, for a peer that has been
opened. -/
def destroy (s : State κ) (p : Nat) : Out Unit (State κ) :=
  (deref s p).bind fun n =>
    if n.closing then .ok s else remove (store s p { n with closing := true }) p

/-- after_close (src/pool.c:1880-1888): the memory is released. -/
def release (s : State κ) (p : Nat) : Out Unit (State κ) :=
  (deref s p).bind fun _ => .ok { s with heap := fun q => if q = p then none else s.heap q }

/-- hsk_peer_alloc and the copy of the address (src/pool.c:821-894, 915-928, 955). -/
def alloc (s : State κ) (a : κ) : State κ :=
  { s with heap := fun q => if q = s.fresh then some { addr := a, next := none, closing := false } else s.heap q
           fresh := s.fresh + 1 }

/-- hsk_pool_refill (src/pool.c:415-450): `pick` is the address hsk_addrman_pick_addr
found, and `opens` whether hsk_peer_open succeeds. That the address is not in the index is
what hsk_addrman_pick tests (src/addrmgr.c:420-421; theorem C41_pick); an index that holds
it makes the search fail. -/
def refill (s : State κ) (pick : κ) (opens : Bool) : Out Unit (State κ) :=
  if s.size < s.max then
    if s.index.has pick then .ok s
    else if opens then push (alloc s pick) s.fresh
    else destroy (alloc s pick) s.fresh
  else .ok s

/-- The loop of hsk_pool_timer over the peers (src/pool.c:744-789): the next pointer is taken
first, and the body may destroy the peer at hand (`kill`). The peers visited, in order. -/
def sweep (kill : Nat → Bool) : Nat → State κ → Option Nat → Out Unit (State κ × List Nat)
  | 0, _, _ => .ub
  | _ + 1, s, none => .ok (s, [])
  | n + 1, s, some p =>
    (deref s p).bind fun x =>
      (if kill p then destroy s p else .ok s).bind fun s' =>
        (sweep kill n s' x.next).bind fun r => .ok (r.1, p :: r.2)

/-- What can happen to the peers: a refill; the destruction of a peer, for whatever reason;
the release of a destroyed peer; and the timer, destroying any peers it visits. -/
inductive Ev (κ : Type) where
  | refill (pick : κ) (opens : Bool)
  | destroy (p : Nat)
  | release (p : Nat)
  | timer (kill : Nat → Bool)

/-- One event. libuv calls back only for peers that exist, and closes only those destroyed. -/
def step (s : State κ) : Ev κ → Out Unit (State κ)
  | .refill a b => refill s a b
  | .destroy p => match s.heap p with
    | some _ => destroy s p
    | none => .ok s
  | .release p => match s.heap p with
    | some n => if n.closing then release s p else .ok s
    | none => .ok s
  | .timer kill => (sweep kill (s.size + 1) s s.head).bind fun r => .ok r.1

def run (s : State κ) : List (Ev κ) → Out Unit (State κ)
  | [] => .ok s
  | e :: es => (step s e).bind fun s => run s es

end Verif.PeerList
