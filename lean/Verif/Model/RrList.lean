import Verif.Base
/-
Model of the lists of records and of texts of src/dns.c: an array of 255 pointers and a size. `α` are the
pointers that are not NULL. The routines for texts (src/dns.c:1929-2059) are those for records, word for word.
-/
namespace Verif.RrList

/-- hsk_dns_rrs_t (src/dns.h:19-22), hsk_dns_txts_t (src/dns.h:49-52). -/
structure Rrs (α : Type) where
  items : List (Option α)
  size : Nat
  deriving DecidableEq, Repr

variable {α : Type}

/-- `items[i]`. -/
def load (s : Rrs α) (i : Nat) : Out Unit (Option α) := if i < 255 then .ok (s.items.getD i none) else .ub

/-- `items[i] = p`. -/
def store (s : Rrs α) (i : Nat) (p : Option α) : Out Unit (Rrs α) := if i < 255 then .ok { s with items := s.items.set i p } else .ub

/-- `assert(items[i])`. -/
def present (s : Rrs α) (i : Nat) : Out Unit α :=
  (load s i).bind fun p => match p with
    | some a => .ok a
    | none => .ub

/-- hsk_dns_rrs_init (src/dns.c:458-462). -/
def init : Rrs α := ⟨List.replicate 255 none, 0⟩

/-- The loop of hsk_dns_rrs_uninit (src/dns.c:468-473) from `i` on, `n` times; the pointers freed. -/
def freeLoop : Nat → Nat → Rrs α → Out Unit (Rrs α × List α)
  | 0, _, s => .ok (s, [])
  | n + 1, i, s => (present s i).bind fun a => (store s i none).bind fun s => (freeLoop n (i + 1) s).bind fun r => .ok (r.1, a :: r.2)

/-- hsk_dns_rrs_uninit (src/dns.c:464-476). -/
def uninit (s : Rrs α) : Out Unit (Rrs α × List α) := (freeLoop s.size 0 s).bind fun r => .ok ({ r.1 with size := 0 }, r.2)

/-- The loop of hsk_dns_rrs_unshift (src/dns.c:500-504) from `i` on, `n` times; `i` after it. -/
def unshiftLoop : Nat → Nat → Rrs α → Out Unit (Rrs α × Nat)
  | 0, i, s => .ok (s, i)
  | n + 1, i, s => (present s (i - 1)).bind fun a => (store s i (some a)).bind fun s => unshiftLoop n (i + 1) s

/-- hsk_dns_rrs_unshift (src/dns.c:493-510). -/
def unshift (s : Rrs α) (x : α) : Out Unit (Rrs α × Nat) :=
  if s.size = 255 then .ok (s, 0)
  else if ¬s.size < 255 then .ub
  else (unshiftLoop s.size 1 s).bind fun r => (store r.1 r.2 (some x)).bind fun s => .ok ({ s with size := s.size + 1 }, s.size + 1)

/-- The loop of hsk_dns_rrs_shift (src/dns.c:519-523) from `i` on, `n` times. -/
def shiftLoop : Nat → Nat → Rrs α → Out Unit (Rrs α)
  | 0, _, s => .ok s
  | n + 1, i, s => (present s i).bind fun _ => (load s (i + 1)).bind fun p => (store s i p).bind fun s => shiftLoop n (i + 1) s

/-- hsk_dns_rrs_shift (src/dns.c:512-530). -/
def shift (s : Rrs α) : Out Unit (Rrs α × Option α) :=
  if s.size = 0 then .ok (s, none)
  else (load s 0).bind fun rr => (shiftLoop (s.size - 1) 0 s).bind fun s => (store s (s.size - 1) none).bind fun s =>
    .ok ({ s with size := s.size - 1 }, rr)

/-- hsk_dns_rrs_push (src/dns.c:532-544). -/
def push (s : Rrs α) (x : α) : Out Unit (Rrs α × Nat) :=
  if s.size = 255 then .ok (s, 0)
  else if ¬s.size < 255 then .ub
  else (load s s.size).bind fun p => if p.isSome then .ub
    else (store s s.size (some x)).bind fun s => .ok ({ s with size := s.size + 1 }, s.size + 1)

/-- hsk_dns_rrs_pop (src/dns.c:546-559). -/
def pop (s : Rrs α) : Out Unit (Rrs α × Option α) :=
  if s.size = 0 then .ok (s, none)
  else (present s (s.size - 1)).bind fun rr => (store s (s.size - 1) none).bind fun s => .ok ({ s with size := s.size - 1 }, some rr)

/-- The index of hsk_dns_rrs_get and hsk_dns_rrs_set (src/dns.c:565-568, 578-581) as it is compared: the
size is a `size_t`, so the index becomes one, also if it is still negative. -/
def place (index : Int) (size : Nat) : Nat :=
  let index := if index < 0 then index + size else index
  (index % 2 ^ 64).toNat

/-- hsk_dns_rrs_get (src/dns.c:561-572). -/
def get (s : Rrs α) (index : Int) : Out Unit (Option α) :=
  let i := place index s.size
  if i ≥ s.size then .ok none else load s i

/-- hsk_dns_rrs_set (src/dns.c:574-586): the size, or 0. -/
def set (s : Rrs α) (index : Int) (x : α) : Out Unit (Rrs α × Nat) :=
  let i := place index s.size
  if i ≥ s.size then .ok (s, 0) else (store s i (some x)).bind fun s => .ok (s, s.size)

/-- The loops of src/rs.c:463-471, which take the records out of a section and free them; the pointers freed. -/
def drain : Nat → Rrs α → Out Unit (Rrs α × List α)
  | 0, _ => .ub
  | fuel + 1, s =>
    if s.size > 0 then (pop s).bind fun r => match r.2 with
      | none => .ub
      | some a => (drain fuel r.1).bind fun t => .ok (t.1, a :: t.2)
    else .ok (s, [])

/-- The calls a program can make. -/
inductive Op (α : Type)
  | push (x : α) | pop | shift | get (i : Int) | set (i : Int) (x : α) | uninit | drain

/-- What a call gives. -/
inductive Res (α : Type)
  | num (n : Nat) | ptr (p : Option α) | freed (l : List α)
  deriving DecidableEq, Repr

def call (s : Rrs α) : Op α → Out Unit (Rrs α × Res α)
  | .push x => (push s x).bind fun r => .ok (r.1, .num r.2)
  | .pop => (pop s).bind fun r => .ok (r.1, .ptr r.2)
  | .shift => (shift s).bind fun r => .ok (r.1, .ptr r.2)
  | .get i => (get s i).bind fun r => .ok (s, .ptr r)
  | .set i x => (set s i x).bind fun r => .ok (r.1, .num r.2)
  | .uninit => (uninit s).bind fun r => .ok (r.1, .freed r.2)
  | .drain => (drain 256 s).bind fun r => .ok (r.1, .freed r.2)

/-- Calls one after another. -/
def calls : List (Op α) → Rrs α → Out Unit (Rrs α × List (Res α))
  | [], s => .ok (s, [])
  | o :: l, s => (call s o).bind fun r => (calls l r.1).bind fun t => .ok (t.1, r.2 :: t.2)

end Verif.RrList
