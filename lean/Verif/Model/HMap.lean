import Verif.Model.Mem
/-
Model of the hash table in src/map.c, src/map.h: buckets with flags, triangular probing, deleted
buckets that are reused, and rehashing in place. An array is a function with a length; access
beyond the length, and use of a bucket that was never written, is `ub`, and so is a loop that does
not end. The hash and the equality of keys are parameters.
-/
namespace Verif.HMap

/-- The two bits of a bucket (src/map.h:58-64): 2 is empty, 1 deleted, 0 in use. They are packed
sixteen to a word in the code; the packing is left out. -/
inductive Flag
  | empty
  | del
  | live
  deriving DecidableEq, Repr

/-- hash_func and equal_func (src/map.h:38-39). -/
structure Fns (κ : Type) where
  h : κ → UInt32
  eq : κ → κ → Bool

/-- hsk_map_t (src/map.h:42-54). `is_map` is true. -/
structure Table (κ ν : Type) where
  n : Nat
  size : Nat
  occ : Nat
  upper : Nat
  flags : Nat → Flag
  keys : Nat → Option κ
  vals : Nat → Option ν

/-- Writing one element of an array. -/
def upd {α : Type} (f : Nat → α) (i : Nat) (x : α) : Nat → α := fun j => if j = i then x else f j

/-- hsk_map_init (src/map.c:40-53): all fields are zero. -/
def init {κ ν : Type} : Table κ ν := ⟨0, 0, 0, 0, fun _ => .empty, fun _ => none, fun _ => none⟩

/-- The next bucket: `(i + (++step)) & mask` in 32 bits (src/map.c:248, 332, 431). -/
def next (mask i step : Nat) : Nat := (i + step) % 4294967296 &&& mask

/-- `(uint32_t)(n * 0.77 + 0.5)` (src/map.h:77, src/map.c:271, 379). For powers of two up to 2^31 the
value is never closer than 1/100 to an integer, so the rounding of the doubles does not show. -/
def upperOf (n : Nat) : Nat := (77 * n + 50) / 100

/-- __hsk_roundup32 (src/map.h:66-75). -/
def roundup (x : Nat) : Nat :=
  let x := (x + 4294967295) % 4294967296
  let x := x ||| x >>> 1
  let x := x ||| x >>> 2
  let x := x ||| x >>> 4
  let x := x ||| x >>> 8
  let x := x ||| x >>> 16
  (x + 1) % 4294967296

section
variable {κ ν : Type} (F : Fns κ)

/-- The loop of hsk_map_lookup (src/map.c:245-254): the bucket, or `n` if there is none. -/
def lookupLoop (m : Table κ ν) (key : κ) (last : Nat) : Nat → Nat → Nat → Out Unit Nat
  | 0, _, _ => .ub
  | fuel + 1, i, step =>
    let go := if next (m.n - 1) i (step + 1) = last then .ok m.n else lookupLoop m key last fuel (next (m.n - 1) i (step + 1)) (step + 1)
    if i ≥ m.n then .ub
    else match m.flags i with
      | .empty => .ok m.n
      | .del => go
      | .live =>
        match m.keys i with
        | none => .ub
        | some k => if F.eq k key then .ok i else go

/-- hsk_map_lookup (src/map.c:234-255). -/
def lookup (m : Table κ ν) (key : κ) : Out Unit Nat :=
  if m.n = 0 then .ok 0
  else lookupLoop F m key ((F.h key).toNat &&& (m.n - 1)) (2 * m.n) ((F.h key).toNat &&& (m.n - 1)) 0

/-- The bucket in the new flags for a key (src/map.c:327-332). -/
def place (newFlags : Nat → Flag) (new : Nat) : Nat → Nat → Nat → Out Unit Nat
  | 0, _, _ => .ub
  | fuel + 1, i, step =>
    if i ≥ new then .ub
    else if newFlags i = .empty then .ok i
    else place newFlags new fuel (next (new - 1) i (step + 1)) (step + 1)

/-- What changes while rehashing. -/
structure Re (κ ν : Type) where
  flags : Nat → Flag
  newFlags : Nat → Flag
  keys : Nat → Option κ
  vals : Nat → Option ν

/-- The kick-out process (src/map.c:326-359). -/
def kick (n new : Nat) : Nat → Re κ ν → κ × ν → Out Unit (Re κ ν)
  | 0, _, _ => .ub
  | fuel + 1, s, e =>
    (place s.newFlags new (2 * new) ((F.h e.1).toNat &&& (new - 1)) 0).bind fun i =>
      let s' : Re κ ν := ⟨s.flags, upd s.newFlags i .live, upd s.keys i (some e.1), upd s.vals i (some e.2)⟩
      if i < n ∧ s.flags i = .live then
        match s.keys i, s.vals i with
        | some k, some v => kick n new fuel { s' with flags := upd s.flags i .del } (k, v)
        | _, _ => .ub
      else .ok s'

/-- The loop over the old buckets (src/map.c:314-361), the last `left` of them. -/
def rehash (n new : Nat) : Nat → Re κ ν → Out Unit (Re κ ν)
  | 0, s => .ok s
  | left + 1, s =>
    let j := n - (left + 1)
    if s.flags j = .live then
      match s.keys j, s.vals j with
      | some k, some v => (kick F n new (n + 1) { s with flags := upd s.flags j .del } (k, v)).bind fun s => rehash n new left s
      | _, _ => .ub
    else rehash n new left s

/-- hsk_map_resize (src/map.c:257-383). `mem` is whether there is memory; without it, the table is
as before. The table
never shrinks in a call from hsk_map_put, so the reallocation for that (363-372) is left out. -/
def resize (m : Table κ ν) (want : Nat) (mem : Bool) : Out Unit (Option (Table κ ν)) :=
  let new := if roundup want < 4 then 4 else roundup want
  if m.size ≥ upperOf new then .ok (some m)
  else if !mem then .ok none
  else (rehash F m.n new m.n ⟨m.flags, fun _ => .empty, m.keys, m.vals⟩).bind fun s =>
    .ok (some ⟨new, m.size, m.size, upperOf new, s.newFlags, s.keys, s.vals⟩)

/-- The growth in hsk_map_put (src/map.c:390-404). -/
def grow (m : Table κ ν) (mem : Bool) : Out Unit (Option (Table κ ν)) :=
  if m.occ ≥ m.upper then
    if m.n > m.size * 2 then resize F m (m.n - 1) mem else resize F m (m.n + 1) mem
  else .ok (some m)

/-- The loop of hsk_map_put (src/map.c:425-444), and what follows it: the bucket to use. -/
def putLoop (m : Table κ ν) (key : κ) (last : Nat) : Nat → Nat → Nat → Nat → Out Unit Nat
  | 0, _, _, _ => .ub
  | fuel + 1, i, step, site =>
    let go (site : Nat) :=
      if next (m.n - 1) i (step + 1) = last then .ok (if site = m.n then last else site)
      else putLoop m key last fuel (next (m.n - 1) i (step + 1)) (step + 1) site
    if i ≥ m.n then .ub
    else match m.flags i with
      | .empty => .ok (if site = m.n then i else site)
      | .del => go i
      | .live =>
        match m.keys i with
        | none => .ub
        | some k => if F.eq k key then .ok i else go site

/-- The bucket for a key (src/map.c:410-445). -/
def site (m : Table κ ν) (key : κ) : Out Unit Nat :=
  putLoop F m key ((F.h key).toNat &&& (m.n - 1)) (2 * m.n) ((F.h key).toNat &&& (m.n - 1)) 0 m.n

/-- Taking a bucket (src/map.c:448-468), and hsk_map_set's value (src/map.c:508). -/
def store (m : Table κ ν) (x : Nat) (key : κ) (v : ν) : Out Unit (Table κ ν) :=
  if x ≥ m.n then .ub
  else match m.flags x with
    | .empty => .ok { m with keys := upd m.keys x (some key), vals := upd m.vals x (some v), flags := upd m.flags x .live, size := m.size + 1, occ := m.occ + 1 }
    | .del => .ok { m with keys := upd m.keys x (some key), vals := upd m.vals x (some v), flags := upd m.flags x .live, size := m.size + 1 }
    | .live => .ok { m with keys := upd m.keys x (some key), vals := upd m.vals x (some v) }

/-- hsk_map_set with hsk_map_put (src/map.c:385-471, 500-511). -/
def set (m : Table κ ν) (key : κ) (v : ν) (mem : Bool) : Out Unit (Bool × Table κ ν) :=
  (grow F m mem).bind fun g =>
    match g with
    | none => .ok (false, m)
    | some m => (site F m key).bind fun x => (store m x key v).bind fun m => .ok (true, m)

/-- hsk_map_get (src/map.c:513-524); `none` is null. -/
def get (m : Table κ ν) (key : κ) : Out Unit (Option ν) :=
  (lookup F m key).bind fun k =>
    if k = m.n then .ok none
    else if k > m.n then .ub
    else if m.flags k = .live then
      match m.vals k with
      | none => .ub
      | some v => .ok (some v)
    else .ok none

/-- hsk_map_has (src/map.c:526-537). -/
def has (m : Table κ ν) (key : κ) : Out Unit Bool :=
  (lookup F m key).bind fun k => if k = m.n then .ok false else if k > m.n then .ub else .ok (decide (m.flags k = .live))

/-- hsk_map_del and hsk_map_delete (src/map.c:473-479, 539-552). -/
def del (m : Table κ ν) (key : κ) : Out Unit (Bool × Table κ ν) :=
  (lookup F m key).bind fun k =>
    if k = m.n then .ok (false, m)
    else if k > m.n then .ub
    else if m.flags k = .live then .ok (true, { m with flags := upd m.flags k .del, size := m.size - 1 })
    else .ok (false, m)

/-- The values in the order of the buckets, as a loop over the table meets them
(src/map.c:486-494, src/map.h:79-83, src/pool.c:632-638). -/
def values (m : Table κ ν) : Out Unit (List ν) :=
  let idx := (List.range m.n).filter fun i => m.flags i = .live
  if idx.all fun i => (m.vals i).isSome then .ok (idx.filterMap m.vals) else .ub

/-- hsk_map_clear and hsk_map_reset (src/map.c:223-232, 481-498): what is freed, and the table. -/
def clear (m : Table κ ν) : Out Unit (List ν × Table κ ν) :=
  (values m).bind fun l => .ok (l, if m.n = 0 then m else { m with flags := fun _ => .empty, size := 0, occ := 0 })

end

/-- Calls; for insertion, whether there is memory. -/
inductive Op (κ ν : Type)
  | set (k : κ) (v : ν) (mem : Bool)
  | get (k : κ)
  | has (k : κ)
  | del (k : κ)
  | size
  | values
  | clear

/-- What a call returns. -/
inductive Ret (ν : Type)
  | done (b : Bool)
  | found (v : Option ν)
  | num (n : Nat)
  | list (l : List ν)
  deriving DecidableEq

/-- One call (src/map.c:385-552); the field `size` is read directly. -/
def step {κ ν : Type} (F : Fns κ) (m : Table κ ν) : Op κ ν → Out Unit (Ret ν × Table κ ν)
  | .set k v mem => (set F m k v mem).bind fun x => .ok (.done x.1, x.2)
  | .get k => (get F m k).bind fun x => .ok (.found x, m)
  | .has k => (has F m k).bind fun x => .ok (.done x, m)
  | .del k => (del F m k).bind fun x => .ok (.done x.1, x.2)
  | .size => .ok (.num m.size, m)
  | .values => (values m).bind fun l => .ok (.list l, m)
  | .clear => (clear m).bind fun x => .ok (.list x.1, x.2)

/-- A history of calls to src/map.c:385-552. -/
def run {κ ν : Type} (F : Fns κ) : Table κ ν → List (Op κ ν) → Out Unit (List (Ret ν) × Table κ ν)
  | m, [] => .ok ([], m)
  | m, o :: os => (step F m o).bind fun x => (run F x.2 os).bind fun y => .ok (x.1 :: y.1, y.2)

end Verif.HMap
