import Verif.Base
import Verif.Model.AMap
/-
Model of src/timedata.c. `κ` is the type of peer addresses up to hsk_addr_equal;
the `known` hash table is a finite map (C33). `hsk_now` is a parameter of each call.
An int64 operation whose result does not fit is undefined.
The bytes of `samples` beyond `sample_len` are not state.
-/
namespace Verif.Timedata

/-- Result of a signed 64-bit operation. -/
def i64 (i : Int) : Out Unit Int := if -2 ^ 63 ≤ i ∧ i < 2 ^ 63 then .ok i else .ub

/-- hsk_timedata_t (src/timedata.h:13-19). -/
structure State (κ : Type) where
  samples : List Int
  known : AMap κ Unit
  offset : Int
  checked : Bool
  deriving DecidableEq

/-- hsk_timedata_init (src/timedata.c:16-28). -/
def init (κ : Type) : State κ := { samples := [], known := [], offset := 0, checked := false }

/-- The binary search of hsk_timedata_insert (src/timedata.c:66-84): `start` and
`stop = end + 1`; the result is the insertion index. Out of fuel is `ub`. -/
def search (samples : List Int) (sample : Int) : Nat → Nat → Nat → Out Unit Nat
  | 0, _, _ => .ub
  | fuel + 1, start, stop =>
    if start < stop then
      let pos := (start + (stop - 1)) / 2
      match samples[pos]? with
      | none => .ub
      | some x =>
        (i64 (x - sample)).bind fun cmp =>
          if cmp = 0 then .ok pos
          else if cmp < 0 then search samples sample fuel (pos + 1) stop
          else search samples sample fuel start pos
    else .ok start

/-- hsk_timedata_insert (src/timedata.c:64-96): the shift loop and store as a list
insertion. -/
def insert (samples : List Int) (sample : Int) : Out Unit (List Int) :=
  (search samples sample (samples.length + 1) 0 samples.length).bind fun i =>
    if samples.length + 1 ≤ 200 then .ok (samples.take i ++ sample :: samples.drop i) else .ub

/-- src/timedata.c:123-124: absolute value, with the overflow of `-INT64_MIN`. -/
def absI64 (i : Int) : Out Unit Int := if i < 0 then i64 (-i) else .ok i

/-- src/timedata.c:128-142: is some nonzero sample within five minutes? -/
def anyClose : List Int → Out Unit Bool
  | [] => .ok false
  | x :: r => (absI64 x).bind fun o => if o ≠ 0 ∧ o < 300 then .ok true else anyClose r

/-- src/timedata.c:126-149, for a median already made non-negative. -/
def judge {κ : Type} (s : State κ) (median : Int) : Out Unit (State κ) :=
  if median ≥ 4200 then
    if s.checked then .ok { s with offset := 0 }
    else (anyClose s.samples).bind fun m => .ok { s with offset := 0, checked := !m }
  else .ok { s with offset := median }

/-- src/timedata.c:120-157: recompute the offset. -/
def update {κ : Type} (s : State κ) : Out Unit (State κ) :=
  if s.samples.length ≥ 5 ∧ s.samples.length % 2 = 1 then
    match s.samples[s.samples.length / 2]? with
    | none => .ub
    | some m => (absI64 m).bind fun m => judge s m
  else .ok s

/-- hsk_timedata_add (src/timedata.c:98-161). -/
def add {κ : Type} [DecidableEq κ] (s : State κ) (now : Int) (addr : κ) (time : Int) : Out Unit (State κ) :=
  if s.samples.length ≥ 200 then .ok s
  else if AMap.has s.known addr then .ok s
  else
    (i64 (time - now)).bind fun sample =>
      (insert s.samples sample).bind fun l =>
        update { s with known := AMap.set s.known addr (), samples := l }

/-- hsk_timedata_now (src/timedata.c:163-166), for the clock value `now`. -/
def adjusted {κ : Type} (s : State κ) (now : Int) : Int := now + s.offset

end Verif.Timedata
