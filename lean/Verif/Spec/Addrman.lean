import Verif.Model.Addrman
/-
Histories of address manager calls, and what a ban means.
-/
namespace Verif.Spec.Addrman
open Verif.Addrman
open Verif.Addr (Addr Netaddr)

/-- One call, with the clocks and random values it meets. -/
inductive Op where
  | add (na : Netaddr) (src : Bool) (now : Int) (rnd : Nat → Nat)
  | remove (a : Addr)
  | attempt (a : Addr) (now : Int)
  | success (a : Addr) (now : Int)
  | ack (a : Addr) (services : Nat) (now : Int)
  | clearBans
  | ban (a : Addr) (clock : Int)
  | query (a : Addr) (clock : Int)
  | pick (choice : Nat → Nat) (connected : Key → Bool) (now clock : Int)

/-- The state after one call. -/
def step (m : Man) : Op → Out Unit Man
  | .add na src now rnd => (addEntry m na src now rnd).bind fun r => .ok r.1
  | .remove a => (removeAddr m a).bind fun r => .ok r.1
  | .attempt a now => (markAttempt m a now).bind fun r => .ok r.1
  | .success a now => (markSuccess m a now).bind fun r => .ok r.1
  | .ack a s now => (markAck m a s now).bind fun r => .ok r.1
  | .clearBans => .ok (clearBanned m)
  | .ban a clock => .ok (addBan m a clock)
  | .query a clock => .ok (isBanned m a clock).1
  | .pick choice conn now clock => .ok (Verif.Addrman.pick m choice conn now clock).1

/-- The state after a history, oldest call first. -/
def run (m : Man) : List Op → Out Unit Man
  | [] => .ok m
  | o :: r => (step m o).bind fun m => run m r

/-- Time of the latest ban of an address, unless all bans were cleared since. The history
is given latest call first. -/
def lastBan (k : Key) : List Op → Option Int
  | [] => none
  | .clearBans :: _ => none
  | .ban a clock :: r => if keyOf a = k then some clock else lastBan k r
  | _ :: r => lastBan k r

/-- The system clock a call looks at, if any. -/
def clockOf : Op → Option Int
  | .ban _ c => some c
  | .query _ c => some c
  | .pick _ _ _ c => some c
  | _ => none

/-- The clock never exceeds `now` in the history. -/
def Before (now : Int) (ops : List Op) : Prop := ∀ o ∈ ops, ∀ c, clockOf o = some c → c ≤ now

/-- The clock never goes back; the history is given latest call first. -/
def Monotone : List Op → Prop
  | [] => True
  | o :: r => (∀ c, clockOf o = some c → Before c r) ∧ Monotone r

end Verif.Spec.Addrman
