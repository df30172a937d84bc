import Verif.Model.PeerList
/-
What consistent peer bookkeeping means: one list of peers, told apart by number and by
address, which the linked list, the tail, the counter and the index all describe.
-/
namespace Verif.Spec.PeerList
open Verif.PeerList

/-- Following `next` from `p` meets exactly the peers listed, all of them in allocated memory
and none being closed, and then ends. -/
def Linked {κ : Type} (heap : Nat → Option (Node κ)) : Option Nat → List (Nat × κ) → Prop
  | p, [] => p = none
  | p, (i, a) :: l => p = some i ∧ ∃ n, heap i = some n ∧ n.addr = a ∧ n.closing = false ∧ Linked heap n.next l

structure Consistent {κ : Type} [DecidableEq κ] (s : State κ) (l : List (Nat × κ)) : Prop where
  linked : Linked s.heap s.head l
  tail : s.tail = l.getLast?.map (·.1)
  size : s.size = l.length
  ids : (l.map (·.1)).Nodup
  addrs : (l.map (·.2)).Nodup
  index : ∀ a i, s.index.get a = some i ↔ (i, a) ∈ l
  max : l.length ≤ s.max

/-- What each event does to the list. -/
def after {κ : Type} [DecidableEq κ] (max fresh : Nat) (l : List (Nat × κ)) : Ev κ → List (Nat × κ)
  | .refill a opens => if l.length < max ∧ a ∉ l.map (·.2) ∧ opens = true then l ++ [(fresh, a)] else l
  | .destroy p => l.filter fun x => x.1 ≠ p
  | .release _ => l
  | .timer kill => l.filter fun x => !kill x.1

end Verif.Spec.PeerList
