import Verif.Model.RsWorker
/-
What a user of the worker sees of it, and how it may be used.
-/
namespace Verif.Spec.RsWorker
open Verif.RsWorker

/-- Requests the resolver library took. -/
def sent (log : List Ev) : List Nat := log.filterMap fun | .sent d => some d | _ => none

/-- Requests it refused. -/
def refused (log : List Ev) : List Nat := log.filterMap fun | .refused d => some d | _ => none

/-- Requests for which `hsk_rs_worker_resolve` returned success. -/
def accepted (log : List Ev) : List Nat := log.filterMap fun | .ret d true => some d | _ => none

/-- Answers of the library: request, status and result. -/
def answers (log : List Ev) : List (Nat × Int × Option Nat) :=
  log.filterMap fun | .answer d s r => some (d, s, r) | _ => none

/-- Callbacks called: request, status and result. -/
def calls (log : List Ev) : List (Nat × Int × Option Nat) :=
  log.filterMap fun | .call d s r => some (d, s, r) | _ => none

/-- How the worker may be used (src/rs_worker.h:114-149): opened or released only when it is not
open, closed only when it is, and not used once released. `ub` is what
`hsk_rs_worker_is_open` tells. -/
def Legal (s : St) : Host → Prop
  | .resolve _ => s.alive = true
  | .opn _ => s.alive = true ∧ s.ub = false
  | .close => s.alive = true ∧ s.ub = true
  | .free => s.alive = true ∧ s.ub = false

/-- A choice that is legal if it is a call. -/
def LegalC (s : St) (c : Choice) : Prop := ∀ h, c = .host h → s.m = .idle → Legal s h

/-- The states of a worker, under every interleaving of its user, the two threads and the
library. -/
inductive Reach : St → Prop where
  | start : Reach start
  | step {s s' : St} {c : Choice} : Reach s → LegalC s c → step s c = .ok s' → Reach s'

/-- Steps without new calls. -/
inductive Goes : St → St → Prop where
  | refl (s : St) : Goes s s
  | step {s s' s'' : St} {c : Choice} : (∀ h, c ≠ .host h) → step s c = .ok s' → Goes s' s'' → Goes s s''

/-- Nothing is left to do: the event loop is idle and has no signal to look at, and the worker
does not run or sleeps. -/
def Settled (s : St) : Prop :=
  s.m = .idle ∧ s.quitSig = false ∧ (s.alive = true → s.rsSig = false) ∧ (s.w = .none ∨ s.w = .asleep)

end Verif.Spec.RsWorker
