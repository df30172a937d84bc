import Verif.Model.Pool
/-
What C34, C35 and C49 say, in terms of the record of what was observed.
-/
namespace Verif.Spec.Pool
open Verif.Pool

/-- One more observation, for `live`. -/
def liveStep (l : List (Option Nat × Req)) : Act → List (Option Nat × Req)
  | .asked r a => (a, r) :: l
  | .called r _ => l.filter fun x => x.2.no ≠ r.no
  | _ => l

/-- The requests taken up and not called back yet, with the peer they were given to. -/
def live (log : List Act) : List (Option Nat × Req) := log.foldl liveStep []

/-- Is this an invocation of the callback of the request `no`? -/
def isCall (no : Nat) : Act → Bool
  | .called r _ => r.no = no
  | _ => false

/-- How often the callback of the request `no` was invoked. -/
def calls (no : Nat) (log : List Act) : Nat := log.countP (isCall no)

/-- A callback, of any request. -/
def AnyCall (a : Act) : Prop := ∃ r ans, a = .called r ans

/-- C35: the record `t` so far allows the request `r` to be answered with `ans`. The last message
handled came from a peer the request was given to, and is a proof for the hash of its name;
its root is the root of a request for that name given to that same peer, and neither had been
called back before the message; the proof leads from that root to `ans`. -/
def Proven (hash : Bytes → Bytes) (t : List Act) (r : Req) (ans : Proof.Answer) : Prop :=
  ∃ (t0 cs : List Act) (id : Nat) (pf : Proof.Proof) (r' : Req),
    t = t0 ++ Act.heard id (.proof r'.root r.hash pf) :: cs ∧ (∀ c ∈ cs, AnyCall c) ∧
    (some id, r) ∈ live t0 ∧ (some id, r') ∈ live t0 ∧ r'.hash = r.hash ∧
    Proof.verify hash r'.root r.hash pf = .ok ans

/-- What may be observed after the record `t`: a request is a new one; a callback is that of a
request not called back yet, and an answer is proven. -/
def May (hash : Bytes → Bytes) (t : List Act) : Act → Prop
  | .asked r _ => ∀ r' a, Act.asked r' a ∈ t → r'.no ≠ r.no
  | .called r none => ∃ a, (a, r) ∈ live t
  | .called r (some ans) => (∃ a, (a, r) ∈ live t) ∧ Proven hash t r ans
  | _ => True

/-- Every observation was allowed when it was made. -/
def Sound (hash : Bytes → Bytes) (log : List Act) : Prop := ∀ t1 a t2, log = t1 ++ a :: t2 → May hash t1 a

/-- Where the pool holds a request: at a peer in its list, or among the pending ones. -/
def Held (p : Pool) : Option Nat → Req → Prop
  | none, r => r ∈ p.pending
  | some id, r => ∃ q ∈ p.peers, q.id = id ∧ r ∈ reqsOf q

/-- Each header names the one before it. -/
def Linked (H : Header.Hdr → Bytes) (l : List Header.Hdr) : Prop :=
  ∀ t1 a b t2, l = t1 ++ a :: b :: t2 → b.prevBlock = H a

/-- The hash, read as a number, is at most the target that the difficulty field stands for
(C17 says what the expansion of the field is). -/
def Worked (H : Header.Hdr → Bytes) (h : Header.Hdr) : Prop :=
  ∃ t, Header.powToTarget h.bits = some t ∧ beNat (H h) ≤ beNat t

/-- What C49 demands of a batch of headers. -/
def Vetted (H : Header.Hdr → Bytes) (l : List Header.Hdr) : Prop :=
  l.length ≤ 2000 ∧ Linked H l ∧ ∀ h ∈ l, Worked H h

end Verif.Spec.Pool
