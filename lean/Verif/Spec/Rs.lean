import Verif.Spec.Ns
import Verif.Spec.RsWorker
import Verif.Model.Rs
/-
What the recursive server makes of the library's results.
-/
namespace Verif.Spec.Rs
open Verif.Dns Verif.Rs Verif.Spec.Ns

/-- The message `n` that stands for the library's answer `m`: its code and its records, but none
beside an answer's; marked as of a recursive server, and as validated only if the library says so
and the client wants to know. -/
structure Passes (m : Msg) (x : Result) (r : Req.Req) (n : Msg) : Prop where
  opcode : n.opcode = 0
  code : n.code = x.rcode
  ra : n.flags.testBit 7 = true
  ad : n.flags.testBit 5 = true ↔ (x.secure = true ∧ x.bogus = false ∧ (r.dnssec = true ∨ r.ad = true))
  other : ∀ i, i ≠ 7 → i ≠ 5 → n.flags.testBit i = false
  an : n.an = m.an
  ns : n.ns = if m.an = [] then m.ns else []
  ar : n.ar = if m.an = [] then m.ar else []

/-- The packet is marked as validated: bit 5 of its second word (RFC 4035, 3.1.6). -/
def SaysAuthentic (w : Bytes) : Prop := (w.getD 3 0).toNat.testBit 5 = true

/-- The packet `w` for a message of which nothing is known: that the server failed takes its
place if it cannot be put into a packet. -/
def Delivered (H : Bytes → Bytes) (now : Int) (r : Req.Req) (m : Msg) (w : Bytes) : Prop :=
  (Spec.Req.Answer m → Carries r m w) ∧
  (Req.finalize H none now m r = .ok w ∨ Req.finalize H none now m r = .err () ∧ Carries r Resource.toServfail w)

/-- The worker is done with a request submitted under the number `d`. -/
def isRet (d : Nat) : RsWorker.Ev → Bool
  | .ret e _ => e = d
  | _ => false

/-- The server sends something for the request with the number `d`: the worker has refused it,
or has called back. -/
def isAnswered (d : Nat) : RsWorker.Ev → Bool
  | .ret e false => e = d
  | .call e _ _ => e = d
  | _ => false

end Verif.Spec.Rs
