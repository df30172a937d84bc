import Verif.Model.Resource
import Verif.Model.RsWorker
/-
Model of the requests and responses of the recursive server, src/rs.c. The resolver library and
the worker's threads are modelled in `Model/RsWorker`; here its results come as data. Setting up
and closing the socket are left out, and sending succeeds.
-/
namespace Verif.Rs
open Verif.Dns Verif.Req Verif.Resource

/-- What the server is made with: the hash and, if it has a key, signing with it
(src/rs.h:25-46). -/
structure Server where
  H : Bytes → Bytes
  key : Option (Bytes → Option Bytes)

/-- What of a `struct ub_result` is used (src/rs.c:430-459): the code, whether the answer was
validated, whether it failed validation, and the packet. -/
structure Result where
  rcode : Nat
  secure : Bool
  bogus : Bool
  packet : Bytes
  deriving DecidableEq, Repr

/-- What comes of a packet: one packet sent or none, or a question to the library. -/
inductive Act where
  | nothing
  | send (w : Bytes)
  | ask (name : Bytes) (type cls : Nat)
  deriving DecidableEq, Repr

def Act.of : Option Bytes → Act
  | none => .nothing
  | some w => .send w

/-- A message without answers is put into a packet and sent, or not if that fails
(src/rs.c:396-411, :485-502). -/
def once (S : Server) (now : Int) (r : Req) (m : Msg) : Out Unit (Option Bytes) :=
  match finalize S.H S.key now m r with
  | .ok w => .ok (some w)
  | .err _ => .ok none
  | .ub => .ub

/-- hsk_rs_onrecv (src/rs.c:351-411). `accepts` is whether the worker takes the question. -/
def onrecv (S : Server) (now : Int) (accepts : Bool) (data : Bytes) : Out Unit Act :=
  match create data with
  | .ub => .ub
  | .err _ => .ok .nothing
  | .ok r =>
    if r.type = 255 then (once S now r toNotimp).bind fun w => .ok (.of w)
    else if accepts then .ok (.ask r.name r.type r.cls)
    else (once S now r toServfail).bind fun w => .ok (.of w)

/-- The flags of an answer (src/rs.c:453-459, :474-475). -/
def answerFlags (x : Result) (r : Req) : Nat :=
  let f := 0 ||| 128
  let f := if x.secure && !x.bogus then f ||| 32 else f
  if !r.dnssec && !r.ad then f &&& (65535 - 32) else f

/-- The library's answer before it is sent on (src/rs.c:452-475). -/
def cleaned (m : Msg) (x : Result) (r : Req) : Msg :=
  let m := { m with flags := answerFlags x r, opcode := 0, code := x.rcode }
  if m.an.length > 0 then { m with ns := [], ar := [] } else m

/-- hsk_rs_respond (src/rs.c:413-502). -/
def respond (S : Server) (now : Int) (r : Req) (status : Int) (x : Result) : Out Unit (Option Bytes) :=
  if status ≠ 0 then once S now r toServfail
  else
    match Dns.decode x.packet with
    | .ub => .ub
    | .err _ => once S now r toServfail
    | .ok m =>
      match finalize S.H S.key now (cleaned m x r) r with
      | .ub => .ub
      | .err _ => once S now r toServfail
      | .ok w => .ok (some w)

/-- after_resolve (src/rs.c:675-689): nothing is sent if the library has no result. -/
def afterResolve (S : Server) (now : Int) (r : Req) (status : Int) (x : Option Result) : Out Unit (Option Bytes) :=
  match x with
  | none => .ok none
  | some x => respond S now r status x

/-- What the server sends because of what the worker did with the `d`-th request: src/rs.c:380-411
when the worker refuses it, src/rs.c:675-689 when it calls back; `none` for what the server does
not see. -/
def packetFor (S : Server) (now : Int) (reqs : Nat → Req) (results : Nat → Result) : RsWorker.Ev → Option (Out Unit (Option Bytes))
  | .ret d false => some (once S now (reqs d) toServfail)
  | .call d st x => some (afterResolve S now (reqs d) st (x.map results))
  | _ => none

end Verif.Rs
