import Verif.Model.Label
import Verif.Model.Dns
import Verif.Model.Sig0
/-
Model of src/req.c. The sender's address is copied and not modelled; allocation succeeds.
-/
namespace Verif.Req
open Verif.DnsName Verif.Label Verif.Dns

/-- hsk_dns_req_t (src/req.h:13-37). -/
structure Req where
  id : Nat
  labels : Nat
  name : Bytes
  type : Nat
  cls : Nat
  rd : Bool
  cd : Bool
  ad : Bool
  edns : Bool
  maxSize : Nat
  dnssec : Bool
  tld : Bytes
  deriving DecidableEq, Repr

/-- The size a client can take (src/req.c:118-123). -/
def maxSize (e : Edns) : Nat :=
  if e.enabled ∧ e.size ≥ 512 then (if e.size > 4096 then 4096 else e.size) else 512

/-- The request for a question (src/req.c:85-127). `tld` has room for 64 bytes, `name` for 256. -/
def fromQuestion (m : Msg) (q : Qs) : Out Unit Req :=
  (labelGet q.name (-1)).bind fun tld =>
    if tld.length + 1 > 64 then .ub
    else if dirty tld then .err ()
    else if q.name.length + 1 > 256 then .ub
    else .ok ⟨m.id, count q.name, q.name, q.type, q.cls, m.flags.testBit 8, m.flags.testBit 4, m.flags.testBit 5, m.edns.enabled, maxSize m.edns,
      m.edns.flags.testBit 15, lowered tld⟩

/-- hsk_dns_req_create (src/req.c:58-142). -/
def create (b : Bytes) : Out Unit Req :=
  (decode b).bind fun m =>
    if m.opcode ≠ 0 ∨ m.code ≠ 0 ∨ m.qd.length ≠ 1 ∨ m.an.length ≠ 0 ∨ m.ns.length ≠ 0 then .err ()
    else match m.qd with
      | q :: _ => fromQuestion m q
      | [] => .ub

/-- hsk_dns_rr_set_name (src/dns.c:721-737) on a new record: the name it has then. A name that
is refused leaves ".". -/
def setName (name : Bytes) : Out Unit Bytes :=
  (verify name).bind fun v =>
    if !v then .ok [0x2e]
    else if dirty name then .ok [0x2e]
    else if isFqdn name then (if name.length + 1 > 256 then .ub else .ok name)
    else if name.length + 2 > 256 then .ub
    else .ok (name ++ [0x2e])

/-- The types hsk_dns_rrs_clean removes (src/dns.c:3316-3329). -/
def isDnssec (type : Nat) : Bool :=
  type = 43 || type = 32769 || type = 48 || type = 46 || type = 30 || type = 47 || type = 50 || type = 51

/-- hsk_dns_rrs_clean (src/dns.c:3303-3345). Adding to a section that never had as many records
cannot fail. -/
def cleanRrs (type : Nat) (rs : List Rr) : List Rr := rs.filter fun r => !(isDnssec r.type && r.type != type)

/-- hsk_dns_msg_clean (src/dns.c:3285-3300). -/
def clean (m : Msg) (type : Nat) : Msg := { m with an := cleanRrs type m.an, ns := cleanRrs type m.ns, ar := cleanRrs type m.ar }

/-- The flags of a response (src/req.c:183-189). -/
def flags (m : Msg) (r : Req) : Nat :=
  m.flags ||| 32768 ||| (if r.rd then 256 else 0) ||| (if r.cd then 16 else 0)

/-- The EDNS data of a response (src/req.c:191-209). -/
def edns (r : Req) : Edns :=
  if r.edns then ⟨true, 0, if r.dnssec then 32768 else 0, 4096, 0, []⟩ else ⟨false, 0, 0, 512, 0, []⟩

/-- A response before it is serialised (src/req.c:181-236); `q` is the name of its question. -/
def respond (m : Msg) (r : Req) (q : Bytes) : Msg :=
  let m := { m with id := r.id, flags := flags m r, edns := edns r, qd := [⟨q, r.type, r.cls⟩] }
  if !r.dnssec && (!m.flags.testBit 7 || r.type != 255) then clean m r.type else m

/-- Truncation (src/req.c:251-255). `max` is unsigned: HSK_SIG0_RR_SIZE is taken off modulo 2^64. -/
def limit (signed : Bool) (r : Req) : Nat := if signed then (r.maxSize + 2 ^ 64 - 94) % 2 ^ 64 else r.maxSize

/-- hsk_dns_msg_finalize (src/req.c:164-284); `key` is the signing function if there is a key.
`err` is the result false. -/
def finalize (H : Bytes → Bytes) (key : Option (Bytes → Option Bytes)) (now : Int) (m : Msg) (r : Req) : Out Unit Bytes :=
  (setName r.name).bind fun q => (encode (respond m r q)).bind fun data => (truncate data (limit key.isSome r)).bind fun data =>
    match key with
    | none => .ok data
    | some signer => (Sig0.sign H signer now data).bind fun w =>
      match w with
      | none => .err ()
      | some w => .ok w

end Verif.Req
