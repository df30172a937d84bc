import Verif.Model.Cache
import Verif.Model.Hesiod
import Verif.Model.Tld
/-
Model of the request handling in src/ns.c. Sockets are left out: what is sent is the result.
Allocation succeeds.
-/
namespace Verif.Ns
open Verif.Dns Verif.Label Verif.Req Verif.Resource Verif.Hesiod

/-- What does not change while a request is handled: the functions and the clock of signing, the
hash and the key of SIG(0), and the address of the server. -/
structure Server where
  E : Dnssec.Env
  H : Bytes → Bytes
  key : Option (Bytes → Option Bytes)
  ip : Addr.Addr

/-- The other readings of the clock: at the lookup, twice at an insertion, and for SIG(0). -/
structure Clock where
  get : Int
  ins : Int
  ins' : Int
  sig : Int

/-- What is to be done about a request. -/
inductive Plan
  | drop
  | answer (m : Msg) (keep : Bool)
  | resolve (tld : Bytes)
  deriving DecidableEq, Repr

/-- hsk_type_map_a, hsk_type_map_aaaa (src/ns.c:29-37). -/
def mapA : Bytes := [0x00, 0x06, 0x40, 0x00, 0x00, 0x00, 0x00, 0x03]
def mapAaaa : Bytes := [0x00, 0x06, 0x00, 0x00, 0x00, 0x80, 0x00, 0x03]

/-- Nothing of this type (src/ns.c:372-375, 409-431). -/
def noSuch (E : Dnssec.Env) (name map : Bytes) : Out Unit Msg :=
  (empty name map).bind fun e => (Dnssec.signZsk E [e] 47).bind fun ns => (Dnssec.signZsk E (Resource.push ns (soa E)) 6).bind fun ns => .ok { newMsg with ns := ns }

/-- The type of an address as pointer_to_ip gives it. -/
def family (ip : Bytes) : Nat := if ip.length = 4 then 1 else 28

/-- An address that is asked for (src/ns.c:432-457). The third section is signed, not the first. -/
def address (E : Dnssec.Env) (r : Req) (ip : Bytes) : Out Unit Msg :=
  (setName r.name).bind fun o => (Dnssec.signZsk E [] (family ip)).bind fun ar =>
    .ok { newMsg with flags := 1024, an := [⟨o, family ip, 1, 21600, some [.bytes ip]⟩], ar := ar }

/-- Synthesised names (src/ns.c:366-458). `synth` has room for 64 bytes. -/
def synth (E : Dnssec.Env) (r : Req) : Out Unit Msg :=
  if r.labels = 1 then noSuch E r.tld []
  else (labelFrom r.name (-2)).bind fun s =>
    if s.length + 1 > 64 then .ub
    else (pointerToIp true s).bind fun p =>
      match p with
      | none => .ok newMsg
      | some ip =>
        if r.type = 255 ∨ r.type = family ip then address E r ip
        else noSuch E r.name (if family ip = 1 then mapA else mapAaaa)

/-- The names of other systems (src/ns.c:478-485). -/
def blacklist : List Bytes := [ascii "bit", ascii "eth", ascii "exit", ascii "gnu", ascii "i2p", ascii "onion", ascii "tor", ascii "zkey"]

/-- What is done about a request that the cache does not answer (src/ns.c:330-507). -/
def dispatch (S : Server) (I : Info) (sa : Addr.Sa) (r : Req) : Out Unit Plan :=
  if r.cls = 4 ∧ r.type = 16 then
    if !Addr.isLocal (Addr.fromSa sa) then .ok .drop else (resolve I r.name).bind fun m => .ok (.answer m false)
  else if r.tld = ascii "_synth" ∧ r.labels ≤ 2 then (synth S.E r).bind fun m => .ok (.answer m false)
  else if r.labels > 0 then
    if r.tld ∈ blacklist then (toNx S.E).bind fun m => .ok (.answer m true)
    else .ok (.resolve r.tld)
  else (root S.E r.type S.ip).bind fun m => .ok (.answer m true)

/-- What is sent for an answer (src/ns.c:318-322, 517-543, 595-618): if it cannot be put into a
packet, that the server failed; and nothing if that cannot be, either. -/
def reply (S : Server) (now : Int) (r : Req) (m : Msg) : Out Unit (Option Bytes) :=
  match finalize S.H S.key now m r with
  | .ok w => .ok (some w)
  | .ub => .ub
  | .err _ =>
    match finalize S.H S.key now toServfail r with
    | .ok w => .ok (some w)
    | .err _ => .ok none
    | .ub => .ub

/-- Keeping an answer (src/ns.c:514-515, 596); whether this succeeds is ignored. -/
def keepIn (ck : Clock) (c : Cache.Cache) (r : Req) (m : Msg) : Out Unit Cache.Cache :=
  match Cache.insert ck.ins ck.ins' c r.name r.type m with
  | .ok x => .ok x.2
  | .err _ => .ok c
  | .ub => .ub

/-- What comes of a packet: one packet sent or none, or a question to the pool. -/
inductive Act
  | nothing
  | send (w : Bytes)
  | ask (tld : Bytes)
  deriving DecidableEq, Repr

def Act.of : Option Bytes → Act
  | none => .nothing
  | some w => .send w

/-- Carrying out a plan (src/ns.c:488-543). `accepts` is whether the pool takes the question. -/
def perform (S : Server) (ck : Clock) (accepts : Bool) (c : Cache.Cache) (r : Req) : Plan → Out Unit (Act × Cache.Cache)
  | .drop => .ok (.nothing, c)
  | .answer m keep => (if keep then keepIn ck c r m else .ok c).bind fun c => (reply S ck.sig r m).bind fun w => .ok (.of w, c)
  | .resolve tld => if accepts then .ok (.ask tld, c) else (reply S ck.sig r toServfail).bind fun w => .ok (.of w, c)

/-- hsk_ns_onrecv (src/ns.c:293-548), with what is done in the cache. -/
def onrecv (S : Server) (I : Info) (ck : Clock) (accepts : Bool) (c : Cache.Cache) (sa : Addr.Sa) (data : Bytes) : Out Unit (Act × Cache.Cache) :=
  match create data with
  | .ub => .ub
  | .err _ => .ok (.nothing, c)
  | .ok r => (Cache.get ck.get c r.name r.type).bind fun x =>
    match x.1 with
    | some m => (reply S ck.sig r m).bind fun w => .ok (.of w, x.2)
    | none => (dispatch S I sa r).bind fun p => perform S ck accepts x.2 r p

/-- The answer to a request (src/ns.c:562-593). `res` is null for a name that does not exist; there
is no answer if the pool failed. -/
def answerFor (S : Server) (r : Req) (status : Bool) (res : Option (List Rec)) : Out Unit (Option Msg) :=
  if !status then .ok none
  else match res with
    | none => (toNx S.E).bind fun m => .ok (some m)
    | some rs => toDns S.E rs r.name r.type

/-- hsk_ns_respond (src/ns.c:550-622). -/
def respond (S : Server) (ck : Clock) (c : Cache.Cache) (r : Req) (status : Bool) (res : Option (List Rec)) : Out Unit (Option Bytes × Cache.Cache) :=
  (answerFor S r status res).bind fun m =>
    match m with
    | none => (reply S ck.sig r toServfail).bind fun w => .ok (w, c)
    | some m => (keepIn ck c r m).bind fun c => (reply S ck.sig r m).bind fun w => .ok (w, c)

/-- What the data for a name is taken for (src/ns.c:777-799): whether this succeeded, and the
resource. The built-in resource takes the place of none and of an empty one. -/
def decodeFor (name : Bytes) (status exists_ : Bool) (data : Bytes) : Out Unit (Bool × Option (List Rec)) :=
  if !status then .ok (false, none)
  else if !exists_ ∨ data.length = 0 then
    (Tld.lookup name).bind fun x =>
      match x with
      | none => .ok (true, none)
      | some raw =>
        match Resource.decode raw with
        | .ok rs => .ok (true, some rs)
        | .err _ => .ok (false, none)
        | .ub => .ub
  else match Resource.decode data with
    | .ok rs => .ok (true, some rs)
    | .err _ => .ok (false, none)
    | .ub => .ub

/-- after_resolve (src/ns.c:764-806), up to the release of the resource. -/
def afterResolve (S : Server) (ck : Clock) (c : Cache.Cache) (r : Req) (name : Bytes) (status exists_ : Bool) (data : Bytes) : Out Unit (Option Bytes × Cache.Cache) :=
  (decodeFor name status exists_ data).bind fun d => (respond S ck c r d.1 d.2).bind fun x =>
    match d.2 with
    | none => .ok x
    | some rs => (free rs).bind fun _ => .ok x

/-- What happens to the server: a packet arrives, or the pool comes back to a request. -/
inductive Event
  | packet (I : Info) (ck : Clock) (accepts : Bool) (sa : Addr.Sa) (data : Bytes)
  | resolved (ck : Clock) (r : Req) (status exists_ : Bool) (data : Bytes)

/-- One event: hsk_ns_onrecv or after_resolve (src/ns.c:293-548, 764-806). -/
def step (S : Server) (c : Cache.Cache) : Event → Out Unit (Act × Cache.Cache)
  | .packet I ck accepts sa data => onrecv S I ck accepts c sa data
  | .resolved ck r status exists_ data => (afterResolve S ck c r r.tld status exists_ data).bind fun x => .ok (.of x.1, x.2)

/-- A history of events, as the event loop calls hsk_ns_onrecv and after_resolve (src/ns.c:293-548,
764-806): what is done at each, and the cache afterwards. -/
def run (S : Server) : Cache.Cache → List Event → Out Unit (List Act × Cache.Cache)
  | c, [] => .ok ([], c)
  | c, e :: es => (step S c e).bind fun x => (run S x.2 es).bind fun y => .ok (x.1 :: y.1, y.2)

end Verif.Ns
