import Verif.Model.Framing
import Verif.Model.Chain
import Verif.Model.Addrman
import Verif.Model.Timedata
/-
Model of src/pool.c: requests for names, peers, messages and the timer, as a machine that
reacts to events.

The linked list of peers is a list (justified by Verif.Props.PeerList), the hash table of
requests of a peer a finite map (justified by Verif.Props.HMap) from name hashes to the
chain of requests in the order of their `next` pointers. A peer destroyed but not yet
released is in `closing`; there it can still be reached, from the read callback that
destroyed it.

What comes from outside is in `Env`, as functions of a counter `tick` of the pool that
advances with each use: the clock, randomness, the outcome of writes and of opening
connections. So every sequence of outcomes is possible.

`log` records what can be observed, in order. It does not influence the pool. Allocation
succeeds (the outcome of a write includes the failure of the allocations made by it).
Callbacks of requests do not call back into the pool (hsk_ns's do not, src/ns.c:516-570).
Arithmetic on times does not overflow. Encoding of messages is in Verif.Model.Msg.
Encryption is in Verif.Model.Brontide; here an encrypted peer differs by when it becomes
ready and by the outcomes of its writes.
-/
namespace Verif.Pool
open Verif.Msg (Msg Version)
open Verif.Addr (Addr Netaddr)
open Verif.Addrman (keyOf)
open Verif.Framing (Frame)
open Verif.Header (Hdr)

/-- What becomes of a write (src/pool.c:1103-1188, src/brontide.c:570-609): handed to the
system; success though nothing is sent (an encrypted connection that has been shut down,
src/brontide.c:573-574); an error by which the peer is kept (no memory); an error on which the
peer is destroyed. -/
inductive Wr
  | sent | dropped | refused | broken
  deriving DecidableEq, Repr

/-- The outside. -/
structure Env where
  /-- HSK_MAGIC (src/constants.h). -/
  magic : Nat
  /-- The network's parameters of the chain. -/
  P : Chain.Params
  /-- The header hash. -/
  H : Hdr → Bytes
  /-- hsk_hash_name (src/hash.c:143-147). -/
  hashName : Bytes → Bytes
  /-- The hash of proofs. -/
  hashProof : Bytes → Bytes
  /-- hsk_ec_verify_pubkey. -/
  okKey : Bytes → Bool
  /-- user_agent of the pool. -/
  agent : Bytes
  /-- hsk_now. -/
  clock : Nat → Int
  /-- hsk_random, hsk_nonce: the i-th draw of one use. -/
  rnd : Nat → Nat → Nat
  /-- The outcome of a write. -/
  wr : Nat → Wr
  /-- Whether opening a connection succeeds at once. -/
  opens : Nat → Bool

/-- The states of a peer (src/pool.h:24-29). Between events CONNECTED does not occur; a peer
in DISCONNECTED is not in the list. -/
inductive St
  | connecting | reading | handshake | disconnecting
  deriving DecidableEq, Repr

/-- hsk_name_req_t (src/pool.h:44-52). `no` stands for its address and is never reused;
`arg` for the callback with its argument. -/
structure Req where
  no : Nat
  name : Bytes
  hash : Bytes
  root : Bytes
  arg : Nat
  time : Int
  deriving DecidableEq, Repr

/-- hsk_peer_t (src/pool.h:54-89). -/
structure Peer where
  id : Nat
  addr : Addr
  secure : Bool
  st : St
  headers : Nat
  proofs : Nat
  height : Nat
  names : AMap Bytes (List Req)
  getheadersTime : Int
  versionTime : Int
  lastPing : Int
  lastPong : Int
  minPing : Int
  pingTimer : Int
  challenge : Nat
  connTime : Int
  lastSend : Int
  lastRecv : Int
  frame : Frame

/-- What can be observed: a request is taken up (at a peer, or in the list of pending ones);
hsk_pool_resolve returns an error at once because the chain is not synced; it returns,
`true` being success; a message is handled; one is sent; a callback is invoked, `none` being
a timeout. -/
inductive Act
  | asked (r : Req) (at_ : Option Nat)
  | unsynced (arg : Nat)
  | returned (arg : Nat) (success : Bool)
  | heard (id : Nat) (m : Msg)
  | wrote (id : Nat) (m : Msg)
  | called (r : Req) (answer : Option Proof.Answer)

/-- hsk_pool_t (src/pool.h:91-113). -/
structure Pool where
  chain : Chain.State
  am : Addrman.Man
  td : Timedata.State Addrman.Key
  peers : List Peer
  closing : List Peer
  pending : List Req
  blockTime : Int
  getheadersTime : Int
  max : Nat
  nextId : Nat
  nextReq : Nat
  tick : Nat
  log : List Act

/-- hsk_pool_init (src/pool.c:143-180), with chain and addresses as set up then. -/
def init (chain : Chain.State) (am : Addrman.Man) (max : Nat) : Pool :=
  { chain := chain, am := am, td := Timedata.init _, peers := [], closing := [], pending := [], blockTime := 0,
    getheadersTime := 0, max := max, nextId := 0, nextReq := 0, tick := 0, log := [] }

/-- One use of the outside. -/
def bump (p : Pool) : Pool := { p with tick := p.tick + 1 }

/-- Recording. -/
def note (p : Pool) (l : List Act) : Pool := { p with log := p.log ++ l }

/-- Peers that can be reached: listed, or destroyed and not released. -/
def peer (p : Pool) (id : Nat) : Option Peer := (p.peers ++ p.closing).find? fun q => q.id = id

/-- Changing the peer `id`, if it is `q`. -/
def editPeer (id : Nat) (f : Peer → Peer) (q : Peer) : Peer := if q.id = id then f q else q

/-- Assignment to fields of a peer. -/
def edit (p : Pool) (id : Nat) (f : Peer → Peer) : Pool :=
  { p with peers := p.peers.map (editPeer id f), closing := p.closing.map (editPeer id f) }

/-- The requests held by a peer. -/
def reqsOf (q : Peer) : List Req := q.names.flatMap fun e => e.2

/-- hsk_peer_timeout_reqs (src/pool.c:681-714). -/
def timeouts (q : Peer) : List Act := (reqsOf q).map fun r => .called r none

/-- hsk_peer_close (src/pool.c:990-1021), hsk_peer_destroy (1023-1026), hsk_peer_remove (1060-1101), for a
peer in the list; for a peer being closed already nothing happens. -/
def close (p : Pool) (id : Nat) : Pool :=
  match p.peers.find? fun q => q.id = id with
  | none => p
  | some q =>
    note { p with peers := p.peers.filter fun x => x.id ≠ id
                  closing := { q with st := .disconnecting, names := [] } :: p.closing } (timeouts q)

/-- hsk_peer_send (src/pool.c:1190-1216) with hsk_peer_write (1169-1188) and
hsk_peer_write_raw (1103-1167); `true` is success. -/
def send (e : Env) (p : Pool) (id : Nat) (m : Msg) : Bool × Pool :=
  match p.peers.find? fun q => q.id = id with
  | none => (true, p)
  | some q =>
    if q.st = .handshake then
      match e.wr p.tick with
      | .sent => (true, bump (edit (note p [.wrote id m]) id fun q => { q with lastSend := e.clock p.tick }))
      | .dropped => (true, bump p)
      | .refused => (false, bump p)
      | .broken => (false, close (bump p) id)
    else (true, p)

/-- The entry of an address, hsk_addrman_get (src/addrmgr.c:139-142), as used for the version
message (src/pool.c:1229-1234). -/
def remoteOf (m : Addrman.Man) (a : Addr) : Netaddr :=
  match (m.map.get (keyOf a)).bind fun i => m.addrs[i]? with
  | some en => { time := en.time, services := en.services, addr := a }
  | none => { time := 0, services := 0, addr := a }

/-- hsk_peer_send_version (src/pool.c:1218-1246). -/
def sendVersion (e : Env) (p : Pool) (id : Nat) : Bool × Pool :=
  match peer p id with
  | none => (true, p)
  | some q =>
    let t := e.clock p.tick
    let v : Version := { version := 1, services := 0, time := Chain.toU64 (Timedata.adjusted p.td t),
                         remote := remoteOf p.am q.addr, nonce := e.rnd p.tick 0, agent := e.agent,
                         height := p.chain.height, noRelay := false }
    send e (bump (edit p id fun q => { q with versionTime := t })) id (.version v)

/-- hsk_peer_send_getheaders (src/pool.c:1287-1302) with `stop` null. -/
def sendGetheaders (e : Env) (p : Pool) (id : Nat) : Out Unit (Bool × Pool) :=
  (Chain.locator p.chain).bind fun l =>
    .ok (send e (bump (edit p id fun q => { q with getheadersTime := e.clock p.tick })) id
      (.getheaders l (List.replicate 32 0)))

/-! ### Requests -/

/-- The first loop of hsk_pool_pick_prover (src/pool.c:462-474): first_best and second_best. -/
def best : List Peer → Peer → Option Peer → Peer × Option Peer
  | [], f, s => (f, s)
  | q :: l, f, s =>
    if q.st = .handshake ∧ q.proofs > f.proofs ∧ q.names.size ≤ f.names.size then best l q (some f) else best l f s

/-- Peers that count for `total` (src/pool.c:463-474). -/
def ready (p : Pool) : List Peer := p.peers.filter fun q => q.st = .handshake

/-- The choice at the end of hsk_pool_pick_prover (src/pool.c:479-504); `rnd` are the draws of
hsk_random. -/
def choose (l : List Peer) (b : Peer × Option Peer) (hash : Bytes) (rnd : Nat → Nat) : Option Peer :=
  if rnd 1 % 5 = 0 then l[rnd 0 % l.length]?
  else if b.2.isSome ∧ rnd 2 % 10 = 0 then b.2
  else if rnd 3 % 10 = 0 then some b.1
  else l[(hash.getD 0 0).toNat % l.length]?

/-- hsk_pool_pick_prover (src/pool.c:452-505). -/
def pickProver (e : Env) (p : Pool) (hash : Bytes) : Option Peer :=
  match p.peers with
  | [] => none
  | q :: _ => if (ready p).length = 0 then none else choose (ready p) (best p.peers q none) hash (e.rnd p.tick)

/-- src/pool.c:540-547: no peer. -/
def hold (p : Pool) (r : Req) : Pool :=
  note { p with pending := r :: p.pending } [.asked r none, .returned r.arg true]

/-- Entering a request in the table of a peer (src/pool.c:549-554). -/
def file (p : Pool) (id : Nat) (r : Req) (l : List Req) : Pool :=
  note (edit p id fun q => { q with names := q.names.set r.hash (r :: l) }) [.asked r (some id)]

/-- src/pool.c:549-565: a peer. -/
def assign (e : Env) (p : Pool) (q : Peer) (r : Req) : Out Unit Pool :=
  match q.names.get r.hash with
  | some (h :: l) => .ok (note (file p q.id { r with time := h.time } (h :: l)) [.returned r.arg true])
  | some [] => .ub
  | none =>
    let x := send e (file p q.id r []) q.id (.getproof r.root r.hash)
    .ok (note x.2 [.returned r.arg x.1])

/-- hsk_pool_resolve (src/pool.c:507-566). `ub` is the overrun of `name` by the strcpy. -/
def resolve (e : Env) (p : Pool) (name : Bytes) (arg : Nat) : Out Unit Pool :=
  if p.chain.synced = false then .ok (note p [.unsynced arg])
  else if name.length ≥ 256 then .ub
  else (Chain.safeRoot e.P p.chain).bind fun root =>
    let r : Req := { no := p.nextReq, name := name, hash := e.hashName name, root := root, arg := arg, time := e.clock p.tick }
    let p' := bump { p with nextReq := p.nextReq + 1 }
    match pickProver e p r.hash with
    | none => .ok (hold p' r)
    | some q => assign e p' q r

/-! ### Messages -/

/-- hsk_peer_handle_version (src/pool.c:1319-1348). The strcpy overruns `agent`, of 255
bytes (src/pool.h:63), for an agent of 255 characters. The outcome of sending verack is not
looked at. -/
def handleVersion (e : Env) (p : Pool) (q : Peer) (v : Version) : Out Unit (Bool × Pool) :=
  if v.agent.length ≥ 255 then .ub
  else
    (Timedata.add p.td (e.clock p.tick) (keyOf q.addr) (Chain.toI64 v.time)).bind fun td =>
    (Addrman.markAck p.am q.addr v.services (Timedata.adjusted td (e.clock (p.tick + 1)))).bind fun am =>
    let p := bump (bump { edit p q.id (fun q => { q with height := v.height }) with td := td, am := am.1 })
    let p := (send e p q.id .verack).2
    let x := send e p q.id .sendheaders
    if !x.1 then .ok x else
    let y := send e x.2 q.id .getaddr
    if !y.1 then .ok y else sendGetheaders e y.2 q.id

/-- hsk_peer_handle_verack (src/pool.c:1350-1358). -/
def handleVerack (p : Pool) (q : Peer) : Pool := edit p q.id fun q => { q with versionTime := 0 }

/-- The part of hsk_peer_handle_pong for the right nonce (src/pool.c:1384-1398). -/
def pong (now : Int) (q : Peer) : Peer :=
  if now ≥ q.lastPing then
    let m := if q.minPing = 0 then now - q.lastPing else q.minPing
    { q with lastPong := now, minPing := if m < now - q.lastPing then m else now - q.lastPing, challenge := 0 }
  else { q with challenge := 0 }

/-- hsk_peer_handle_pong (src/pool.c:1365-1399). -/
def handlePong (e : Env) (p : Pool) (q : Peer) (nonce : Nat) : Pool :=
  if q.challenge = 0 then p
  else if nonce ≠ q.challenge then
    if nonce = 0 then edit p q.id fun q => { q with challenge := 0 } else p
  else bump (edit p q.id (pong (e.clock p.tick)))

/-- The body of the loop of hsk_peer_handle_addr (src/pool.c:1413-1432); comparisons are
unsigned. `now` is the adjusted time, `t` the number of this use of the outside. -/
def learn (e : Env) (td : Timedata.State Addrman.Key) (now : Int) (t : Nat) (am : Addrman.Man) (a : Netaddr) : Out Unit Addrman.Man :=
  if !Addr.isRoutable a.addr then .ok am
  else if a.services % 2 = 0 then .ok am
  else
    let a := if a.time ≤ 100000000 ∨ a.time > Addrman.u64 (now + 600) then { a with time := Addrman.u64 (now - 432000) } else a
    if a.addr.port = 0 then .ok am
    else if Addr.hasKey a.addr then .ok am
    else (Addrman.addEntry am a true (Timedata.adjusted td (e.clock t)) (e.rnd t)).bind fun x => .ok x.1

/-- The loop of hsk_peer_handle_addr (src/pool.c:1412-1432). -/
def learnAll (e : Env) (td : Timedata.State Addrman.Key) (now : Int) : List Netaddr → Nat → Addrman.Man → Out Unit Addrman.Man
  | [], _, am => .ok am
  | a :: l, t, am => (learn e td now t am a).bind fun am => learnAll e td now l (t + 1) am

/-- hsk_peer_handle_addr (src/pool.c:1401-1435). -/
def handleAddr (e : Env) (p : Pool) (l : List Netaddr) : Out Unit (Bool × Pool) :=
  if l.length > 1000 then .ok (false, p)
  else (learnAll e p.td (Timedata.adjusted p.td (e.clock p.tick)) l (p.tick + 1) p.am).bind fun am =>
    .ok (true, { p with am := am, tick := p.tick + 1 + l.length })

/-- The first loop of hsk_peer_handle_headers (src/pool.c:1452-1468): each header names the
one before it, and its hash meets its target. -/
def vetted (H : Hdr → Bytes) : Option Bytes → List Hdr → Bool
  | _, [] => true
  | last, h :: l =>
    if last.isSome ∧ last ≠ some h.prevBlock then false
    else match Header.verifyPowHash h.bits (H h) with
      | .error _ => false
      | .ok () => vetted H (some (H h)) l

/-- How the second loop of hsk_peer_handle_headers ends. -/
inductive Added
  | all (orphan : Bool)   -- the loop is finished
  | ban                   -- too old, or wrong bits
  | drop                  -- too new
  | fail                  -- any other error
  deriving DecidableEq, Repr

/-- The second loop of hsk_peer_handle_headers (src/pool.c:1472-1506): how it ends, the chain,
how many headers were added and how often the outside was used. -/
def addAll (e : Env) (td : Timedata.State Addrman.Key) :
    List Hdr → Bool → Nat → Nat → Chain.State → Out Unit (Added × Chain.State × Nat × Nat)
  | [], orphan, n, t, c => .ok (.all orphan, c, n, t)
  | h :: l, orphan, n, t, c =>
    (Chain.add e.P e.H c (Timedata.adjusted td (e.clock t)) h).bind fun x =>
      match x.1 with
      | .timeTooOld => .ok (.ban, x.2, n, t + 1)
      | .badDiffBits => .ok (.ban, x.2, n, t + 1)
      | .timeTooNew => .ok (.drop, x.2, n, t + 1)
      | .orphan => addAll e td l true n (t + 1) x.2
      | .duplicateOrphan => addAll e td l true n (t + 1) x.2
      | .duplicate => addAll e td l orphan n (t + 1) x.2
      | .success => addAll e td l orphan (n + 1) (t + 1) x.2
      | .negTarget => .ok (.fail, x.2, n, t + 1)
      | .highHash => .ok (.fail, x.2, n, t + 1)

/-- The end of hsk_peer_handle_headers (src/pool.c:1508-1524) and the exits of its loop
(1475-1488, 1498-1503). -/
def afterHeaders (e : Env) (p : Pool) (q : Peer) (count : Nat) : Added → Out Unit (Bool × Pool)
  | .ban => .ok (false, close (bump { p with am := Addrman.addBan p.am q.addr (e.clock p.tick) }) q.id)
  | .drop => .ok (false, close p q.id)
  | .fail => .ok (false, p)
  | .all true => (sendGetheaders e p q.id).bind fun x => .ok (true, x.2)
  | .all false =>
    let p := bump (edit { p with blockTime := e.clock p.tick } q.id fun q => { q with getheadersTime := 0 })
    if count = 2000 then sendGetheaders e p q.id else .ok (true, p)

/-- hsk_peer_handle_headers (src/pool.c:1437-1525). -/
def handleHeaders (e : Env) (p : Pool) (q : Peer) (count : Nat) (l : List Hdr) : Out Unit (Bool × Pool) :=
  if count = 0 then .ok (true, p)
  else if count > 2000 then .ok (false, p)
  else if !vetted e.H none l then .ok (false, p)
  else (addAll e p.td l false 0 p.tick p.chain).bind fun x =>
    afterHeaders e { edit p q.id (fun q => { q with headers := q.headers + x.2.2.1 }) with chain := x.2.1, tick := x.2.2.2 }
      q count x.1

/-- hsk_peer_handle_proof (src/pool.c:1527-1589). -/
def handleProof (e : Env) (p : Pool) (q : Peer) (root key : Bytes) (pf : Proof.Proof) : Out Unit (Bool × Pool) :=
  match q.names.get key with
  | none => .ok (false, p)
  | some [] => .ub
  | some (h :: l) =>
    if root ≠ h.root then .ok (false, p)
    else match Proof.verify e.hashProof root key pf with
      | .ub => .ub
      | .err _ => .ok (false, p)
      | .ok a =>
        .ok (true, note (edit p q.id fun q => { q with names := q.names.del key, proofs := q.proofs + 1 })
          ((h :: l).map fun r => .called r (some a)))

/-- The switch of hsk_peer_handle_msg (src/pool.c:1591-1638). -/
def dispatch (e : Env) (p : Pool) (q : Peer) : Msg → Out Unit (Bool × Pool)
  | .version v => handleVersion e p q v
  | .verack => .ok (true, handleVerack p q)
  | .ping n => .ok (send e p q.id (.pong n))
  | .pong n => .ok (true, handlePong e p q n)
  | .addr l => handleAddr e p l
  | .headers n l => handleHeaders e p q n l
  | .proof root key pf => handleProof e p q root key pf
  | .getaddr => .ok (true, p)
  | .getheaders _ _ => .ok (true, p)
  | .sendheaders => .ok (true, p)
  | .getproof _ _ => .ok (true, p)

/-- hsk_peer_handle_msg (src/pool.c:1591-1638) for the peer `id`, which is not released yet;
else `ub`. -/
def handleMsg (e : Env) (id : Nat) (p : Pool) (m : Msg) : Out Unit (Bool × Pool) :=
  match peer p id with
  | none => .ub
  | some q => dispatch e (note p [.heard id m]) q m

/-- The end of hsk_peer_on_read (src/pool.c:1653-1660): the buffer is kept; on an error the
peer is destroyed. -/
def finishRead (id : Nat) (x : Bool × Frame × Pool) : Pool :=
  let p := edit x.2.2 id fun q => { q with frame := x.2.1 }
  if x.1 then p else close p id

/-- hsk_peer_on_read (src/pool.c:1640-1661), from after_read (1846-1878) or, for decrypted
data, after_brontide_read (1912-1916). -/
def onRead (e : Env) (p : Pool) (id : Nat) (data : Bytes) : Out Unit Pool :=
  match p.peers.find? fun q => q.id = id with
  | none => .ok p
  | some q =>
    if q.st = .handshake then
      (Framing.feed e.magic (handleMsg e id) data q.frame (bump (edit p id fun q => { q with lastRecv := e.clock p.tick }))).bind
        fun x => .ok (finishRead id x)
    else .ok p

/-! ### Connections -/

/-- A new peer (hsk_peer_init, src/pool.c:821-894, and hsk_peer_open, 940-988). -/
def newPeer (id : Nat) (a : Addr) (st : St) : Peer :=
  { id := id, addr := a, secure := Addr.hasKey a, st := st, headers := 0, proofs := 0, height := 0, names := [],
    getheadersTime := 0, versionTime := 0, lastPing := 0, lastPong := 0, minPing := 0, pingTimer := 0, challenge := 0,
    connTime := 0, lastSend := 0, lastRecv := 0, frame := Framing.fresh }

/-- The part of hsk_pool_refill with an address (src/pool.c:424-447): `ub` is the assertion of
hsk_peer_push (1038-1058). A peer that cannot be opened is destroyed; that uv_tcp_init fails,
after which the code closes an uninitialised handle, is left out. -/
def open_ (e : Env) (p : Pool) (a : Addr) : Out Unit Pool :=
  if Addr.hasKey a && !e.okKey a.key then (Addrman.removeAddr p.am a).bind fun x => .ok { p with am := x.1 }
  else (Addrman.markAttempt p.am a (Timedata.adjusted p.td (e.clock p.tick))).bind fun x =>
    let p' := bump { p with am := x.1, nextId := p.nextId + 1 }
    if e.opens p.tick then
      if p.peers.any fun q => keyOf q.addr = keyOf a then .ub
      else .ok { p' with peers := p.peers ++ [newPeer p.nextId a .connecting] }
    else .ok { p' with closing := newPeer p.nextId a .disconnecting :: p.closing }

/-- hsk_pool_refill (src/pool.c:415-450). -/
def refill (e : Env) (p : Pool) : Out Unit Pool :=
  if p.peers.length < p.max then
    let x := Addrman.pick p.am (e.rnd p.tick) (fun k => p.peers.any fun q => keyOf q.addr = k)
      (Timedata.adjusted p.td (e.clock p.tick)) (e.clock p.tick)
    match x.2 with
    | none => .ok (bump { p with am := x.1 })
    | some en => open_ e (bump { p with am := x.1 }) en.addr
  else .ok p

/-- on_connect (src/pool.c:1765-1808): `ok` if the connection came about, `readOk` if reading
could be started and, for an encrypted peer, the first act could be sent. -/
def onConnect (e : Env) (p : Pool) (id : Nat) (ok readOk : Bool) : Pool :=
  match p.peers.find? fun q => q.id = id with
  | none => p
  | some q =>
    if q.st = .connecting then
      if ok && readOk then
        let p := bump (edit p id fun q => { q with st := if q.secure then .reading else .handshake, connTime := e.clock p.tick })
        if q.secure then p else (sendVersion e p id).2
      else close p id
    else p

/-- after_brontide_connect (src/pool.c:1897-1910). -/
def onSecure (e : Env) (p : Pool) (id : Nat) : Out Unit Pool :=
  match p.peers.find? fun q => q.id = id with
  | none => .ok p
  | some q =>
    if q.st = .reading then
      (Addrman.markSuccess p.am q.addr (Timedata.adjusted p.td (e.clock p.tick))).bind fun x =>
        .ok (sendVersion e (bump (edit { p with am := x.1 } id fun q => { q with st := .handshake })) id).2
    else .ok p

/-- after_close (src/pool.c:1880-1888). -/
def onClosed (p : Pool) (id : Nat) : Pool := { p with closing := p.closing.filter fun q => q.id ≠ id }

/-! ### The timer -/

/-- hsk_peer_is_overdue (src/pool.c:716-735); `ub` is its assertion. -/
def overdue (now : Int) : AMap Bytes (List Req) → Out Unit Bool
  | [] => .ok false
  | (_, []) :: _ => .ub
  | (_, r :: _) :: l => if now > r.time + 5 then .ok true else overdue now l

/-- src/pool.c:748-772. -/
def stalling (now : Int) (q : Peer) : Bool :=
  now > q.connTime + 60 ∧
    ((q.lastSend = 0 ∨ q.lastRecv = 0) ∨ now > q.lastSend + 1200 ∨ now > q.lastRecv + 1200 ∨
      (q.challenge ≠ 0 ∧ now > q.lastPing + 1200))

/-- src/pool.c:774-784. hsk_nonce may be zero, in which case no pong is expected. -/
def ping (e : Env) (now : Int) (p : Pool) (q : Peer) : Pool :=
  if now > q.pingTimer + 30 then
    if q.challenge ≠ 0 then edit p q.id fun q => { q with pingTimer := now }
    else
      let n := e.rnd p.tick 0
      (send e (bump (edit p q.id fun q => { q with pingTimer := now, challenge := n, lastPing := now })) q.id (.ping n)).2
  else p

/-- src/pool.c:786-797: no headers while syncing, or no verack. -/
def silent (synced : Bool) (now : Int) (q : Peer) : Bool :=
  (synced = false ∧ q.getheadersTime ≠ 0 ∧ now > q.getheadersTime + 30) ∨ (q.versionTime ≠ 0 ∧ now > q.versionTime + 10)

/-- src/pool.c:786-803, for a peer still in the list after the ping. Destroying is without
effect on one that is not. -/
def judge (e : Env) (now : Int) (p : Pool) (id : Nat) : Out Unit Pool :=
  match p.peers.find? fun q => q.id = id with
  | none => .ok p
  | some q =>
    if silent p.chain.synced now q then .ok (close p id)
    else (overdue (e.clock p.tick) q.names).bind fun b => .ok (if b then close (bump p) id else bump p)

/-- The body of the loop of hsk_pool_timer (src/pool.c:742-804). -/
def tend (e : Env) (now : Int) (p : Pool) (id : Nat) : Out Unit Pool :=
  match p.peers.find? fun q => q.id = id with
  | none => .ok p
  | some q =>
    if q.st = .handshake then
      if stalling now q then .ok (close p id)
      else judge e now (ping e now p q) id
    else .ok p

/-- The loop of hsk_pool_timer (src/pool.c:741-805). It saves `next` before each round; that
the peers it visits are those listed at the start is C51_sweep of Verif.Props.PeerList. -/
def tendAll (e : Env) (now : Int) : List Nat → Pool → Out Unit Pool
  | [], p => .ok p
  | id :: l, p => (tend e now p id).bind fun p => tendAll e now l p

/-- The loop of hsk_pool_send_getheaders (src/pool.c:616-628). It follows `next` of a peer
that may just have been removed; the removal clears that pointer if the peer was the
first (src/pool.c:1070-1078), and the loop ends early. -/
def getheadersAll (e : Env) : List Nat → Pool → Out Unit Pool
  | [], p => .ok p
  | id :: l, p =>
    match p.peers.find? fun q => q.id = id with
    | none => getheadersAll e l p
    | some q =>
      if q.st = .handshake then
        (sendGetheaders e p id).bind fun x =>
          if (p.peers.head?.map fun q => q.id) = some id ∧ (x.2.peers.all fun q => q.id ≠ id) then .ok x.2
          else getheadersAll e l x.2
      else getheadersAll e l p

/-- src/pool.c:807-812 and 627. -/
def askAgain (e : Env) (now : Int) (p : Pool) : Out Unit Pool :=
  if (p.blockTime ≠ 0 ∧ now > p.blockTime + 600) ∧ (p.getheadersTime = 0 ∨ now > p.getheadersTime + 300) then
    (getheadersAll e (p.peers.map fun q => q.id) p).bind fun p =>
      .ok (bump { p with getheadersTime := e.clock p.tick })
  else .ok p

/-- hsk_pool_timer (src/pool.c:737-815). -/
def timer (e : Env) (p : Pool) : Out Unit Pool :=
  (tendAll e (e.clock p.tick) (p.peers.map fun q => q.id) (bump p)).bind fun p1 =>
  (askAgain e (e.clock p.tick) p1).bind fun p2 => refill e p2

/-! ### Histories -/

/-- What happens to the pool: a call of hsk_pool_resolve; the end of connecting; the end of
the handshake of an encrypted connection; data; a failure of reading, writing or
decrypting; the end of closing; the timer. -/
inductive Ev
  | resolve (name : Bytes) (arg : Nat)
  | connect (id : Nat) (ok readOk : Bool)
  | secure (id : Nat)
  | data (id : Nat) (data : Bytes)
  | lost (id : Nat)
  | closed (id : Nat)
  | timer

def step (e : Env) (p : Pool) : Ev → Out Unit Pool
  | .resolve name arg => resolve e p name arg
  | .connect id ok readOk => .ok (onConnect e p id ok readOk)
  | .secure id => onSecure e p id
  | .data id data => onRead e p id data
  | .lost id => .ok (close p id)
  | .closed id => .ok (onClosed p id)
  | .timer => timer e p

def run (e : Env) (p : Pool) : List Ev → Out Unit Pool
  | [] => .ok p
  | ev :: l => (step e p ev).bind fun p => run e p l

end Verif.Pool
