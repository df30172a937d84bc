import Verif.Model.Resource
/-
Model of src/hesiod.c: what the server says about itself.
-/
namespace Verif.Hesiod
open Verif.Dns Verif.Label Verif.Req Verif.Resource

/-- A string literal. -/
def ascii (s : String) : Bytes := s.toList.map fun c => UInt8.ofNat c.toNat

/-- sprintf with "%llu" and "%d", for what is not negative. -/
def dec (n : Nat) : Bytes := (Nat.toDigits 10 n).map fun c => UInt8.ofNat c.toNat

def hexDigit (n : Nat) : UInt8 := UInt8.ofNat (if n < 10 then 48 + n else 87 + n)

/-- sprintf with "%02x", byte by byte. -/
def hex (b : Bytes) : Bytes := b.flatMap fun c => [hexDigit (c.toNat / 16), hexDigit (c.toNat % 16)]

/-- What is told of a peer. -/
structure Peer where
  host : Bytes
  agent : Bytes
  headers : Nat
  proofs : Nat
  state : Nat
  deriving DecidableEq, Repr

/-- What is told of the chain and of the peers. `progress` is the number as "%f" gives it. -/
structure Info where
  hash : Bytes
  height : Nat
  nameRoot : Bytes
  time : Nat
  synced : Bool
  progress : Bytes
  size : Nat
  peers : List Peer
  deriving DecidableEq, Repr

/-- hsk_hesiod_txt_push (src/hesiod.c:11-35). The text has room for 255 bytes (src/dns.h:44-47),
the byte that ends the string included. -/
def txtPush (name text : Bytes) (an : List Rr) : Out Unit (List Rr) :=
  (setName name).bind fun o => if text.length + 1 > 255 then .ub else .ok (Resource.push an ⟨o, 16, 4, 0, some [.txts [text]]⟩)

/-- hsk_hesiod_txt_push_hash (src/hesiod.c:44-50): room for 65 characters. -/
def txtHash (name h : Bytes) (an : List Rr) : Out Unit (List Rr) := txtPush name (hex (h.take 32)) an

/-- The name of a state (src/hesiod.c:81-103). -/
def stateName (n : Nat) : Option Bytes :=
  if n = 0 then some (ascii "HSK_STATE_DISCONNECTED")
  else if n = 2 then some (ascii "HSK_STATE_CONNECTING")
  else if n = 3 then some (ascii "HSK_STATE_CONNECTED")
  else if n = 4 then some (ascii "HSK_STATE_READING")
  else if n = 5 then some (ascii "HSK_STATE_HANDSHAKE")
  else if n = 6 then some (ascii "HSK_STATE_DISCONNECTING")
  else none

/-- hsk_hesiod_txt_push_peer (src/hesiod.c:59-110). -/
def pushPeer (p : Peer) (n : Nat) (an : List Rr) : Out Unit (List Rr) :=
  let sub := dec n ++ ascii ".peers.pool.hnsd."
  (txtPush (ascii "host." ++ sub) p.host an).bind fun an => (txtPush (ascii "agent." ++ sub) p.agent an).bind fun an =>
    (txtPush (ascii "headers." ++ sub) (dec p.headers) an).bind fun an => (txtPush (ascii "proofs." ++ sub) (dec p.proofs) an).bind fun an =>
      match stateName p.state with
      | none => .ok an
      | some s => txtPush (ascii "state." ++ sub) s an

/-- The peers (src/hesiod.c:179-188); the number is a uint16_t. -/
def pushPeers : List Peer → Nat → List Rr → Out Unit (List Rr)
  | [], _, an => .ok an
  | p :: r, n, an => (pushPeer p n an).bind fun an => pushPeers r ((n + 1) % 65536) an

/-- One of the items: it is added if it is at or below the name asked for. -/
def item (q : Bytes) (name : Bytes) (add : List Rr → Out Unit (List Rr)) (an : List Rr) : Out Unit (List Rr) :=
  (isSubdomain q name).bind fun b => if b then add an else .ok an

/-- hsk_hesiod_resolve (src/hesiod.c:112-194). -/
def resolve (I : Info) (q : Bytes) : Out Unit Msg :=
  let n1 := ascii "hash.tip.chain.hnsd."
  let n2 := ascii "height.tip.chain.hnsd."
  let n3 := ascii "name_root.tip.chain.hnsd."
  let n4 := ascii "time.tip.chain.hnsd."
  let n5 := ascii "synced.chain.hnsd."
  let n6 := ascii "progress.chain.hnsd."
  let n7 := ascii "size.pool.hnsd."
  (item q n1 (txtHash n1 I.hash) []).bind fun an =>
  (item q n2 (txtPush n2 (dec I.height)) an).bind fun an =>
  (item q n3 (txtHash n3 I.nameRoot) an).bind fun an =>
  (item q n4 (txtPush n4 (dec I.time)) an).bind fun an =>
  (item q n5 (txtPush n5 (if I.synced then ascii "true" else ascii "false")) an).bind fun an =>
  (item q n6 (txtPush n6 I.progress) an).bind fun an =>
  (item q n7 (txtPush n7 (dec I.size)) an).bind fun an =>
  (item q (ascii "peers.pool.hnsd.") (pushPeers I.peers 0) an).bind fun an =>
  .ok { newMsg with flags := 1024, an := an }

end Verif.Hesiod
