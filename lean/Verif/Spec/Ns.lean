import Verif.Spec.Cache
import Verif.Spec.Resource
import Verif.Model.Ns
/-
Where a query is answered from, and what the answers hold.
-/
namespace Verif.Spec.Ns
open Verif.Dns Verif.Resource Verif.Spec.DnsName Verif.Spec.Tld Verif.Spec.Resource
open Verif.Hesiod (Info Peer)

/-- The bytes of a string. -/
def str (s : String) : Bytes := s.toList.map fun c => UInt8.ofNat c.toNat

/-- Top-level names of other systems. -/
def reserved : List String := ["bit", "eth", "exit", "gnu", "i2p", "onion", "tor", "zkey"]

/-- The last label; of the root, none. -/
def tldOf (ls : List Bytes) : Bytes := ls.getLast?.getD []

def IsReserved (ls : List Bytes) : Prop := ls ≠ [] ∧ ∃ s ∈ reserved, SameName (tldOf ls) (str s)

/-- "_synth", or a label below it. -/
def IsSynth (ls : List Bytes) : Prop := ls.length ≤ 2 ∧ SameName (tldOf ls) (str "_synth")

/-- Where queries are answered from. -/
inductive Source
  | about
  | nobody
  | synth
  | root
  | reserved
  | pool
  deriving DecidableEq

/-- Where a query that the cache does not answer is answered from: texts of class HS from what the
server knows about itself, for local clients only; then the synthesised names, the root, and
the reserved names; anything else from the network. -/
inductive Goes (loc : Prop) (cls type : Nat) (ls : List Bytes) : Source → Prop
  | about (h : cls = 4 ∧ type = 16) (l : loc) : Goes loc cls type ls .about
  | nobody (h : cls = 4 ∧ type = 16) (l : ¬ loc) : Goes loc cls type ls .nobody
  | synth (h : ¬ (cls = 4 ∧ type = 16)) (s : IsSynth ls) : Goes loc cls type ls .synth
  | root (h : ¬ (cls = 4 ∧ type = 16)) (e : ls = []) : Goes loc cls type ls .root
  | reserved (h : ¬ (cls = 4 ∧ type = 16)) (r : IsReserved ls) : Goes loc cls type ls .reserved
  | pool (h : ¬ (cls = 4 ∧ type = 16)) (e : ls ≠ []) (s : ¬ IsSynth ls) (r : ¬ IsReserved ls) : Goes loc cls type ls .pool

/-- The clients that are local: those at 127.0.x.x, also as an IPv4-mapped address, and ::1. -/
def Loopback : Addr.Sa → Prop
  | .in4 ip _ => ip.take 2 = [127, 0]
  | .in6 ip _ => ip = List.replicate 15 0 ++ [1] ∨ ip.take 14 = List.replicate 10 0 ++ [0xff, 0xff, 127, 0]

/-- An address as sockets give it. -/
def GoodSa : Addr.Sa → Prop
  | .in4 ip port => ip.length = 4 ∧ port < 65536
  | .in6 ip port => ip.length = 16 ∧ port < 65536

/-- Keys, signatures and hashes have the sizes of P-256 and SHA-256. -/
structure SignOk (E : Dnssec.Env) : Prop where
  keys : KeyOk E
  sig : ∀ priv d g, E.ecdsa priv d = some g → g.length = 64
  hash : ∀ d, (E.H d).length = 32

/-- The packet `w` is the response to `r` with the answer `m` (C27, C28). -/
def Carries (r : Req.Req) (m : Msg) (w : Bytes) : Prop :=
  ∃ n s, Spec.Req.Response m r n ∧ Dns.decode w = .ok s ∧ w.length ≤ r.maxSize ∧ Spec.Req.Sent n r.maxSize s

/-! ### Denials -/

/-- The signed second section of a denial: records that say which types there are, and the SOA. -/
def Denies (E : Dnssec.Env) (nsecs : List Rr) (ns : List Rr) : Prop :=
  ∃ sg sg', Signs E nsecs 47 sg ∧ Signs E (nsecs ++ sg ++ [soaOf (serial E.now)]) 6 sg' ∧ ns = nsecs ++ sg ++ [soaOf (serial E.now)] ++ sg'

/-- The types in a bitmap of an NSEC record (RFC 4034, 4.1.2). -/
def bits (base : Nat) : Bytes → List Nat
  | [] => []
  | b :: r => ((List.range 8).filter fun i => b.toNat.testBit (7 - i)).map (base + ·) ++ bits (base + 8) r

def mapTypes : Nat → Bytes → List Nat
  | 0, _ => []
  | f + 1, w :: n :: r => bits (w.toNat * 256) (r.take n.toNat) ++ mapTypes f (r.drop n.toNat)
  | _ + 1, _ => []

/-- No name: authoritative, code 3, nothing else there in the root but what it must have. -/
structure NxMsg (E : Dnssec.Env) (m : Msg) : Prop where
  code : m.code = 3
  opcode : m.opcode = 0
  flags : m.flags = 1024
  an : m.an = []
  ar : m.ar = []
  ns : ∃ map, Denies E [nsecOf [0x2e] map, nsecOf [0x2e] map] m.ns ∧ mapTypes 1 map = [2, 6, 46, 47, 48] ∧ map.length = 9

/-! ### The root -/

def nsOf : Rr := ⟨[0x2e], 2, 1, 518400, some [.name [0x2e]]⟩

/-- The address of the server. -/
inductive AddrRrs (E : Dnssec.Env) (a : Addr.Addr) : List Rr → Prop
  | v4 (sg : List Rr) (h : Addr.isMapped a = true) (s : Signs E [⟨[0x2e], 1, 1, 518400, some [.bytes ((a.ip.drop 12).take 4)]⟩] 1 sg) :
      AddrRrs E a ([⟨[0x2e], 1, 1, 518400, some [.bytes ((a.ip.drop 12).take 4)]⟩] ++ sg)
  | v6 (sg : List Rr) (h : Addr.isMapped a = false) (h' : Addr.isOnion a = false) (s : Signs E [⟨[0x2e], 28, 1, 518400, some [.bytes (a.ip.take 16)]⟩] 28 sg) :
      AddrRrs E a ([⟨[0x2e], 28, 1, 518400, some [.bytes (a.ip.take 16)]⟩] ++ sg)
  | other (h : Addr.isMapped a = false) (h' : Addr.isOnion a = true) : AddrRrs E a []

def keyOf (flags : Nat) (pub : Bytes) : Rr := ⟨[0x2e], 48, 1, 10800, some [.num flags, .num 3, .num 13, .bytes pub]⟩

/-- What there is in the root: name servers, SOA, keys and DS record; and else that there is
nothing. -/
structure RootMsg (E : Dnssec.Env) (a : Addr.Addr) (type : Nat) (m : Msg) : Prop where
  code : m.code = 0
  opcode : m.opcode = 0
  flags : m.flags = 1024
  ns : type = 2 ∨ type = 255 → m.ns = [] ∧ AddrRrs E a m.ar ∧ ∃ sg, Signs E [nsOf] 2 sg ∧ m.an = [nsOf] ++ sg
  soa : type = 6 → AddrRrs E a m.ar ∧ (∃ sg, Signs E [soaOf (serial E.now)] 6 sg ∧ m.an = [soaOf (serial E.now)] ++ sg) ∧ ∃ sg, Signs E [nsOf] 2 sg ∧ m.ns = [nsOf] ++ sg
  keys : type = 48 → m.ns = [] ∧ m.ar = [] ∧ ∃ k z sg, E.pubkey Dnssec.kskPriv = some k ∧ E.pubkey Dnssec.zskPriv = some z ∧
    Dnssec.signKsk E [keyOf 257 k, keyOf 256 z] 48 = .ok ([keyOf 257 k, keyOf 256 z] ++ sg) ∧ sg.length ≤ 1 ∧ (∀ r ∈ sg, r.type = 46) ∧ m.an = [keyOf 257 k, keyOf 256 z] ++ sg
  ds : type = 43 → m.ns = [] ∧ m.ar = [] ∧ ∃ d sg, Dnssec.ds E = .ok d ∧ d.type = 43 ∧ Signs E [d] 43 sg ∧ m.an = [d] ++ sg
  other : type ∉ [2, 255, 6, 48, 43] → m.an = [] ∧ m.ar = [] ∧ ∃ map, Denies E [nsecOf [0x2e] map] m.ns ∧ mapTypes 1 map = [2, 6, 46, 47, 48]

/-! ### Synthesised names -/

/-- The label `l` stands for the address `ip`: "_" and, in base32, its bits and fewer than eight more. -/
def Names (l ip : Bytes) : Prop := (ip.length = 4 ∨ ip.length = 16) ∧
  ∃ (t : Bytes) (syms dropped : List Nat), l = 0x5f :: t ∧ t.map Spec.Base32.lower = syms.map (fun i => Base32.charsetHex.getD i 0) ∧ (∀ i ∈ syms, i < 32) ∧
    syms.flatMap (fun i => [i / 16 % 2, i / 8 % 2, i / 4 % 2, i / 2 % 2, i % 2]) = Spec.Base32.bits ip ++ dropped ∧ dropped.length < 8

/-- The type of the record for an address. -/
def addrType (ip : Bytes) : Nat := if ip.length = 4 then 1 else 28

/-- A name from a packet as it is put into a response: the root if it has unusual characters. -/
def shown (ls : List Bytes) : Bytes := if Spec.Req.Clean (text ls) then text ls else [0x2e]

/-- The answer for a synthesised name. The bitmap of a denial is that of `maps`. -/
inductive SynthMsg (E : Dnssec.Env) (maps : Nat → Bytes) (type : Nat) : List Bytes → Msg → Prop
  | tld {tld : Bytes} {m : Msg} (h : m.code = 0 ∧ m.opcode = 0 ∧ m.flags = 0 ∧ m.an = [] ∧ m.ar = []) (ns : Denies E [nsecOf (str "_synth.") []] m.ns) :
      SynthMsg E maps type [tld] m
  | none {l tld : Bytes} {m : Msg} (h : ∀ ip, ¬ Names l ip) (e : m.code = 0 ∧ m.opcode = 0 ∧ m.flags = 0 ∧ m.an = [] ∧ m.ns = [] ∧ m.ar = []) :
      SynthMsg E maps type [l, tld] m
  | addr {l tld ip : Bytes} {m : Msg} (h : Names l ip) (ht : type = 255 ∨ type = addrType ip)
      (e : m.code = 0 ∧ m.opcode = 0 ∧ m.flags = 1024 ∧ m.an = [⟨shown [l, tld], addrType ip, 1, 21600, some [.bytes ip]⟩] ∧ m.ns = [] ∧ m.ar = []) :
      SynthMsg E maps type [l, tld] m
  | other {l tld ip : Bytes} {m : Msg} (h : Names l ip) (ht : ¬ (type = 255 ∨ type = addrType ip)) (e : m.code = 0 ∧ m.opcode = 0 ∧ m.flags = 0 ∧ m.an = [] ∧ m.ar = [])
      (ns : Denies E [nsecOf (shown [l, tld]) (maps (addrType ip))] m.ns) : SynthMsg E maps type [l, tld] m

/-- Names below "_synth" that the code can look at: see `C31_overrun_false`, `C46_overrun_false`. -/
def SafeSynth (ls : List Bytes) : Prop := ∀ l tld, ls = [l, tld] → SameName tld (str "_synth") → l.length ≤ 55 ∧ l.length ≠ 29

/-! ### What the server says about itself -/

def digits (n : Nat) : Bytes := (Nat.toDigits 10 n).map fun c => UInt8.ofNat c.toNat

/-- A byte as two hexadecimal digits. -/
def hexByte (c : UInt8) : Bytes := [(str "0123456789abcdef").getD (c.toNat / 16) 0, (str "0123456789abcdef").getD (c.toNat % 16) 0]

def states : List (Nat × String) := [(0, "HSK_STATE_DISCONNECTED"), (2, "HSK_STATE_CONNECTING"), (3, "HSK_STATE_CONNECTED"), (4, "HSK_STATE_READING"),
  (5, "HSK_STATE_HANDSHAKE"), (6, "HSK_STATE_DISCONNECTING")]

/-- What is told of the peer at position `n`: the first label and the text. -/
def aboutPeer (p : Peer) (n : Nat) : List (List Bytes × Bytes) :=
  ([(str "host", p.host), (str "agent", p.agent), (str "headers", digits p.headers), (str "proofs", digits p.proofs)] ++
    ((states.filter fun s => s.1 = p.state).map fun s => (str "state", str s.2))).map
  fun x => ([x.1, digits n, str "peers", str "pool", str "hnsd"], x.2)

/-- What there is to tell: below each name, items with a name and a text. -/
def about (I : Info) : List (List Bytes × List (List Bytes × Bytes)) :=
  let one (ls : List Bytes) (t : Bytes) := (ls, [(ls, t)])
  [one [str "hash", str "tip", str "chain", str "hnsd"] (I.hash.flatMap hexByte),
   one [str "height", str "tip", str "chain", str "hnsd"] (digits I.height),
   one [str "name_root", str "tip", str "chain", str "hnsd"] (I.nameRoot.flatMap hexByte),
   one [str "time", str "tip", str "chain", str "hnsd"] (digits I.time),
   one [str "synced", str "chain", str "hnsd"] (if I.synced then str "true" else str "false"),
   one [str "progress", str "chain", str "hnsd"] I.progress,
   one [str "size", str "pool", str "hnsd"] (digits I.size),
   ([str "peers", str "pool", str "hnsd"], (I.peers.zipIdx.map fun x => aboutPeer x.1 x.2).flatten)]

/-- Information that fits its fields. -/
structure GoodInfo (I : Info) : Prop where
  hash : I.hash.length = 32
  nameRoot : I.nameRoot.length = 32
  height : I.height < 2 ^ 64
  time : I.time < 2 ^ 64
  size : I.size < 2 ^ 64
  progress : I.progress.length ≤ 64
  peers : I.peers.length ≤ 49
  each : ∀ p ∈ I.peers, p.host.length ≤ 254 ∧ p.agent.length ≤ 254 ∧ p.headers < 2 ^ 64 ∧ p.proofs < 2 ^ 64

/-- The answer to a question about the server: every item at or below the name, as a text of
class HS that is not to be kept. -/
structure AboutMsg (I : Info) (q : List Bytes) (m : Msg) : Prop where
  code : m.code = 0
  opcode : m.opcode = 0
  flags : m.flags = 1024
  ns : m.ns = []
  ar : m.ar = []
  an : m.an = (((about I).filter fun g => q.isSuffixOf g.1).map fun g => g.2.map fun x => (⟨text x.1, 16, 4, 0, some [.txts [x.2]]⟩ : Rr)).flatten

/-! ### What is done about a query -/

/-- What is done about a query that is answered from a source. The pool may refuse the question;
it is asked for the last label, in lower case. -/
def Acts (S : Verif.Ns.Server) (I : Info) (accepts : Bool) (maps : Nat → Bytes) (ls : List Bytes) (r : Req.Req) : Source → Verif.Ns.Act → Prop
  | .about, a => ∃ m w, AboutMsg I ls m ∧ Carries r m w ∧ a = .send w
  | .nobody, a => a = .nothing
  | .synth, a => ∃ m w, SynthMsg S.E maps r.type ls m ∧ Carries r m w ∧ a = .send w
  | .root, a => ∃ m w, RootMsg S.E S.ip r.type m ∧ Carries r m w ∧ a = .send w
  | .reserved, a => ∃ m w, NxMsg S.E m ∧ Carries r m w ∧ a = .send w
  | .pool, a => if accepts then a = .ask ((tldOf ls).map Spec.Base32.lower) else ∃ w, Carries r toServfail w ∧ a = .send w

/-- The packet `w` for an answer of which nothing is known: that the server failed takes its place if
it cannot be put into a packet. -/
def Delivers (S : Verif.Ns.Server) (now : Int) (r : Req.Req) (m : Msg) (w : Bytes) : Prop :=
  (Spec.Req.Answer m → Carries r m w) ∧
  (Req.finalize S.H none now m r = .ok w ∨ Req.finalize S.H none now m r = .err () ∧ Carries r toServfail w)

/-- What the server does with the cache: answers for synthesised names are not kept. -/
def Kept : Cache.Op → Prop
  | .insert _ _ name _ _ => ∀ ls, OkName ls → name = text ls → ¬ IsSynth ls
  | .get _ _ _ => True

/-- The cache after a history. -/
def Reach (c : Cache.Cache) : Prop := ∃ ops, (∀ o ∈ ops, Spec.Cache.Good o ∧ Kept o) ∧ Cache.run [] ops = .ok c

/-- Events that do not lead the code out of its bounds: any packet but queries for "_x.y" and the
names that `SafeSynth` leaves out; and, for any query that goes to the pool, a resource, data
that cannot be decoded, or none. -/
def GoodEvent : Verif.Ns.Event → Prop
  | .packet I ck _ sa b => GoodInfo I ∧ ck.ins' < 2 ^ 62 ∧ GoodSa sa ∧ ∀ d q ls, Dns.decode b = .ok d → Spec.Req.Query d q ls → Spec.Cache.GoodQuery ls ∧ SafeSynth ls
  | .resolved ck r _ _ data => ck.ins' < 2 ^ 62 ∧ (∃ b d q ls, Dns.decode b = .ok d ∧ Spec.Req.Query d q ls ∧ Spec.Req.Asks d q ls r ∧ Spec.Cache.GoodQuery ls ∧ ls ≠ [] ∧ ¬ IsSynth ls) ∧
      (data = [] ∨ (∃ rs, Encodes data rs ∧ rs.length ≤ 255) ∨ Resource.decode data = .err ())

end Verif.Spec.Ns
