import Verif.Spec.Dns
import Verif.Spec.Tld
import Verif.Model.Req
/-
Requests and their responses.
-/
namespace Verif.Spec.Req
open Verif.Dns Verif.Req Verif.Spec.DnsName Verif.Spec.Dns

/-- Printable ASCII without space, parentheses, semicolon, at sign, quote and backslash. -/
def Clean (s : Bytes) : Prop := ∀ c ∈ s, 0x21 ≤ c.toNat ∧ c.toNat ≤ 0x7e ∧ c ∉ [0x28, 0x29, 0x3b, 0x40, 0x22, 0x5c]

instance (s : Bytes) : Decidable (Clean s) := by unfold Clean; infer_instance

/-- The size a client can take: what it says, between 512 and 4096. -/
def clientSize (e : Edns) : Nat := if e.enabled then max 512 (min 4096 e.size) else 512

/-- A message that is a query for one question `q`, the name of which has the labels `ls`. -/
structure Query (m : Msg) (q : Qs) (ls : List Bytes) : Prop where
  opcode : m.opcode = 0
  code : m.code = 0
  qd : m.qd = [q]
  an : m.an = []
  ns : m.ns = []
  name : q.name = text ls
  ok : OkName ls
  tld : Clean (ls.getLast?.getD [])

/-- What is known of a query. -/
structure Asks (m : Msg) (q : Qs) (ls : List Bytes) (r : Req) : Prop where
  id : r.id = m.id
  labels : r.labels = ls.length
  name : r.name = q.name
  type : r.type = q.type
  cls : r.cls = q.cls
  rd : r.rd = m.flags.testBit 8
  cd : r.cd = m.flags.testBit 4
  ad : r.ad = m.flags.testBit 5
  edns : r.edns = m.edns.enabled
  maxSize : r.maxSize = clientSize m.edns
  dnssec : r.dnssec = m.edns.flags.testBit 15
  tld : r.tld.map UInt8.toNat = (ls.getLast?.getD []).map Verif.Spec.Tld.fold

/-- An answer of a resolver: its own id, question and EDNS data do not matter. -/
structure Answer (m : Msg) : Prop where
  flags : m.flags < 65536
  opcode : m.opcode < 16
  code : m.code < 16
  an : m.an.length ≤ 255 ∧ ∀ r ∈ m.an, GoodRr r
  ns : m.ns.length ≤ 255 ∧ ∀ r ∈ m.ns, GoodRr r
  ar : m.ar.length ≤ 255 ∧ ∀ r ∈ m.ar, GoodRr r ∧ r.type ≠ 41

/-- DS, DLV, DNSKEY, RRSIG, NXT, NSEC, NSEC3, NSEC3PARAM. -/
def dnssecTypes : List Nat := [43, 32769, 48, 46, 30, 47, 50, 51]

/-- The records of `l` for a client: DNSSEC records only if it wants DNSSEC or asked for them,
or for ANY from a recursive server. -/
def forClient (r : Req) (ra : Bool) (l : List Rr) : List Rr :=
  l.filter fun x => r.dnssec || (ra && r.type = 255) || x.type = r.type || x.type ∉ dnssecTypes

/-- The complete response `n` to `r` with the answer `m`. -/
structure Response (m : Msg) (r : Req) (n : Msg) : Prop where
  id : n.id = r.id
  qr : n.flags.testBit 15 = true
  rd : n.flags.testBit 8 = (m.flags.testBit 8 || r.rd)
  cd : n.flags.testBit 4 = (m.flags.testBit 4 || r.cd)
  other : ∀ i ∈ [5, 6, 7, 9, 10], n.flags.testBit i = m.flags.testBit i
  opcode : n.opcode = m.opcode
  code : n.code = m.code
  qd : n.qd = [⟨if Clean r.name then r.name else [0x2e], r.type, r.cls⟩]
  an : n.an = forClient r (m.flags.testBit 7) m.an
  ns : n.ns = forClient r (m.flags.testBit 7) m.ns
  ar : n.ar = forClient r (m.flags.testBit 7) m.ar
  edns : n.edns = if r.edns then ⟨true, 0, if r.dnssec then 32768 else 0, 4096, 0, []⟩ else ⟨false, 0, 0, 512, 0, []⟩

/-- What is sent of the complete response `n` if `limit` bytes can be: all of it, or else its
first `k` questions and records, the question at least, and as many as fit. -/
def Sent (n : Msg) (limit : Nat) (s : Msg) : Prop :=
  s = n ∨ ∃ k, 1 ≤ k ∧ k ≤ records n ∧ s = firstRecords n k ∧ (∀ b, encode n = .ok b → limit < b.length) ∧
    ∀ k', k < k' → k' ≤ records n → ∀ b, encode (firstRecords n k') = .ok b → limit < b.length

end Verif.Spec.Req
