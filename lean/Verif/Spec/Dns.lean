import Verif.Model.Dns
import Verif.Spec.DnsName
/-
Well-formed messages, and where questions and records stand in a packet (RFC 1035, 4.1).
-/
namespace Verif.Spec.Dns
open Verif.Dns Verif.Spec.DnsName

/-- A valid name of at most ten labels. -/
def GoodName (s : Bytes) : Prop := ∃ ls, OkName ls ∧ ls.length ≤ 10 ∧ s = text ls

/-- A value its field can hold. -/
def GoodVal : Field → Val → Prop
  | .u8, .num n => n < 256
  | .u16, .num n => n < 65536
  | .u32, .num n => n < 4294967296
  | .name, .name s => GoodName s
  | .fixed n, .bytes b => b.length = n
  | .rest, .bytes _ => True
  | .txts, .txts ts => ts.length ≤ 255 ∧ ∀ b ∈ ts, b.length ≤ 255
  | .data8, .bytes b => b.length ≤ 255
  | _, _ => False

def GoodVals : List Field → List Val → Prop
  | [], [] => True
  | f :: fs, v :: vs => GoodVal f v ∧ GoodVals fs vs
  | _, _ => False

/-- Bytes a value takes without compression. -/
def valSize : Field → Val → Nat
  | .u8, _ => 1
  | .u16, _ => 2
  | .u32, _ => 4
  | .name, .name s => if s = [0x2e] then 1 else s.length + 1
  | .fixed n, _ => n
  | .rest, .bytes b => b.length
  | .txts, .txts ts => (ts.map fun b => 1 + b.length).sum
  | .data8, .bytes b => 1 + b.length
  | _, _ => 0

def valsSize : List Field → List Val → Nat
  | f :: fs, v :: vs => valSize f v + valsSize fs vs
  | _, _ => 0

structure GoodQs (q : Qs) : Prop where
  name : GoodName q.name
  type : q.type < 65536
  cls : q.cls < 65536

/-- The question that comes first: a valid name, of any number of labels. -/
structure FirstQs (q : Qs) : Prop where
  name : ∃ ls, OkName ls ∧ q.name = text ls
  type : q.type < 65536
  cls : q.cls < 65536

structure GoodRr (r : Rr) : Prop where
  name : GoodName r.name
  type : r.type < 65536
  cls : r.cls < 65536
  ttl : r.ttl < 4294967296
  rd : ∃ vs, r.rd = some vs ∧ GoodVals (readLayout r.type) vs ∧ valsSize (readLayout r.type) vs < 65536

/-- A well-formed message: everything is in range, the flags hold the opcode and the low bits of
the code, and the EDNS data holds its high bits. -/
structure GoodMsg (m : Msg) : Prop where
  id : m.id < 65536
  flags : m.flags < 65536
  opcode : m.flags / 2048 % 16 = m.opcode
  code : m.flags % 16 = m.code % 16
  qd : m.qd.length ≤ 255 ∧ (∀ q ∈ m.qd.take 1, FirstQs q) ∧ ∀ q ∈ m.qd.drop 1, GoodQs q
  an : m.an.length ≤ 255 ∧ ∀ r ∈ m.an, GoodRr r
  ns : m.ns.length ≤ 255 ∧ ∀ r ∈ m.ns, GoodRr r
  ar : m.ar.length ≤ 255 ∧ ∀ r ∈ m.ar, GoodRr r ∧ r.type ≠ 41
  edns : if m.edns.enabled then
      m.edns.version < 256 ∧ m.edns.flags < 65536 ∧ m.edns.size < 65536 ∧ m.edns.code < 256 ∧ m.edns.rd.length < 65536 ∧ m.code / 16 = m.edns.code
    else m.edns = ⟨false, 0, 0, 512, 0, []⟩ ∧ m.code < 16

/-- The message with its first `k` questions and records, in the order of the sections, and
without EDNS data. -/
def firstRecords (m : Msg) (k : Nat) : Msg :=
  { m with
    code := m.code % 16
    qd := m.qd.take k
    an := m.an.take (k - m.qd.length)
    ns := m.ns.take (k - m.qd.length - m.an.length)
    ar := m.ar.take (k - m.qd.length - m.an.length - m.ns.length)
    edns := ⟨false, 0, 0, 512, 0, []⟩ }

/-- How many questions and records there are, not counting EDNS data. -/
def records (m : Msg) : Nat := m.qd.length + m.an.length + m.ns.length + m.ar.length

/-- What a name field can hold: a C string in 256 bytes. A name other than the root does not
start with a dot. -/
def FieldName (s : Bytes) : Prop := s.length ≤ 255 ∧ (s.head? ≠ some 0x2e ∨ s = [0x2e])

/-- What a field can hold. -/
def FieldVal : Field → Val → Prop
  | .u8, .num n => n < 256
  | .u16, .num n => n < 65536
  | .u32, .num n => n < 4294967296
  | .name, .name s => FieldName s
  | .fixed n, .bytes b => b.length = n
  | .rest, .bytes _ => True
  | .txts, .txts ts => ts.length ≤ 255 ∧ ∀ b ∈ ts, b.length ≤ 255
  | .data8, .bytes b => b.length ≤ 255
  | _, _ => False

def FieldVals : List Field → List Val → Prop
  | [], [] => True
  | f :: fs, v :: vs => FieldVal f v ∧ FieldVals fs vs
  | _, _ => False

/-- Any message the program can hold: nothing is said about the contents of the names, nor about sizes. -/
structure HeldMsg (m : Msg) : Prop where
  qd : ∀ q ∈ m.qd, FieldName q.name
  an : ∀ r ∈ m.an, FieldName r.name ∧ ∀ vs, r.rd = some vs → FieldVals (writeLayout r.type) vs
  ns : ∀ r ∈ m.ns, FieldName r.name ∧ ∀ vs, r.rd = some vs → FieldVals (writeLayout r.type) vs
  ar : ∀ r ∈ m.ar, FieldName r.name ∧ ∀ vs, r.rd = some vs → FieldVals (writeLayout r.type) vs

/-- A value that can be read from a packet: names may have any number of labels. -/
def ReadVal : Field → Val → Prop
  | .u8, .num n => n < 256
  | .u16, .num n => n < 65536
  | .u32, .num n => n < 4294967296
  | .name, .name s => ∃ ls, OkName ls ∧ s = text ls
  | .fixed n, .bytes b => b.length = n
  | .rest, .bytes _ => True
  | .txts, .txts ts => ts.length ≤ 255 ∧ ∀ b ∈ ts, b.length ≤ 255
  | .data8, .bytes b => b.length ≤ 255
  | _, _ => False

def ReadVals : List Field → List Val → Prop
  | [], [] => True
  | f :: fs, v :: vs => ReadVal f v ∧ ReadVals fs vs
  | _, _ => False

structure ReadRr (r : Rr) : Prop where
  name : ∃ ls, OkName ls ∧ r.name = text ls
  type : r.type < 65536
  cls : r.cls < 65536
  ttl : r.ttl < 4294967296
  rd : ∃ vs, r.rd = some vs ∧ ReadVals (readLayout r.type) vs

/-- EDNS data as it can be read. -/
def ReadEdns (e : Edns) : Prop := e = ⟨false, 0, 0, 512, 0, []⟩ ∨ e.enabled = true ∧ e.version < 256 ∧ e.flags < 65536 ∧ e.size < 65536 ∧ e.code < 256

/-- What a decoded message can hold. -/
structure ReadMsg (m : Msg) : Prop where
  id : m.id < 65536
  flags : m.flags < 65536
  opcode : m.opcode = m.flags / 2048 % 16
  qd : m.qd.length ≤ 255 ∧ ∀ q ∈ m.qd, FirstQs q
  an : m.an.length ≤ 255 ∧ ∀ r ∈ m.an, ReadRr r
  ns : m.ns.length ≤ 255 ∧ ∀ r ∈ m.ns, ReadRr r
  ar : m.ar.length ≤ 255 ∧ ∀ r ∈ m.ar, ReadRr r ∧ r.type ≠ 41
  edns : ReadEdns m.edns

/-- At `o` stands a question (`q`) or a record, ending before `e`. -/
inductive Stands (msg : Bytes) : Bool → Nat → Nat → Prop
  | question {o e d : Nat} {ls : List Bytes} (h : Expands false msg o ls e d) (hd : d ≤ 10) (hl : OkName ls) (he : e + 4 ≤ msg.length) :
      Stands msg true o (e + 4)
  | record {o e d : Nat} {ls : List Bytes} {a b : UInt8} (h : Expands false msg o ls e d) (hd : d ≤ 10) (hl : OkName ls)
      (ha : msg[e + 8]? = some a) (hb : msg[e + 9]? = some b) (he : e + 10 + (a.toNat * 256 + b.toNat) ≤ msg.length) :
      Stands msg false o (e + 10 + (a.toNat * 256 + b.toNat))

/-- Questions and records one after another. -/
inductive Row (msg : Bytes) : List Bool → Nat → Nat → Prop
  | nil {o : Nat} : Row msg [] o o
  | cons {q : Bool} {qs : List Bool} {o p e : Nat} (h : Stands msg q o p) (hr : Row msg qs p e) : Row msg (q :: qs) o e

end Verif.Spec.Dns
