import Verif.Spec.Dns
import Verif.Model.Dnssec
/-
Canonical form and order of record sets (RFC 4034, 3.1.8.1, 6.2 and 6.3), and key tags (RFC
4034, appendix B).
-/
namespace Verif.Spec.Dnssec
open Verif.Dns Verif.Dnssec Verif.Spec.DnsName Verif.Spec.Dns

/-- Lower case of an ASCII letter. -/
def low (c : UInt8) : UInt8 := if 0x41 ≤ c ∧ c ≤ 0x5a then c + 0x20 else c

/-- Types with names that have no significant case: NS, CNAME, SOA, PTR, MX, RRSIG, SRV, DNAME. -/
def caselessTypes : List Nat := [2, 5, 6, 12, 15, 46, 33, 39]

def lowVal : Val → Val
  | .name s => .name (s.map low)
  | v => v

/-- Canonical form of a record. -/
def canon (r : Rr) : Rr :=
  { r with name := r.name.map low, rd := if r.type ∈ caselessTypes then r.rd.map (fun vs => vs.map lowVal) else r.rd }

/-- Canonical form of a record with the TTL of its set. -/
def canonAt (ttl : Nat) (r : Rr) : Rr := { canon r with ttl := ttl }

/-- A record that can be sent. -/
structure WholeRr (r : Rr) : Prop where
  read : ReadRr r
  size : ∀ vs, r.rd = some vs → valsSize (readLayout r.type) vs < 65536

/-- A record set: records of one owner, type, class and TTL. -/
structure RrSet (name : Bytes) (type cls ttl : Nat) (rs : List Rr) : Prop where
  some : rs ≠ []
  whole : ∀ r ∈ rs, WholeRr r
  name : ∀ r ∈ rs, r.name.map low = name.map low
  type : ∀ r ∈ rs, r.type = type
  cls : ∀ r ∈ rs, r.cls = cls
  ttl : ∀ r ∈ rs, r.ttl = ttl

/-- The same records, up to order, repetition and case. -/
def SameSet (rs rs' : List Rr) : Prop := ∀ c, (∃ r ∈ rs, canon r = c) ↔ ∃ r ∈ rs', canon r = c

/-- The bytes of a value, names in full. -/
def ValBytes : Field → Val → Bytes → Prop
  | .u8, .num n, b => b = [UInt8.ofNat n]
  | .u16, .num n, b => b = beBytes 2 n
  | .u32, .num n, b => b = beBytes 4 n
  | .name, .name s, b => ∃ ls, OkName ls ∧ s = text ls ∧ b = wire ls
  | .fixed _, .bytes x, b => b = x
  | .rest, .bytes x, b => b = x
  | .txts, .txts ts, b => b = (ts.map fun t => UInt8.ofNat t.length :: t).flatten
  | .data8, .bytes x, b => b = UInt8.ofNat x.length :: x
  | _, _, _ => False

def ValsBytes : List Field → List Val → Bytes → Prop
  | [], [], b => b = []
  | f :: fs, v :: vs, b => ∃ x y, ValBytes f v x ∧ ValsBytes fs vs y ∧ b = x ++ y
  | _, _, _ => False

/-- A record, the bytes of its data and all its bytes. -/
structure Row where
  rr : Rr
  rd : Bytes
  bytes : Bytes

structure IsRow (x : Row) : Prop where
  rd : ∃ vs, x.rr.rd = some vs ∧ ValsBytes (readLayout x.rr.type) vs x.rd
  bytes : ∃ ls, OkName ls ∧ x.rr.name = text ls ∧
    x.bytes = wire ls ++ beBytes 2 x.rr.type ++ beBytes 2 x.rr.cls ++ beBytes 4 x.rr.ttl ++ beBytes 2 x.rd.length ++ x.rd

/-- The first part of what is signed: the data of the RRSIG record without the signature. -/
def SigBytes (s : Rrsig) (b : Bytes) : Prop :=
  ∃ ls, OkName ls ∧ s.signer.map low = text ls ∧
    b = beBytes 2 s.typeCovered ++ [UInt8.ofNat s.algorithm, UInt8.ofNat s.labels] ++ beBytes 4 s.origTtl ++ beBytes 4 s.expiration ++ beBytes 4 s.inception ++
      beBytes 2 s.keyTag ++ wire ls

/-- Ranges of the fields of an RRSIG record, and a valid signer. -/
structure SigOk (s : Rrsig) : Prop where
  typeCovered : s.typeCovered < 65536
  algorithm : s.algorithm < 256
  labels : s.labels < 256
  origTtl : s.origTtl < 4294967296
  expiration : s.expiration < 4294967296
  inception : s.inception < 4294967296
  keyTag : s.keyTag < 65536
  signer : ∃ ls, OkName ls ∧ s.signer = text ls

/-- A qsort: what it gives has the same elements, in the order of the record data. -/
def Sorts (qsort : List Bytes → List Bytes) : Prop :=
  ∀ l, (∀ b ∈ l, ∃ k, rawKey b = .ok k) → (qsort l).Perm l ∧ (qsort l).Pairwise fun a b => ∀ c, rawCmp a b = .ok c → c ≤ 0

/-- The sum of big-endian 16-bit words. -/
def words : Bytes → Nat
  | [] => 0
  | [a] => a.toNat * 256
  | a :: b :: s => a.toNat * 256 + b.toNat + words s

end Verif.Spec.Dnssec
