import Verif.Base
/-
A DNS message as header, additional count and body, and the same message with a SIG(0)
record at its end.
-/
namespace Verif.Spec.Sig0

/-- A DNS message: the first ten bytes of the header, the additional count, the rest. -/
structure Parts where
  head : Bytes
  arcount : Nat
  body : Bytes

structure Parts.WF (p : Parts) : Prop where
  head : p.head.length = 10
  arcount : p.arcount < 65536

def Parts.bytes (p : Parts) : Bytes := p.head ++ beBytes 2 p.arcount ++ p.body

/-- The fields of a SIG(0) record that can vary. -/
structure Rec where
  algorithm : UInt8
  labels : UInt8
  origTtl : Nat
  expiration : Nat
  inception : Nat
  keyTag : Nat
  signer : UInt8
  sig : Bytes

structure Rec.WF (r : Rec) : Prop where
  origTtl : r.origTtl < 2 ^ 32
  expiration : r.expiration < 2 ^ 32
  inception : r.inception < 2 ^ 32
  keyTag : r.keyTag < 2 ^ 16
  sig : r.sig.length = 64

/-- The record data before the signature. -/
def Rec.fields (r : Rec) : Bytes :=
  beBytes 2 0 ++ [r.algorithm, r.labels] ++ beBytes 4 r.origTtl ++ beBytes 4 r.expiration ++ beBytes 4 r.inception ++
    beBytes 2 r.keyTag ++ [r.signer]

/-- Owner `.`, type SIG (24), class ANY (255), TTL 0, 83 bytes of data, type covered 0. -/
def Rec.bytes (r : Rec) : Bytes :=
  [0] ++ beBytes 2 24 ++ beBytes 2 255 ++ beBytes 4 0 ++ beBytes 2 83 ++ (r.fields ++ r.sig)

/-- The message `p` with the record `r` added and counted. -/
def withRecord (p : Parts) (r : Rec) : Bytes := p.head ++ beBytes 2 (p.arcount + 1) ++ p.body ++ r.bytes

/-- `w` is `p` with `r`. -/
def IsSigned (w : Bytes) (p : Parts) (r : Rec) : Prop := p.WF ∧ p.arcount + 1 < 65536 ∧ r.WF ∧ w = withRecord p r

/-- The message without its SIG(0) record, if it has one. -/
inductive Plain (w : Bytes) (p : Parts) : Prop
  | signed (r : Rec) (h : IsSigned w p r)
  | unsigned (wf : p.WF) (h : w = p.bytes) (no : ∀ q r, ¬ IsSigned w q r)

/-- The record made when signing at `now`. -/
def recordAt (now : Int) (sig : Bytes) : Rec :=
  { algorithm := 253, labels := 0, origTtl := 0, expiration := ((now + 6 * 60 * 60) % 2 ^ 32).toNat,
    inception := ((now - 6 * 60 * 60) % 2 ^ 32).toNat, keyTag := 0, signer := 0, sig := sig }

/-- What is signed: the record without the signature, and the message without the record. -/
def signedData (p : Parts) (r : Rec) : Bytes := r.fields ++ p.bytes

end Verif.Spec.Sig0
