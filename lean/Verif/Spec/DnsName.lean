import Verif.Base
/-
Domain names: a list of labels, its text and its wire form (RFC 1035, 3.1 and 4.1.4). In
text the bytes 0 and '.' of a label stand as 0xff and 0xfe.
-/
namespace Verif.Spec.DnsName

/-- Labels with their dots. -/
def body (ls : List Bytes) : Bytes := (ls.map fun l => l ++ [0x2e]).flatten

/-- Text of a name. -/
def text (ls : List Bytes) : Bytes := if ls = [] then [0x2e] else body ls

/-- Characters as they are sent, and bytes as they are read. -/
def raw (c : UInt8) : UInt8 := if c = 0xff then 0 else if c = 0xfe then 0x2e else c
def shown (b : UInt8) : UInt8 := if b = 0 then 0xff else if b = 0x2e then 0xfe else b

/-- Uncompressed wire form. -/
def wire (ls : List Bytes) : Bytes := (ls.map fun l => UInt8.ofNat l.length :: l.map raw).flatten ++ [0]

def OkLabel (l : Bytes) : Prop := 1 ≤ l.length ∧ l.length ≤ 63 ∧ 0 ∉ l ∧ 0x2e ∉ l

/-- A name this program can hold: at most 255 characters. -/
def OkName (ls : List Bytes) : Prop := (∀ l ∈ ls, OkLabel l) ∧ (text ls).length ≤ 255

/-- `Expands back msg o ls e d`: at offset `o` of the message stands the name `ls`, ending
before `e`, with `d` pointers on the way, each to an earlier place if `back`. -/
inductive Expands (back : Bool) (msg : Bytes) : Nat → List Bytes → Nat → Nat → Prop
  | root {o : Nat} (h : msg[o]? = some 0) : Expands back msg o [] (o + 1) 0
  | label {o : Nat} {l : Bytes} {ls : List Bytes} {e d : Nat} (hl : OkLabel l)
      (h : msg[o]? = some (UInt8.ofNat l.length)) (hb : ((msg.drop (o + 1)).take l.length).map shown = l)
      (hr : Expands back msg (o + 1 + l.length) ls e d) : Expands back msg o (l :: ls) e d
  | pointer {o p : Nat} {a b : UInt8} {ls : List Bytes} {e d : Nat} (ha : msg[o]? = some a) (hb : msg[o + 1]? = some b)
      (hp : a.toNat * 256 + b.toNat = 49152 + p) (hlt : back = true → p < o) (hr : Expands back msg p ls e d) :
      Expands back msg o ls (o + 2) (d + 1)

end Verif.Spec.DnsName
