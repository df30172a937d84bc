import Verif.Spec.DnsName
import Verif.Spec.Base32
import Verif.Spec.Req
import Verif.Model.Resource
/-
The resource format of Handshake, version 0, and what a response must hold.
-/
namespace Verif.Spec.Resource
open Verif.Dns Verif.Resource Verif.Spec.DnsName

/-- The bytes `b` stand at offset `o`. -/
def BytesAt (d : Bytes) (o : Nat) (b : Bytes) : Prop := (d.drop o).take b.length = b

/-- The name with text `n` stands at offset `o`, ending before `e`. Pointers are offsets in the
resource. -/
def NameAt (d : Bytes) (o : Nat) (n : Bytes) (e : Nat) : Prop := ∃ ls k, Expands false d o ls e k ∧ k ≤ 10 ∧ OkName ls ∧ n = text ls

/-- The record `r` stands at offset `o`, ending before `e`. -/
inductive RecAt (d : Bytes) : Nat → Rec → Nat → Prop
  | ds {o tag alg dt : Nat} {dig : Bytes} (h1 : tag < 65536) (h2 : alg < 256) (h3 : dt < 256) (h4 : dig.length ≤ 64)
      (h : BytesAt d o ([0] ++ beBytes 2 tag ++ [UInt8.ofNat alg, UInt8.ofNat dt, UInt8.ofNat dig.length] ++ dig)) : RecAt d o (.ds tag alg dt dig) (o + 6 + dig.length)
  | ns {o e : Nat} {n : Bytes} (h : BytesAt d o [1]) (hn : NameAt d (o + 1) n e) : RecAt d o (.ns n) e
  | glue4 {o e : Nat} {n ip : Bytes} (h : BytesAt d o [2]) (hn : NameAt d (o + 1) n e) (hl : ip.length = 4) (hi : BytesAt d e ip) : RecAt d o (.glue4 n ip) (e + 4)
  | glue6 {o e : Nat} {n ip : Bytes} (h : BytesAt d o [3]) (hn : NameAt d (o + 1) n e) (hl : ip.length = 16) (hi : BytesAt d e ip) : RecAt d o (.glue6 n ip) (e + 16)
  | synth4 {o : Nat} {ip : Bytes} (hl : ip.length = 4) (h : BytesAt d o (4 :: ip)) : RecAt d o (.synth4 ip) (o + 5)
  | synth6 {o : Nat} {ip : Bytes} (hl : ip.length = 16) (h : BytesAt d o (5 :: ip)) : RecAt d o (.synth6 ip) (o + 17)
  | txt {o : Nat} {ts : List Bytes} (h1 : ts.length ≤ 255) (h2 : ∀ t ∈ ts, t.length ≤ 255)
      (h : BytesAt d o ([6, UInt8.ofNat ts.length] ++ (ts.map fun t => UInt8.ofNat t.length :: t).flatten)) :
      RecAt d o (.txt ts true) (o + 2 + (ts.map fun t => UInt8.ofNat t.length :: t).flatten.length)

/-- Records up to the end. -/
inductive RecsAt (d : Bytes) : Nat → List Rec → Prop
  | nil : RecsAt d d.length []
  | cons {o e : Nat} {r : Rec} {rs : List Rec} (h : RecAt d o r e) (hr : RecsAt d e rs) : RecsAt d o (r :: rs)

/-- The bytes `d` are a resource of version 0 with the records `rs`. -/
def Encodes (d : Bytes) (rs : List Rec) : Prop := BytesAt d 0 [0] ∧ RecsAt d 1 rs

/-- Values as they can stand in a resource. -/
def GoodRec : Rec → Prop
  | .ds tag alg dt dig => tag < 65536 ∧ alg < 256 ∧ dt < 256 ∧ dig.length ≤ 64
  | .ns n => ∃ ls, OkName ls ∧ n = text ls
  | .glue4 n ip => (∃ ls, OkName ls ∧ n = text ls) ∧ ip.length = 4
  | .glue6 n ip => (∃ ls, OkName ls ∧ n = text ls) ∧ ip.length = 16
  | .synth4 ip => ip.length = 4
  | .synth6 ip => ip.length = 16
  | .txt ts whole => whole = true ∧ ts.length ≤ 255 ∧ ∀ t ∈ ts, t.length ≤ 255

/-! ### Responses -/

/-- The name for an address: "_", its base32 text, and "._synth.". -/
def synthOf (ip : Bytes) : Bytes := [0x5f] ++ Spec.Base32.text Base32.charsetHex ip false ++ [0x2e, 0x5f, 0x73, 0x79, 0x6e, 0x74, 0x68, 0x2e]

/-- The name server a record gives. -/
def targetOf : Rec → Option Bytes
  | .ns n => some n
  | .glue4 n _ => some n
  | .glue6 n _ => some n
  | .synth4 ip => some (synthOf ip)
  | .synth6 ip => some (synthOf ip)
  | _ => none

/-- NS records for all name servers. -/
def nsSet (owner : Bytes) (rs : List Rec) : List Rr := rs.filterMap fun r => (targetOf r).map fun n => ⟨owner, 2, 1, 21600, some [.name n]⟩

/-- DS records. -/
def dsSet (owner : Bytes) (rs : List Rec) : List Rr := rs.filterMap fun
  | .ds tag alg dt dig => some ⟨owner, 43, 1, 21600, some [.num tag, .num alg, .num dt, .bytes dig]⟩
  | _ => none

/-- TXT records. -/
def txtSet (owner : Bytes) (rs : List Rec) : List Rr := rs.filterMap fun
  | .txt ts _ => some ⟨owner, 16, 1, 21600, some [.txts ts]⟩
  | _ => none

/-- The name `n` is the name `owner` or below it. -/
def inZone (owner n : Bytes) : Bool := decide (n = owner) || decide ((0x2e :: owner) <:+ n)

/-- Addresses: of the name servers in the zone, and of the synthesised ones. -/
def glueSet (owner : Bytes) (rs : List Rec) : List Rr := rs.filterMap fun
  | .glue4 n ip => if inZone owner n then some ⟨n, 1, 1, 21600, some [.bytes ip]⟩ else none
  | .glue6 n ip => if inZone owner n then some ⟨n, 28, 1, 21600, some [.bytes ip]⟩ else none
  | .synth4 ip => some ⟨synthOf ip, 1, 1, 21600, some [.bytes ip]⟩
  | .synth6 ip => some ⟨synthOf ip, 28, 1, 21600, some [.bytes ip]⟩
  | _ => none

/-- The name server names in the zone have ordinary characters. -/
def CleanGlue (owner : Bytes) (rs : List Rec) : Prop := ∀ r ∈ rs, match r with
  | .glue4 n _ => inZone owner n = true → Spec.Req.Clean n
  | .glue6 n _ => inZone owner n = true → Spec.Req.Clean n
  | _ => True

/-- Some record gives a name server. -/
def HasNs (rs : List Rec) : Prop := ∃ r ∈ rs, targetOf r ≠ none

/-- There are keys, of 64 bytes. -/
structure KeyOk (E : Dnssec.Env) : Prop where
  zsk : ∃ pub, E.pubkey Dnssec.zskPriv = some pub ∧ pub.length = 64
  ksk : ∃ pub, E.pubkey Dnssec.kskPriv = some pub ∧ pub.length = 64

/-- `sg` is what signing the records of a type with the key of the zone adds to a section (C45):
at most one record, an RRSIG. -/
def Signs (E : Dnssec.Env) (sec : List Rr) (type : Nat) (sg : List Rr) : Prop :=
  Dnssec.signZsk E sec type = .ok (sec ++ sg) ∧ sg.length ≤ 1 ∧ ∀ r ∈ sg, r.type = 46

/-- The records of a denial. -/
def nsecOf (owner map : Bytes) : Rr := ⟨owner, 47, 1, 86400, some [.name [0x2e], .bytes map]⟩
def soaOf (serial : Nat) : Rr := ⟨[0x2e], 6, 1, 86400, some [.name [0x2e], .name [0x2e], .num serial, .num 1800, .num 900, .num 604800, .num 86400]⟩

/-- The second and third section where nothing is answered from the resource: all name servers,
the DS records and the addresses; or else that there is nothing, and who says so. What is
signed are the DS records if there are any. -/
def Authority (E : Dnssec.Env) (owner : Bytes) (glue : List Rr) (rs : List Rec) (ns ar : List Rr) : Prop :=
  (HasNs rs ∧ ∃ sg, Signs E (nsSet owner rs ++ dsSet owner rs) (if dsSet owner rs ≠ [] then 43 else 2) sg ∧
    ns = nsSet owner rs ++ dsSet owner rs ++ sg ∧ ar = glue) ∨
  (¬ HasNs rs ∧ ∃ sg sg', Signs E [nsecOf owner []] 47 sg ∧ Signs E ([nsecOf owner []] ++ sg ++ [soaOf (serial E.now)]) 6 sg' ∧
    ns = [nsecOf owner []] ++ sg ++ [soaOf (serial E.now)] ++ sg' ∧ ar = [])

/-- The response for the name itself: DS and TXT records in the first section, with the
authoritative flag; name servers in the second, without it; and otherwise as below the name. -/
def Direct (E : Dnssec.Env) (owner : Bytes) (glue : List Rr) (rs : List Rec) (type : Nat) (m : Msg) : Prop :=
  ((type = 43 ∧ dsSet owner rs ≠ [] ∧ ∃ sg, Signs E (dsSet owner rs) 43 sg ∧ m.code = 0 ∧ m.flags = 1024 ∧ m.an = dsSet owner rs ++ sg ∧ m.ns = [] ∧ m.ar = []) ∨
   (type = 16 ∧ txtSet owner rs ≠ [] ∧ ∃ sg, Signs E (txtSet owner rs) 16 sg ∧ m.code = 0 ∧ m.flags = 1024 ∧ m.an = txtSet owner rs ++ sg ∧ m.ns = [] ∧ m.ar = []) ∨
   (type = 2 ∧ nsSet owner rs ≠ [] ∧ ∃ sg, Signs E (nsSet owner rs) 2 sg ∧ m.code = 0 ∧ m.flags = 0 ∧ m.an = [] ∧ m.ns = nsSet owner rs ++ sg ∧ m.ar = glue)) ∨
  (¬ (type = 43 ∧ dsSet owner rs ≠ []) ∧ ¬ (type = 16 ∧ txtSet owner rs ≠ []) ∧ ¬ (type = 2 ∧ nsSet owner rs ≠ []) ∧
    m.code = 0 ∧ m.flags = 0 ∧ m.an = [] ∧ Authority E owner glue rs m.ns m.ar)

end Verif.Spec.Resource
