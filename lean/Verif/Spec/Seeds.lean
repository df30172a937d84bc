import Verif.Model.Seeds
/-
Lists of seeds, and what becomes of each.
-/
namespace Verif.Spec.Seeds
open Verif.Addr (Inet Addr)
open Verif.Addrman (Man Key keyOf)
open Verif.Seeds (Env addAddr)

/-- The pieces of a text between commas. -/
def pieces : Bytes → List Bytes
  | [] => [[]]
  | c :: s => if c = 0x2c then [] :: pieces s else match pieces s with
    | [] => [[c]]
    | p :: ps => (c :: p) :: ps

/-- The text is not that of an address. -/
def Bad (I : Inet) (p : Bytes) : Prop := p ≠ [] ∧ (p.length ≥ 128 ∨ ∀ a, Addr.fromString I p 0 ≠ .ok a)

/-- The text is that of the address. -/
def Reads (I : Inet) (p : Bytes) (a : Addr) : Prop := p ≠ [] ∧ p.length < 128 ∧ Addr.fromString I p 0 = .ok a

/-- What the pieces do, up to the first that is refused. -/
inductive Fed (e : Env) : Nat → Man → List Bytes → Man → Prop
  | done (k : Nat) (m : Man) : Fed e k m [] m
  | empty {k : Nat} {m m' : Man} {ps : List Bytes} (h : Fed e k m ps m') : Fed e k m ([] :: ps) m'
  | bad {k : Nat} {m : Man} {p : Bytes} {ps : List Bytes} (h : Bad e.I p) : Fed e k m (p :: ps) m
  | known {k : Nat} {m m' : Man} {p : Bytes} {ps : List Bytes} {a : Addr} (hr : Reads e.I p a) (ha : addAddr e k m a = .ok (m', false)) :
      Fed e k m (p :: ps) m'
  | added {k : Nat} {m m' m'' : Man} {p : Bytes} {ps : List Bytes} {a : Addr} (hr : Reads e.I p a) (ha : addAddr e k m a = .ok (m', true))
      (h : Fed e (k + 1) m' ps m'') : Fed e k m (p :: ps) m''

/-- The manager knows the address, and may connect to it. -/
def Knows (m : Man) (a : Addr) : Prop := ∃ x ∈ m.addrs, keyOf x.addr = keyOf a ∧ x.addr.key = a.key ∧ x.removed = false

/-- The conversions of the system refuse texts with commas. -/
def NoCommas (I : Inet) : Prop := ∀ s, 0x2c ∈ s → I.pton4 s = none ∧ I.pton6 s = none

end Verif.Spec.Seeds
