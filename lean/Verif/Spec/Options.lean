import Verif.Model.Options
/-
What the options on the command line mean.
-/
namespace Verif.Spec.Options
open Verif.Options
open Verif.Addr (Inet Sa)

/-- The value of a hexadecimal digit. -/
inductive Hex : UInt8 → Nat → Prop
  | num (d : Nat) (h : d < 10) : Hex (UInt8.ofNat (0x30 + d)) d
  | upper (d : Nat) (h : d < 6) : Hex (UInt8.ofNat (0x41 + d)) (10 + d)
  | lower (d : Nat) (h : d < 6) : Hex (UInt8.ofNat (0x61 + d)) (10 + d)

/-- The text is the bytes, two digits each. -/
inductive HexText : Bytes → Bytes → Prop
  | nil : HexText [] []
  | cons {a b : UInt8} {x y : Nat} {s r : Bytes} (ha : Hex a x) (hb : Hex b y) (h : HexText s r) :
      HexText (a :: b :: s) (UInt8.ofNat (16 * x + y) :: r)

/-- Decimal digits. -/
def isDigit (c : UInt8) : Prop := 0x30 ≤ c.toNat ∧ c.toNat ≤ 0x39

/-- The number written with the digits. -/
def value (ds : Bytes) : Nat := ds.foldl (fun n c => 10 * n + (c.toNat - 0x30)) 0

/-- Space, tab, line feed, vertical tab, form feed, carriage return. -/
def isBlank (c : UInt8) : Prop := c = 0x20 ∨ (0x09 ≤ c.toNat ∧ c.toNat ≤ 0x0d)

/-- The text starts with a decimal number, after blanks and a sign: what follows the number is not
a digit. -/
structure Number (s : Bytes) (v : Int) : Prop where
  parts : ∃ blanks sign ds rest : Bytes, s = blanks ++ sign ++ ds ++ rest ∧ (∀ c ∈ blanks, isBlank c) ∧
    (sign = [] ∨ sign = [0x2b] ∨ sign = [0x2d]) ∧ (∀ c ∈ ds, isDigit c) ∧ (∀ c, rest.head? = some c → ¬ isDigit c) ∧
    (sign = [] → ds = [] → ∀ c, rest.head? = some c → ¬ isBlank c ∧ c ≠ 0x2b ∧ c ≠ 0x2d) ∧
    v = if sign = [0x2d] then -(value ds : Int) else value ds

/-- The option says something the program accepts. -/
def Fine (I : Inet) : Item → Prop
  | .lost => False
  | .bad => False
  | .opt c arg =>
    c = 0x74 ∨ c = 0x64 ∨
    (c ≠ 0x76 ∧ c ≠ 0x68 ∧ ∃ s, arg = some s ∧ s ≠ [] ∧
      (c = 0x6e → ∃ a, saFromString I s 5349 = .ok a) ∧ (c = 0x72 → ∃ a, saFromString I s 5350 = .ok a) ∧
      (c = 0x69 → ∃ a, saFromString I s 0 = .ok a) ∧
      (c = 0x70 → ∃ v : Int, Number s v ∧ 1 ≤ v ∧ v ≤ 1000) ∧ (c = 0x6b → ∃ k, k.length = 32 ∧ HexText s k))

/-- The number of the option does not exceed an `int`. -/
def NoOverflow : Item → Prop
  | .opt c (some s) => c = 0x70 → ∀ v : Int, Number s v → -2 ^ 31 ≤ v ∧ v < 2 ^ 31
  | _ => True

/-- The argument of the last option with the letter. -/
def last (c : UInt8) (items : List Item) : Option Bytes :=
  items.foldl (fun r x => match x with | .opt d (some s) => if d = c then some s else r | _ => r) none

/-- Some option has the letter. -/
def has (c : UInt8) (items : List Item) : Prop := ∃ arg, Item.opt c arg ∈ items

/-- How the process ends at an option it does not accept. -/
def exitOf : Item → Exit
  | .opt c _ => if c = 0x76 then .version else if c = 0x68 then .help 0 else .help 1
  | _ => .help 1

/-- The options of the run are what the options on the command line say, the last one with a letter
deciding; the defaults are 127.0.0.1 with ports 5349 and 5350, and eight peers. -/
structure Means (I : Inet) (items : List Item) (o : Opts) : Prop where
  config : o.config.map (·.text) = last 0x63 items
  rsConfig : o.rsConfig.map (·.text) = last 0x75 items
  seeds : o.seeds.map (·.text) = last 0x73 items
  userAgent : o.userAgent.map (·.text) = last 0x61 items
  pre : o.pre.map (·.text) = last 0x78 items
  nsHost : (∃ s, last 0x6e items = some s ∧ saFromString I s 5349 = .ok o.nsHost) ∨
    (last 0x6e items = none ∧ o.nsHost = .in4 [127, 0, 0, 1] 5349)
  rsHost : (∃ s, last 0x72 items = some s ∧ saFromString I s 5350 = .ok o.rsHost) ∨
    (last 0x72 items = none ∧ o.rsHost = .in4 [127, 0, 0, 1] 5350)
  nsIp : (∃ s, last 0x69 items = some s ∧ saFromString I s 0 = .ok o.nsIp) ∨ (last 0x69 items = none ∧ o.nsIp = o.nsHost)
  poolSize : (∃ s, last 0x70 items = some s ∧ Number s o.poolSize ∧ 1 ≤ o.poolSize ∧ o.poolSize ≤ 1000) ∨
    (last 0x70 items = none ∧ o.poolSize = 8)
  key : (∃ s, last 0x6b items = some s ∧ o.key.isSome ∧ o.key_.length = 32 ∧ HexText s o.key_) ∨ (last 0x6b items = none ∧ o.key = none)
  checkpoint : o.checkpoint = true ↔ has 0x74 items

end Verif.Spec.Options
