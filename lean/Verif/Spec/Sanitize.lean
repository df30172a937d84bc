import Verif.Base
/-
Names in text as RFC 1035, 5.1, has them: `\DDD` is the octet of that number, `\X` the character X where X is no
digit, and a dot that is not quoted ends a label.
-/
namespace Verif.Spec.Sanitize

inductive Tok
  | octet (b : UInt8) | dot
  deriving DecidableEq, Repr

def digit (b : UInt8) : Option Nat := if 0x30 ≤ b ∧ b ≤ 0x39 then some (b.toNat - 0x30) else none

/-- The token that begins with the character `c`, and what is after it. -/
def one (c : UInt8) (r : Bytes) : Option (Tok × Bytes) :=
  if c = 0x5c then
    match r with
    | [] => none
    | a :: r =>
      match digit a with
      | none => some (.octet a, r)
      | some x =>
        match r with
        | b :: c :: r =>
          match digit b, digit c with
          | some y, some z => if 100 * x + 10 * y + z < 256 then some (.octet (UInt8.ofNat (100 * x + 10 * y + z)), r) else none
          | _, _ => none
        | _ => none
  else if c = 0x2e then some (.dot, r)
  else some (.octet c, r)

/-- The first so many tokens, which have to be all. -/
def toks : Nat → Bytes → Option (List Tok)
  | _, [] => some []
  | 0, _ :: _ => none
  | n + 1, c :: r => (one c r).bind fun p => (toks n p.2).map (p.1 :: ·)

/-- What a text says. -/
def reading (t : Bytes) : Option (List Tok) := toks t.length t

/-- What a name is: the octets of its labels, each label ended by a dot. -/
def spelled (labels : List Bytes) : List Tok := labels.flatMap fun l => l.map Tok.octet ++ [Tok.dot]

/-- The text of an array of characters: what is before the first NUL. -/
def text (out : Bytes) : Bytes := out.takeWhile (· ≠ 0)

/-- A name as the program holds it: 0xfe for a dot within a label, 0xff for a zero (src/dns.c, hsk_dns_name_parse). -/
def held (labels : List Bytes) : Bytes :=
  labels.flatMap fun l => l.map (fun b => if b = 0x2e then 0xfe else if b = 0 then 0xff else b) ++ [0x2e]

/-- A name that fits on the wire. -/
def Fits (labels : List Bytes) : Prop := (∀ l ∈ labels, l.length ≤ 63) ∧ (labels.map fun l => l.length + 1).sum + 1 ≤ 255

end Verif.Spec.Sanitize
