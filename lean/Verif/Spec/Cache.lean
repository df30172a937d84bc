import Verif.Spec.Label
import Verif.Spec.Req
import Verif.Model.Cache
/-
Which queries share a cache entry, and histories.
-/
namespace Verif.Spec.Cache
open Verif.Spec.DnsName Verif.Spec.Tld Verif.Spec.Label

/-- A digit of base32hex, in either case. -/
def IsB32 (c : UInt8) : Prop := IsDigit c ∨ (0x41 ≤ c.toNat ∧ c.toNat ≤ 0x56) ∨ (0x61 ≤ c.toNat ∧ c.toNat ≤ 0x76)

/-- A label that has the form of a synthesised address: 7 characters for IPv4, 26 or 27 for IPv6. -/
def PtrLabel (l : Bytes) : Prop := ∃ t, l = 0x5f :: t ∧ (t.length = 7 ∨ t.length = 26 ∨ t.length = 27) ∧ ∀ c ∈ t, IsB32 c

/-- Queries that are answered for themselves, not by a referral for the last label. -/
def Own (ls : List Bytes) (type : Nat) : Prop :=
  ls.length ≤ 1 ∨ (∃ a b, ls = [a, b] ∧ PtrLabel a) ∨
  (ls.length = 3 ∧ ((type = 33 ∧ Srv ls) ∨ (type = 52 ∧ ∃ port, Tlsa ls port) ∨ (type = 53 ∧ Dane "_smimecert".toUTF8.toList ls) ∨
    (type = 61 ∧ Dane "_openpgpkey".toUTF8.toList ls)))

/-- Lists of the same labels, up to case. -/
def SameLabels (a b : List Bytes) : Prop := a.length = b.length ∧ ∀ i, SameName (a.getD i []) (b.getD i [])

/-- Two queries share an entry: the same name and type; or for referrals the same last label. -/
def SameEntry (ls : List Bytes) (type : Nat) (ls' : List Bytes) (type' : Nat) : Prop :=
  (Own ls type ∧ Own ls' type' ∧ SameLabels ls ls' ∧ type = type') ∨
  (¬ Own ls type ∧ ¬ Own ls' type' ∧ SameName (ls.getLast?.getD []) (ls'.getLast?.getD []))

/-- Names from packets, but for "_x.y". -/
def GoodQuery (ls : List Bytes) : Prop := OkName ls ∧ ∀ c b, ls ≠ [[0x5f, c], b]

/-- Histories: names from packets other than "_x.y", and clocks that do not overflow. -/
def Good : Cache.Op → Prop
  | .insert _ now' name _ _ => (∃ ls, GoodQuery ls ∧ name = text ls) ∧ now' < 2 ^ 62
  | .get _ name _ => ∃ ls, GoodQuery ls ∧ name = text ls

end Verif.Spec.Cache
