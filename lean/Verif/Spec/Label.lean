import Verif.Spec.DnsName
import Verif.Spec.Tld
/-
Service labels (RFC 2782, 6698, 7929, 8162) over the labels of a name.
-/
namespace Verif.Spec.Label
open Verif.Spec.Tld

/-- "_x": an underscore and at least one more character. -/
def Underscored (l : Bytes) : Prop := ∃ r, r ≠ [] ∧ l = 0x5f :: r

/-- The value of decimal digits. -/
def decimal (s : Bytes) : Nat := s.foldl (fun w c => w * 10 + (c.toNat - 0x30)) 0

def IsDigit (c : UInt8) : Prop := 0x30 ≤ c.toNat ∧ c.toNat ≤ 0x39

/-- "_443": one to five digits, at most 65535. -/
def PortLabel (l : Bytes) (n : Nat) : Prop :=
  ∃ r, l = 0x5f :: r ∧ 1 ≤ r.length ∧ r.length ≤ 5 ∧ (∀ c ∈ r, IsDigit c) ∧ decimal r = n ∧ n ≤ 65535

def IsHex (c : UInt8) : Prop := IsDigit c ∨ (0x41 ≤ c.toNat ∧ c.toNat ≤ 0x46) ∨ (0x61 ≤ c.toNat ∧ c.toNat ≤ 0x66)

/-- _service._proto.name -/
def Srv (ls : List Bytes) : Prop := ∃ s p n r, ls = s :: p :: n :: r ∧ Underscored s ∧ Underscored p

/-- _port._proto.name -/
def Tlsa (ls : List Bytes) (port : Nat) : Prop := ∃ s p n r, ls = s :: p :: n :: r ∧ PortLabel s port ∧ Underscored p

/-- hash._tag.name with a hash of 28 bytes -/
def Dane (tag : Bytes) (ls : List Bytes) : Prop := ∃ s p n r, ls = s :: p :: n :: r ∧ s.length = 56 ∧ (∀ c ∈ s, IsHex c) ∧ SameName p tag

end Verif.Spec.Label
