import Verif.Model.Addr
/-
Where the resolver finds the name server of the same process.
-/
namespace Verif.Spec.Stub
open Verif.Addr (Inet Sa)

/-- The number that decimal digits denote. -/
def value (s : Bytes) : Nat := s.foldl (fun n c => 10 * n + (c.toNat - 48)) 0

/-- The text "address@port" denotes an address and a port. -/
def Denotes (I : Inet) (text : Bytes) (s : Sa) : Prop :=
  ∃ host port : Bytes, text = host ++ 0x40 :: port ∧ (∀ c ∈ host, c ≠ 0x40) ∧ (∀ c ∈ port, 48 ≤ c.toNat ∧ c.toNat ≤ 57) ∧ port ≠ [] ∧
    match s with
    | .in4 ip p => I.pton4 host = some ip ∧ value port = p
    | .in6 ip p => I.pton4 host = none ∧ I.pton6 host = some ip ∧ value port = p

/-- An address of IPv4, where one can reach who listens at it: at "any" by the loopback. -/
def reach4 (ip : Bytes) : Bytes := if ip = [0, 0, 0, 0] then [127, 0, 0, 1] else ip

/-- The same for a socket's address. Mapped addresses are those of IPv4. -/
def reach : Sa → Sa
  | .in4 ip p => .in4 (reach4 ip) p
  | .in6 ip p =>
    if ip.take 12 = [0, 0, 0, 0, 0, 0, 0, 0, 0, 0, 0xff, 0xff] then .in4 (reach4 (ip.drop 12)) p
    else .in6 (if ip = List.replicate 16 0 then List.replicate 15 0 ++ [1] else ip) p

/-- An address of IPv4 or IPv6 with a port. -/
def Ok : Sa → Prop
  | .in4 ip p => ip.length = 4 ∧ p < 65536
  | .in6 ip p => ip.length = 16 ∧ p < 65536

def port : Sa → Nat
  | .in4 _ p => p
  | .in6 _ p => p

/-- Addresses of Tor, fd87:d87e:eb43::/48. -/
def Tor : Sa → Prop
  | .in4 _ _ => False
  | .in6 ip _ => ip.take 6 = [0xfd, 0x87, 0xd8, 0x7e, 0xeb, 0x43]

end Verif.Spec.Stub
