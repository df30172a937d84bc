import Verif.Base
/-
Address blocks in prefix notation.
-/
namespace Verif.Spec.Addr

/-- The first `len` bits of the two byte strings (of equal length) agree. -/
def inBlock (ip pre : Bytes) (len : Nat) : Prop :=
  beNat ip / 2 ^ (8 * ip.length - len) = beNat pre / 2 ^ (8 * pre.length - len)

instance (ip pre : Bytes) (len : Nat) : Decidable (inBlock ip pre len) := inferInstanceAs (Decidable (_ = _))

/-- The sixteen bytes of the IPv4 address a.b.c.d, mapped into IPv6. -/
def v4 (a b c d : UInt8) : Bytes := [0, 0, 0, 0, 0, 0, 0, 0, 0, 0, 0xff, 0xff, a, b, c, d]

/-- The sixteen bytes of an IPv6 address given by its first eight, the rest zero. -/
def v6 (a b c d e f g h : UInt8) : Bytes := [a, b, c, d, e, f, g, h, 0, 0, 0, 0, 0, 0, 0, 0]

/-- ::1 -/
def loopback6 : Bytes := [0, 0, 0, 0, 0, 0, 0, 0, 0, 0, 0, 0, 0, 0, 0, 1]

/-- Blocks no node can have: the unspecified addresses, the broadcast address, the
documentation block 2001:db8::/32, and IPv4 shifted by three bytes. -/
def invalidBlocks : List (Bytes × Nat) :=
  [(v4 0 0 0 0, 128), (v6 0 0 0 0 0 0 0 0, 128), (v4 255 255 255 255, 128),
   (v6 0x20 0x01 0x0d 0xb8 0 0 0 0, 32), ([0, 0, 0, 0, 0, 0, 0, 0xff, 0xff, 0, 0, 0, 0, 0, 0, 0], 72)]

/-- Private, link-local, shared, benchmark, documentation, overlay and loopback blocks. -/
def reservedBlocks : List (Bytes × Nat) :=
  [(v4 10 0 0 0, 104), (v4 192 168 0 0, 112), (v4 172 16 0 0, 108),
   (v4 198 18 0 0, 111), (v4 169 254 0 0, 112), (v4 100 64 0 0, 106),
   (v4 192 0 2 0, 120), (v4 198 51 100 0, 120), (v4 203 0 113 0, 120),
   (v6 0xfe 0x80 0 0 0 0 0 0, 64), (v6 0x20 0x01 0 0x10 0 0 0 0, 28),
   (v4 127 0 0 0, 112), (loopback6, 128)]

/-- fc00::/7 -/
def uniqueLocal : Bytes × Nat := (v6 0xfc 0 0 0 0 0 0 0, 7)
/-- fd87:d87e:eb43::/48, Tor addresses inside it. -/
def onion : Bytes × Nat := (v6 0xfd 0x87 0xd8 0x7e 0xeb 0x43 0 0, 48)

end Verif.Spec.Addr
