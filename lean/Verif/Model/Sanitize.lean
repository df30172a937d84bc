import Verif.Model.Words
/-
Model of hsk_dns_name_sanitize (src/dns.c), which makes a name readable. The daemon does not call it.
-/
namespace Verif.Sanitize
open Verif.Words

/-- What is written for a character of the name (src/dns.c:2438-2470). -/
def piece (c : UInt8) : Bytes :=
  if c = 0xfe then [0x5c, 0x2e]
  else if c ∈ ([0x28, 0x29, 0x3b, 0x20, 0x40, 0x22, 0x5c] : Bytes) then [0x5c, c]
  else
    let c := if c = 0xff then 0x00 else c
    if c < 0x20 ∨ c > 0x7e then [0x5c, c / 100 + 0x30, c / 10 + 0x30, c % 10 + 0x30] else [c]

/-- The loop from `off` on, and the NUL after it (src/dns.c:2437-2475), on what is left of the name before its
NUL. -/
def loop : Bytes → Nat → Bytes → Out Unit Bytes
  | [], off, out => memcpy out off [0]
  | c :: s, off, out =>
    if off < 1009 then (memcpy out off (piece c)).bind fun out => loop s (off + (piece c).length) out
    else memcpy out off [0]

/-- hsk_dns_name_sanitize (src/dns.c:2432-2476); `out` is the caller's array, with what is in it before. -/
def sanitize (name out : Bytes) : Out Unit Bytes := loop name 0 out

end Verif.Sanitize
