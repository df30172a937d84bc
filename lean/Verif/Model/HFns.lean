import Verif.Model.HMap
import Verif.Model.Addr
/-
The hash and equality functions the tables of the program are made with (src/map.c, src/addr.c,
src/cache.c).
-/
namespace Verif.HMap

/-- `__h_rotl32` (src/map.c:621). -/
def rotl (w b : UInt32) : UInt32 := (w <<< b) ||| (w >>> (32 - b))

/-- The mixing of one word (src/map.c:628-630, 645-647). -/
def mixWord (k : UInt32) : UInt32 := rotl (k * 0xcc9e2d51) 15 * 0x1b873593

/-- The loop over whole words and the switch on the rest (src/map.c:623-649). The shift of a byte
above 127 by 24 places overflows int, which compilers define; it is taken as the 32-bit shift. -/
def mixAll : UInt32 → Bytes → UInt32
  | h, a :: b :: c :: d :: l =>
    let k := d.toUInt32 <<< 24 ||| c.toUInt32 <<< 16 ||| b.toUInt32 <<< 8 ||| a.toUInt32
    mixAll (rotl (h ^^^ mixWord k) 13 * 5 + 0xe6546b64) l
  | h, [a, b, c] => h ^^^ mixWord (c.toUInt32 <<< 16 ^^^ b.toUInt32 <<< 8 ^^^ a.toUInt32)
  | h, [a, b] => h ^^^ mixWord (b.toUInt32 <<< 8 ^^^ a.toUInt32)
  | h, [a] => h ^^^ mixWord a.toUInt32
  | h, [] => h

/-- hsk_map_murmur3 (src/map.c:610-661). -/
def murmur3 (data : Bytes) (seed : UInt32) : UInt32 :=
  let h := mixAll seed data ^^^ UInt32.ofNat data.length
  let h := (h ^^^ h >>> 16) * 0x85ebca6b
  let h := (h ^^^ h >>> 13) * 0xc2b2ae35
  h ^^^ h >>> 16

/-- hsk_map_tweak3 (src/map.c:663-672). -/
def tweak3 (data : Bytes) (n tweak : UInt32) : UInt32 := murmur3 data (n * 0xfba4c795 + tweak)

/-- hsk_map_hash_hash and hsk_map_equal_hash (src/map.c:588-597): of what a pointer leads to, the
first 32 bytes. -/
def hashFns : Fns Bytes := ⟨fun k => murmur3 (k.take 32) 0xfba4c795, fun a b => a.take 32 == b.take 32⟩

/-- hsk_map_hash_int (src/map.c:571-581). -/
def hashInt (x : UInt32) : UInt32 :=
  let h := x + ~~~(x <<< 15)
  let h := h ^^^ h >>> 10
  let h := h + h <<< 3
  let h := h ^^^ h >>> 6
  let h := h + ~~~(h <<< 11)
  h ^^^ h >>> 16

/-- hsk_map_hash_int and hsk_map_equal_int (src/map.c:571-586). -/
def intFns : Fns UInt32 := ⟨hashInt, fun a b => a == b⟩

/-- A string: the bytes before the first NUL (src/map.c:560, 568). -/
def cstr (s : Bytes) : Bytes := s.takeWhile (· ≠ 0)

/-- hsk_map_hash_str and hsk_map_equal_str (src/map.c:554-569); `char` is signed, as on x86. -/
def strFns : Fns Bytes :=
  ⟨fun s => (cstr s).foldl (fun h c => h <<< 5 + h + (if c.toNat < 128 then c.toUInt32 else c.toUInt32 - 256)) 5381,
   fun a b => cstr a == cstr b⟩

/-- hsk_addr_hash and hsk_addr_equal (src/addr.c:633-657). -/
def addrFns : Fns Addr.Addr := ⟨fun a => tweak3 a.ip (UInt32.ofNat (a.type + 1)) (UInt32.ofNat a.port), Addr.equal⟩

/-- hsk_cache_key_t (src/cache.h:18-23); `name` is the first `name_len` bytes. -/
structure CacheKey where
  name : Bytes
  type : Nat
  ref : Bool

/-- hsk_cache_key_hash and hsk_cache_key_equal (src/cache.c:223-256). -/
def cacheFns : Fns CacheKey :=
  ⟨fun k => if k.ref then tweak3 k.name 2 1 else tweak3 k.name 1 (UInt32.ofNat k.type),
   fun x y =>
    if x.ref ≠ y.ref then false
    else if !x.ref && x.type ≠ y.type then false
    else if x.name.length ≠ y.name.length then false
    else if x.name ≠ y.name then false
    else true⟩

end Verif.HMap
