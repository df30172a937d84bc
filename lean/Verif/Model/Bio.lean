import Verif.Base
/-
Model of `src/bio.h`: cursor-based readers and writers.

A cursor `(uint8_t **data, size_t *data_len)` is modelled by the list of bytes still
unread, i.e. `*data_len` is taken to be exactly the number of valid bytes at `*data`
(the precondition all callers rely on). `false` returns are `Out.err ()`.
Allocation is assumed to succeed. Only the little-endian-host branch is modelled
(the big-endian branch is the same function of the bytes).
-/
namespace Verif.Bio

-- A reader consumes a prefix of the cursor.
scoped notation:max "Rd " α:max => Out Unit (α × Bytes)

/-- bio.h:178-185 `read_bytes` (also 168-175 `slice_bytes`, 188-205 `alloc_bytes`):
length guard, copy of `size` bytes, cursor advance. -/
def readBytes (size : Nat) (s : Bytes) : Rd Bytes :=
  if s.length < size then .err ()
  else do
    let b ← memSlice s 0 size
    pure (b, s.drop size)

/-- bio.h:11-18 `read_u8`. -/
def readU8 (s : Bytes) : Rd Nat :=
  if s.length < 1 then .err ()
  else do
    let b ← memGet s 0
    pure (b.toNat, s.drop 1)

/-- bio.h:21-34 `read_u16` (little endian). -/
def readU16 (s : Bytes) : Rd Nat :=
  if s.length < 2 then .err ()
  else do
    let b ← memSlice s 0 2
    pure (leNat b, s.drop 2)

/-- bio.h:37-52 `read_u32` (little endian). -/
def readU32 (s : Bytes) : Rd Nat :=
  if s.length < 4 then .err ()
  else do
    let b ← memSlice s 0 4
    pure (leNat b, s.drop 4)

/-- bio.h:55-74 `read_u64` (little endian). -/
def readU64 (s : Bytes) : Rd Nat :=
  if s.length < 8 then .err ()
  else do
    let b ← memSlice s 0 8
    pure (leNat b, s.drop 8)

/-- bio.h:97-110 `read_u16be`. -/
def readU16be (s : Bytes) : Rd Nat :=
  if s.length < 2 then .err ()
  else do
    let b ← memSlice s 0 2
    pure (beNat b, s.drop 2)

/-- bio.h:113-128 `read_u32be`. -/
def readU32be (s : Bytes) : Rd Nat :=
  if s.length < 4 then .err ()
  else do
    let b ← memSlice s 0 4
    pure (beNat b, s.drop 4)

/-- bio.h:271-277 `write_u8` (value truncated to 8 bits by the parameter type). -/
def writeU8 (n : Nat) : Bytes := leBytes 1 n
/-- bio.h:280-291 `write_u16`. -/
def writeU16 (n : Nat) : Bytes := leBytes 2 n
/-- bio.h:294-307 `write_u32`. -/
def writeU32 (n : Nat) : Bytes := leBytes 4 n
/-- bio.h:310-327 `write_u64`. -/
def writeU64 (n : Nat) : Bytes := leBytes 8 n
/-- bio.h:350-361 `write_u16be`. -/
def writeU16be (n : Nat) : Bytes := beBytes 2 n
/-- bio.h:364-377 `write_u32be`. -/
def writeU32be (n : Nat) : Bytes := beBytes 4 n

/-- bio.h:424-477 `read_varint`. The guard tests the *pointer* `data_len == 0`, which
is never null, so an empty cursor is not rejected: the first byte is read out of
bounds. -/
def readVarint (s : Bytes) : Rd Nat := do
  let prefix_ ← memGet s 0
  let s := s.drop 1
  if prefix_ = 0xff then do
    let (v, s) ← readU64 s
    if v ≤ 0xffffffff then .err () else pure (v, s)
  else if prefix_ = 0xfe then do
    let (v, s) ← readU32 s
    if v ≤ 0xffff then .err () else pure (v, s)
  else if prefix_ = 0xfd then do
    let (v, s) ← readU16 s
    if v < 0xfd then .err () else pure (v, s)
  else
    pure (prefix_.toNat, s)

/-- bio.h:480-492 `read_varsize` (64-bit `size_t`): `(int32_t)v < 0` is refused, i.e.
bit 31 of the value must be clear; higher bits are not looked at. -/
def readVarsize (s : Bytes) : Rd Nat := do
  let (v, s) ← readVarint s
  if v % 2 ^ 32 ≥ 2 ^ 31 then .err () else pure (v, s)

/-- bio.h:495-506 `size_varint`: the C return type is `bool`, so every size becomes 1. -/
def sizeVarint (value : Nat) : Nat :=
  let asBool (n : Nat) : Nat := if n = 0 then 0 else 1
  if value < 0xfd then asBool 1
  else if value ≤ 0xffff then asBool 3
  else if value ≤ 0xffffffff then asBool 5
  else asBool 9

/-- bio.h:514-538 `write_varint` with a non-null destination: the bytes written. -/
def writeVarint (size : Nat) : Bytes :=
  if size < 0xfd then writeU8 size
  else if size ≤ 0xffff then writeU8 0xfd ++ writeU16 size
  else if size ≤ 0xffffffff then writeU8 0xfe ++ writeU32 size
  else writeU8 0xff ++ writeU64 size

end Verif.Bio
