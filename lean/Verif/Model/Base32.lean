import Verif.Base
/-
Model of src/base32.c. Strings are lists of bytes without the final NUL, an output
buffer is the list of bytes stored to it in order, from index 0.
`x >> k` and `x << k` are `x / 2 ^ k` and `x * 2 ^ k`, a mask of k ones is `% 2 ^ k`.
-/
namespace Verif.Base32

/-- CHARSET (src/base32.c:13), "abcdefghijklmnopqrstuvwxyz234567". -/
def charset : Bytes := [97, 98, 99, 100, 101, 102, 103, 104, 105, 106, 107, 108, 109, 110, 111, 112, 113, 114, 115, 116, 117, 118, 119, 120, 121, 122, 50, 51, 52, 53, 54, 55]
/-- CHARSET_HEX (src/base32.c:26), "0123456789abcdefghijklmnopqrstuv". -/
def charsetHex : Bytes := [48, 49, 50, 51, 52, 53, 54, 55, 56, 57, 97, 98, 99, 100, 101, 102, 103, 104, 105, 106, 107, 108, 109, 110, 111, 112, 113, 114, 115, 116, 117, 118]

/-- TABLE (src/base32.c:15-24). -/
def table : List Int :=
  [-1, -1, -1, -1, -1, -1, -1, -1, -1, -1, -1, -1, -1, -1, -1, -1,
   -1, -1, -1, -1, -1, -1, -1, -1, -1, -1, -1, -1, -1, -1, -1, -1,
   -1, -1, -1, -1, -1, -1, -1, -1, -1, -1, -1, -1, -1, -1, -1, -1,
   -1, -1, 26, 27, 28, 29, 30, 31, -1, -1, -1, -1, -1, -1, -1, -1,
   -1, 0, 1, 2, 3, 4, 5, 6, 7, 8, 9, 10, 11, 12, 13, 14,
   15, 16, 17, 18, 19, 20, 21, 22, 23, 24, 25, -1, -1, -1, -1, -1,
   -1, 0, 1, 2, 3, 4, 5, 6, 7, 8, 9, 10, 11, 12, 13, 14,
   15, 16, 17, 18, 19, 20, 21, 22, 23, 24, 25, -1, -1, -1, -1, -1]

/-- TABLE_HEX (src/base32.c:28-37). -/
def tableHex : List Int :=
  [-1, -1, -1, -1, -1, -1, -1, -1, -1, -1, -1, -1, -1, -1, -1, -1,
   -1, -1, -1, -1, -1, -1, -1, -1, -1, -1, -1, -1, -1, -1, -1, -1,
   -1, -1, -1, -1, -1, -1, -1, -1, -1, -1, -1, -1, -1, -1, -1, -1,
   0, 1, 2, 3, 4, 5, 6, 7, 8, 9, -1, -1, -1, -1, -1, -1,
   -1, 10, 11, 12, 13, 14, 15, 16, 17, 18, 19, 20, 21, 22, 23, 24,
   25, 26, 27, 28, 29, 30, 31, -1, -1, -1, -1, -1, -1, -1, -1, -1,
   -1, 10, 11, 12, 13, 14, 15, 16, 17, 18, 19, 20, 21, 22, 23, 24,
   25, 26, 27, 28, 29, 30, 31, -1, -1, -1, -1, -1, -1, -1, -1, -1]

/-- PADDING (src/base32.c:39). -/
def padding : List Nat := [0, 6, 4, 3, 1]

/-- One byte (src/base32.c:57-102): the symbol values written, the new `left` and
`mode`. In mode 4 `left` keeps its value, which mode 0 does not read. -/
def encStep (mode left ch : Nat) : List Nat × Nat × Nat :=
  match mode with
  | 0 => ([ch / 8], ch % 8 * 4, 1)
  | 1 => ([left ||| ch / 64, ch / 2 % 32], ch % 2 * 16, 2)
  | 2 => ([left ||| ch / 16], ch % 16 * 2, 3)
  | 3 => ([left ||| ch / 128, ch / 4 % 32], ch % 4 * 8, 4)
  | _ => ([left ||| ch / 32, ch % 32], left, 0)

/-- The loop of hsk_base32_encode2 (src/base32.c:56-102): the symbols written from the
given state on, and the final `left` and `mode`. -/
def encLoop : Nat → Nat → Bytes → List Nat × Nat × Nat
  | mode, left, [] => ([], left, mode)
  | mode, left, c :: data =>
    let s := encStep mode left c.toNat
    let r := encLoop s.2.2 s.2.1 data
    (s.1 ++ r.1, r.2)

/-- Indexing of a 32-byte charset; out of range is `ub`. -/
def symbols (charset : Bytes) : List Nat → Out Unit Bytes
  | [] => .ok []
  | i :: r => match charset[i]? with
    | none => .ub
    | some c => (symbols charset r).bind fun t => .ok (c :: t)

/-- hsk_base32_encode2 (src/base32.c:41-124): the text without the final NUL (the
returned count is one more than its length). -/
def encode2 (charset : Bytes) (data : Bytes) (pad : Bool) : Out Unit Bytes :=
  let r := encLoop 0 0 data
  if r.2.2 > 0 then
    match padding[r.2.2]? with
    | none => .ub
    | some n => (symbols charset (r.1 ++ [r.2.1])).bind fun t =>
        .ok (t ++ if pad then List.replicate n 0x3d else [])
  else symbols charset r.1

/-- The value of a character (src/base32.c:143-144). `char` is signed or not depending on
the platform; stored in an unsigned one, -1 becomes 255. -/
def value (signedChar : Bool) (table : List Int) (c : UInt8) : Out Unit Int :=
  if c.toNat ≥ 128 then .ok (if signedChar then -1 else 255)
  else match table[c.toNat]? with
    | none => .ub
    | some v => .ok (if signedChar ∨ 0 ≤ v then v else v + 256)

/-- State of the decoder after its loop: output, `mode`, `left` and unread text. -/
structure Dec where
  out : Bytes
  mode : Nat
  left : Nat
  rest : Bytes
  deriving DecidableEq

/-- One symbol (src/base32.c:152-200): the stored byte if any, the new `left` and `mode`. -/
def decStep (mode left v : Nat) : List Nat × Nat × Nat :=
  match mode with
  | 0 => ([], v, 1)
  | 1 => ([left * 8 ||| v / 4], v % 4, 2)
  | 2 => ([], left * 32 ||| v, 3)
  | 3 => ([left * 2 ||| v / 16], v % 16, 4)
  | 4 => ([left * 16 ||| v / 2], v % 2, 5)
  | 5 => ([], left * 32 ||| v, 6)
  | 6 => ([left * 4 ||| v / 8], v % 8, 7)
  | _ => ([left * 32 ||| v], left, 0)

/-- The loop of hsk_base32_decode2 (src/base32.c:142-201). -/
def decLoop (signedChar : Bool) (table : List Int) (unpad : Bool) : Nat → Nat → Bytes → Out Unit Dec
  | mode, left, [] => .ok { out := [], mode := mode, left := left, rest := [] }
  | mode, left, c :: str =>
    (value signedChar table c).bind fun v =>
      if v = -1 then
        if unpad && decide (mode > 0) then .ok { out := [], mode := mode, left := left, rest := c :: str }
        else .err ()
      else
        let s := decStep mode left v.toNat
        (decLoop signedChar table unpad s.2.2 s.2.1 str).bind fun d =>
          .ok { d with out := s.1.map UInt8.ofNat ++ d.out }

/-- The padding the text must end with in the given mode (src/base32.c:204-256);
`none` is an impossible length. -/
def wantPad : Nat → Option Nat
  | 2 => some 6
  | 4 => some 4
  | 5 => some 3
  | 7 => some 1
  | _ => none

/-- hsk_base32_decode2 (src/base32.c:126-258): the decoded bytes, `err` is -1. In mode 0
nothing is checked: the loop has then read the whole text. -/
def decode2 (signedChar : Bool) (table : List Int) (str : Bytes) (unpad : Bool) : Out Unit Bytes :=
  (decLoop signedChar table unpad 0 0 str).bind fun d =>
    if unpad && decide (d.mode > 0) then
      match wantPad d.mode with
      | none => .err ()
      | some n =>
        if d.left > 0 then .err ()
        else if d.rest ≠ List.replicate n 0x3d then .err ()
        else .ok d.out
    else .ok d.out

/-- hsk_base32_encode_size and hsk_base32_encode_hex_size (src/base32.c:275-283): the dry
run counts the same stores, and the NUL. -/
def encodeSize (data : Bytes) (pad : Bool) : Nat :=
  let r := encLoop 0 0 data
  r.1.length + (if r.2.2 > 0 then 1 + (if pad then padding.getD r.2.2 0 else 0) else 0) + 1

/-- hsk_base32_decode_size and hsk_base32_decode_hex_size (src/base32.c:295-313). -/
def decodeSize (signedChar : Bool) (table : List Int) (str : Bytes) : Out Unit Nat :=
  match decode2 signedChar table str false with
  | .ok out => .ok out.length
  | .err _ => .ok (str.length * 5 / 8)
  | .ub => .ub

end Verif.Base32
