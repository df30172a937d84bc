import Verif.Model.Words
/-
Model of src/blake2b.c, without the keyed variant, which hnsd does not call. On a little-endian machine
load64 and store64 (src/blake2b-impl.h) are `ld64` and `st64`.
-/
namespace Verif.Blake2b
open Verif.Words

/-- hsk_blake2b_IV (src/blake2b.c:28-33). -/
def iv : List UInt64 :=
  [0x6a09e667f3bcc908, 0xbb67ae8584caa73b, 0x3c6ef372fe94f82b, 0xa54ff53a5f1d36f1,
   0x510e527fade682d1, 0x9b05688c2b3e6c1f, 0x1f83d9abfb41bd6b, 0x5be0cd19137e2179]

/-- hsk_blake2b_sigma (src/blake2b.c:35-48). -/
def sigma : List (List Nat) :=
  [[ 0,  1,  2,  3,  4,  5,  6,  7,  8,  9, 10, 11, 12, 13, 14, 15],
   [14, 10,  4,  8,  9, 15, 13,  6,  1, 12,  0,  2, 11,  7,  5,  3],
   [11,  8, 12,  0,  5,  2, 15, 13, 10, 14,  3,  6,  7,  1,  9,  4],
   [ 7,  9,  3,  1, 13, 12, 11, 14,  2,  6,  5, 10,  4,  0, 15,  8],
   [ 9,  0,  5,  7,  2,  4, 10, 15, 14,  1, 11, 12,  6,  8,  3, 13],
   [ 2, 12,  6, 10,  0, 11,  8,  3,  4, 13,  7,  5, 15, 14,  1,  9],
   [12,  5,  1, 15, 14, 13,  4, 10,  0,  7,  6,  3,  9,  2,  8, 11],
   [13, 11,  7, 14, 12,  1,  3,  9,  5,  0, 15,  4,  8,  6,  2, 10],
   [ 6, 15, 14,  9, 11,  3,  0,  8, 12,  2, 13,  7,  1,  4, 10,  5],
   [10,  2,  8,  4,  7,  6,  1,  5, 15, 11,  9, 14,  3, 12, 13,  0],
   [ 0,  1,  2,  3,  4,  5,  6,  7,  8,  9, 10, 11, 12, 13, 14, 15],
   [14, 10,  4,  8,  9, 15, 13,  6,  1, 12,  0,  2, 11,  7,  5,  3]]

/-- hsk_blake2b_ctx (src/blake2b.h:39-47). -/
structure Ctx where
  h : List UInt64
  t0 : UInt64
  t1 : UInt64
  f0 : UInt64
  f1 : UInt64
  buf : Bytes
  buflen : Nat
  outlen : Nat
  lastNode : Bool
  deriving DecidableEq, Repr

/-- hsk_blake2b_set_lastblock, _set_lastnode (src/blake2b.c:51-67). -/
def setLastblock (c : Ctx) : Ctx :=
  let c := if c.lastNode then { c with f1 := 0xffffffffffffffff } else c
  { c with f0 := 0xffffffffffffffff }

/-- hsk_blake2b_increment_counter (src/blake2b.c:69-73). -/
def increment (c : Ctx) (inc : UInt64) : Ctx :=
  let t0 := c.t0 + inc
  { c with t0 := t0, t1 := c.t1 + (if t0 < inc then 1 else 0) }

/-- hsk_blake2b_init0 (src/blake2b.c:75-83). -/
def init0 : Ctx := ⟨iv, 0, 0, 0, 0, List.replicate 128 0, 0, 0, false⟩

/-- The parameters (src/blake2b.h:49-62, set in src/blake2b.c:107-118) as the bytes they are. -/
def params (outlen : Nat) : Bytes :=
  [UInt8.ofNat outlen, 0, 1, 1] ++ leBytes 4 0 ++ leBytes 4 0 ++ leBytes 4 0 ++ [0, 0] ++ List.replicate 14 0 ++ List.replicate 16 0 ++ List.replicate 16 0

/-- hsk_blake2b_init_param (src/blake2b.c:85-98). -/
def initParam (p : Bytes) : Ctx :=
  { init0 with
    h := (List.range 8).map fun i => iv.getD i 0 ^^^ ld64 (p.drop (8 * i))
    outlen := (p.headD 0).toNat }

/-- hsk_blake2b_init (src/blake2b.c:100-121). -/
def init (outlen : Nat) : Out Unit Ctx :=
  if outlen = 0 ∨ outlen > 64 then .err () else .ok (initParam (params outlen))

/-- rotr64 (src/blake2b-impl.h). -/
def rotr (w c : UInt64) : UInt64 := w >>> c ||| w <<< (64 - c)

/-- `v[a] = s; v[d] = rotr64(v[d] ^ v[a], n)`, two lines of G (src/blake2b.c:165-175). -/
def line (v : List UInt64) (a d : Nat) (s n : UInt64) : List UInt64 :=
  let v := v.set a s
  v.set d (rotr (v.getD d 0 ^^^ v.getD a 0) n)

/-- G (src/blake2b.c:165-175). -/
def g (m : List UInt64) (r i : Nat) (v : List UInt64) (a b c d : Nat) : List UInt64 :=
  let s := sigma.getD r []
  let v := line v a d (v.getD a 0 + v.getD b 0 + m.getD (s.getD (2 * i) 0) 0) 32
  let v := line v c b (v.getD c 0 + v.getD d 0) 24
  let v := line v a d (v.getD a 0 + v.getD b 0 + m.getD (s.getD (2 * i + 1) 0) 0) 16
  line v c b (v.getD c 0 + v.getD d 0) 63

/-- ROUND (src/blake2b.c:177-187). -/
def round (m : List UInt64) (r : Nat) (v : List UInt64) : List UInt64 :=
  let v := g m r 0 v 0 4 8 12
  let v := g m r 1 v 1 5 9 13
  let v := g m r 2 v 2 6 10 14
  let v := g m r 3 v 3 7 11 15
  let v := g m r 4 v 0 5 10 15
  let v := g m r 5 v 1 6 11 12
  let v := g m r 6 v 2 7 8 13
  g m r 7 v 3 4 9 14

/-- The calls of ROUND from `r` on (src/blake2b.c:213-224). -/
def rounds (m : List UInt64) : Nat → Nat → List UInt64 → List UInt64
  | 0, _, v => v
  | n + 1, r, v => rounds m n (r + 1) (round m r v)

/-- hsk_blake2b_compress (src/blake2b.c:189-228). -/
def compress (c : Ctx) (block : Bytes) : Out Unit Ctx :=
  if block.length < 128 then .ub
  else
    let m := (List.range 16).map fun i => ld64 (block.drop (8 * i))
    let v := c.h ++ iv.take 4 ++ [iv.getD 4 0 ^^^ c.t0, iv.getD 5 0 ^^^ c.t1, iv.getD 6 0 ^^^ c.f0, iv.getD 7 0 ^^^ c.f1]
    let v := rounds m 12 0 v
    .ok { c with h := (List.range 8).map fun i => c.h.getD i 0 ^^^ v.getD i 0 ^^^ v.getD (i + 8) 0 }

/-- The loop in hsk_blake2b_update, and what comes after it (src/blake2b.c:251-261), on what is left
of the input. -/
def loop : Nat → Ctx → Bytes → Out Unit Ctx
  | 0, _, _ => .ub
  | fuel + 1, c, inp =>
    if inp.length > 128 then (compress (increment c 128) (inp.take 128)).bind fun c => loop fuel c (inp.drop 128)
    else (memcpy c.buf c.buflen inp).bind fun b => .ok { c with buf := b, buflen := c.buflen + inp.length }

/-- hsk_blake2b_update (src/blake2b.c:233-264). -/
def update (c : Ctx) (inp : Bytes) : Out Unit Ctx :=
  if inp.length > 0 then
    let left := c.buflen
    let fill := 128 - left
    if inp.length > fill then
      (memcpy c.buf left (inp.take fill)).bind fun b =>
      (compress (increment { c with buf := b, buflen := 0 } 128) b).bind fun c => loop (inp.length + 1) c (inp.drop fill)
    else (memcpy c.buf c.buflen inp).bind fun b => .ok { c with buf := b, buflen := c.buflen + inp.length }
  else .ok c

/-- hsk_blake2b_final (src/blake2b.c:266-289) to a place of `outlen` bytes: the bytes stored. -/
def final (c : Ctx) (outlen : Nat) : Out Unit Bytes :=
  if outlen < c.outlen then .err ()
  else if c.f0 ≠ 0 then .err ()
  else
    let c := setLastblock (increment c (UInt64.ofNat c.buflen))
    (memcpy c.buf c.buflen (List.replicate (128 - c.buflen) 0)).bind fun b =>
    (compress { c with buf := b } b).bind fun c =>
      let buffer := c.h.flatMap st64
      if c.outlen ≤ 64 then .ok (buffer.take c.outlen) else .ub

/-- A run of updates. -/
def updates : List Bytes → Ctx → Out Unit Ctx
  | [], c => .ok c
  | m :: l, c => (update c m).bind fun c => updates l c

/-- An assertion that a call succeeds, as around init and final in the callers (for instance
src/hash.c:16-22): failure aborts. -/
def asserted {α : Type} : Out Unit α → Out Unit α
  | .ok a => .ok a
  | _ => .ub

/-- hsk_hash_blake2b, hsk_hash_blake160, hsk_hash_blake256, hsk_hash_blake512 (src/hash.c:15-64), and
the other places where a hash is made in steps (src/header.c:331-353, src/proof-radix.c:259-303,
src/sig0.c:134-147). -/
def hashOf (outlen : Nat) (l : List Bytes) : Out Unit Bytes :=
  (asserted (init outlen)).bind fun c => (updates l c).bind fun c => asserted (final c outlen)

end Verif.Blake2b
