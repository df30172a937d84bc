import Verif.Model.Words
/-
Model of src/poly1305/poly1305.c with src/poly1305/poly1305-64.h, the variant for machines with
128-bit numbers (src/poly1305/poly1305.c:34-35), compiled by gcc or clang. `unsigned long long` is
`u64`, `uint128_t` is `u128`: natural numbers, reduced after each operation that may overflow.
-/
namespace Verif.Poly1305
open Verif.Words

def u64 (n : Nat) : Nat := n % 2 ^ 64
def u128 (n : Nat) : Nat := n % 2 ^ 128

/-- hsk_poly1305_state_internal_t (src/poly1305/poly1305-64.h:56-63). -/
structure St where
  r0 : Nat
  r1 : Nat
  r2 : Nat
  h0 : Nat
  h1 : Nat
  h2 : Nat
  pad0 : Nat
  pad1 : Nat
  leftover : Nat
  buffer : Bytes
  final : Bool
  deriving DecidableEq, Repr

/-- U8TO64 (src/poly1305/poly1305-64.h:65-75) at a place of a buffer. -/
def u8to64 (p : Bytes) (i : Nat) : Out Unit Nat := if i + 8 ≤ p.length then .ok (leNat ((p.drop i).take 8)) else .ub

/-- U64TO8 (src/poly1305/poly1305-64.h:77-87). -/
def u64to8 (v : Nat) : Bytes := leBytes 8 v

/-- hsk_poly1305_init (src/poly1305/poly1305-64.h:89-113). -/
def init (st : St) (key : Bytes) : Out Unit St :=
  (u8to64 key 0).bind fun t0 =>
  (u8to64 key 8).bind fun t1 =>
  (u8to64 key 16).bind fun p0 =>
  (u8to64 key 24).bind fun p1 =>
    .ok { st with
      r0 := t0 &&& 0xffc0fffffff
      r1 := (t0 >>> 44 ||| u64 (t1 <<< 20)) &&& 0xfffffc0ffff
      r2 := t1 >>> 24 &&& 0x00ffffffc0f
      h0 := 0, h1 := 0, h2 := 0, pad0 := p0, pad1 := p1, leftover := 0, final := false }

/-- `h += m[i]` (src/poly1305/poly1305-64.h:149-151). -/
def addBlock (hibit : Nat) (h : Nat × Nat × Nat) (t0 t1 : Nat) : Nat × Nat × Nat :=
  (u64 (h.1 + (t0 &&& 0xfffffffffff)),
   u64 (h.2.1 + ((t0 >>> 44 ||| u64 (t1 <<< 20)) &&& 0xfffffffffff)),
   u64 (h.2.2 + (t1 >>> 24 &&& 0x3ffffffffff ||| hibit)))

/-- `h *= r`, `(partial) h %= p` (src/poly1305/poly1305-64.h:139-140, 153-188). -/
def mulMod (r0 r1 r2 : Nat) (h : Nat × Nat × Nat) : Nat × Nat × Nat :=
  let s1 := u64 (r1 * 20)
  let s2 := u64 (r2 * 20)
  let h0 := h.1
  let h1 := h.2.1
  let h2 := h.2.2
  let d0 := u128 (u128 (h0 * r0 + h1 * s2) + h2 * s1)
  let d1 := u128 (u128 (h0 * r1 + h1 * r0) + h2 * s2)
  let d2 := u128 (u128 (h0 * r2 + h1 * r1) + h2 * r0)
  let c := u64 (d0 >>> 44)
  let h0 := u64 d0 &&& 0xfffffffffff
  let d1 := u128 (d1 + c)
  let c := u64 (d1 >>> 44)
  let h1 := u64 d1 &&& 0xfffffffffff
  let d2 := u128 (d2 + c)
  let c := u64 (d2 >>> 42)
  let h2 := u64 d2 &&& 0x3ffffffffff
  let h0 := u64 (h0 + u64 (c * 5))
  let c := h0 >>> 44
  let h0 := h0 &&& 0xfffffffffff
  let h1 := u64 (h1 + c)
  (h0, h1, h2)

/-- The loop (src/poly1305/poly1305-64.h:142-192), for so many blocks. -/
def loop (r0 r1 r2 hibit : Nat) : Nat → Nat × Nat × Nat → Bytes → Out Unit (Nat × Nat × Nat)
  | 0, h, _ => .ok h
  | n + 1, h, m =>
    (u8to64 m 0).bind fun t0 =>
    (u8to64 m 8).bind fun t1 => loop r0 r1 r2 hibit n (mulMod r0 r1 r2 (addBlock hibit h t0 t1)) (m.drop 16)

/-- hsk_poly1305_blocks (src/poly1305/poly1305-64.h:115-197). -/
def blocks (st : St) (m : Bytes) (bytes : Nat) : Out Unit St :=
  let hibit := if st.final then 0 else 1 <<< 40
  (loop st.r0 st.r1 st.r2 hibit (bytes / 16) (st.h0, st.h1, st.h2) m).bind fun h =>
    .ok { st with h0 := h.1, h1 := h.2.1, h2 := h.2.2 }

/-- Whole blocks and the rest (src/poly1305/poly1305.c:72-86); `bytes & ~15` is `bytes - bytes % 16`. -/
def tail (st : St) (m : Bytes) : Out Unit St :=
  (if m.length ≥ 16 then
    let want := m.length - m.length % 16
    (blocks st m want).bind fun st => .ok (st, m.drop want)
  else .ok (st, m)).bind fun x =>
    if x.2.length ≠ 0 then
      (memcpy x.1.buffer x.1.leftover x.2).bind fun b => .ok { x.1 with buffer := b, leftover := x.1.leftover + x.2.length }
    else .ok x.1

/-- hsk_poly1305_update (src/poly1305/poly1305.c:42-87). -/
def update (st : St) (m : Bytes) : Out Unit St :=
  if st.leftover ≠ 0 then
    let want := 16 - st.leftover
    let want := if want > m.length then m.length else want
    (memcpy st.buffer st.leftover (m.take want)).bind fun b =>
      let st := { st with buffer := b, leftover := st.leftover + want }
      if st.leftover < 16 then .ok st
      else (blocks st st.buffer 16).bind fun st => tail { st with leftover := 0 } (m.drop want)
  else tail st m

/-- `fully carry h` (src/poly1305/poly1305-64.h:223-245). -/
def carry (h : Nat × Nat × Nat) : Nat × Nat × Nat :=
  let h0 := h.1
  let h1 := h.2.1
  let h2 := h.2.2
  let c := h1 >>> 44
  let h1 := h1 &&& 0xfffffffffff
  let h2 := u64 (h2 + c)
  let c := h2 >>> 42
  let h2 := h2 &&& 0x3ffffffffff
  let h0 := u64 (h0 + u64 (c * 5))
  let c := h0 >>> 44
  let h0 := h0 &&& 0xfffffffffff
  let h1 := u64 (h1 + c)
  let c := h1 >>> 44
  let h1 := h1 &&& 0xfffffffffff
  let h2 := u64 (h2 + c)
  let c := h2 >>> 42
  let h2 := h2 &&& 0x3ffffffffff
  let h0 := u64 (h0 + u64 (c * 5))
  let c := h0 >>> 44
  let h0 := h0 &&& 0xfffffffffff
  let h1 := u64 (h1 + c)
  (h0, h1, h2)

/-- `~c` of 64 bits. -/
def not64 (c : Nat) : Nat := 2 ^ 64 - 1 - c

/-- `h` if it is less than the prime, else the difference (src/poly1305/poly1305-64.h:247-265). -/
def select (h : Nat × Nat × Nat) : Nat × Nat × Nat :=
  let h0 := h.1
  let h1 := h.2.1
  let h2 := h.2.2
  let g0 := u64 (h0 + 5)
  let c := g0 >>> 44
  let g0 := g0 &&& 0xfffffffffff
  let g1 := u64 (h1 + c)
  let c := g1 >>> 44
  let g1 := g1 &&& 0xfffffffffff
  let g2 := u64 (u64 (h2 + c) + (2 ^ 64 - 1 <<< 42))
  let c := u64 (g2 >>> 63 + (2 ^ 64 - 1))
  let g0 := g0 &&& c
  let g1 := g1 &&& c
  let g2 := g2 &&& c
  let c := not64 c
  (h0 &&& c ||| g0, h1 &&& c ||| g1, h2 &&& c ||| g2)

/-- `h = (h + pad)` and the result (src/poly1305/poly1305-64.h:267-287). -/
def addPad (h : Nat × Nat × Nat) (t0 t1 : Nat) : Bytes :=
  let h0 := u64 (h.1 + (t0 &&& 0xfffffffffff))
  let c := h0 >>> 44
  let h0 := h0 &&& 0xfffffffffff
  let h1 := u64 (h.2.1 + u64 (((t0 >>> 44 ||| u64 (t1 <<< 20)) &&& 0xfffffffffff) + c))
  let c := h1 >>> 44
  let h1 := h1 &&& 0xfffffffffff
  let h2 := u64 (h.2.2 + u64 ((t1 >>> 24 &&& 0x3ffffffffff) + c))
  let h2 := h2 &&& 0x3ffffffffff
  let a := h0 ||| u64 (h1 <<< 44)
  let b := h1 >>> 20 ||| u64 (h2 <<< 24)
  u64to8 a ++ u64to8 b

/-- hsk_poly1305_finish (src/poly1305/poly1305-64.h:199-298); the state, which it clears, is not
used again. -/
def finish (st : St) : Out Unit Bytes :=
  (if st.leftover ≠ 0 then
    (memcpy st.buffer st.leftover (1 :: List.replicate (15 - st.leftover) 0)).bind fun b =>
      blocks { st with buffer := b, final := true } b 16
  else .ok st).bind fun st => .ok (addPad (select (carry (st.h0, st.h1, st.h2))) st.pad0 st.pad1)

/-- The loop of hsk_poly1305_verify (src/poly1305/poly1305.c:110-111). -/
def diff : Bytes → Bytes → UInt32 → UInt32
  | a :: l, b :: m, d => diff l m (d ||| (a ^^^ b).toUInt32)
  | _, _, d => d

/-- hsk_poly1305_verify (src/poly1305/poly1305.c:102-116), and hsk_aead_verify (src/aead.c:136-139):
is it not zero. -/
def verify (mac1 mac2 : Bytes) : Out Unit Bool :=
  if 16 ≤ mac1.length ∧ 16 ≤ mac2.length then
    let dif := diff (mac1.take 16) (mac2.take 16) 0
    .ok (((dif - 1) >>> 31) &&& 1 ≠ 0)
  else .ub

/-- A run of updates. -/
def updates : List Bytes → St → Out Unit St
  | [], st => .ok st
  | m :: l, st => (update st m).bind fun st => updates l st

/-- Init, updates and finish, as in hsk_poly1305_auth (src/poly1305/poly1305.c:89-100), there with one
update. -/
def auth (st : St) (l : List Bytes) (key : Bytes) : Out Unit Bytes :=
  (init st key).bind fun st => (updates l st).bind fun st => finish st

end Verif.Poly1305
