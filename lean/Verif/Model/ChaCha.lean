import Verif.Model.Words
/-
Model of src/chacha20/chacha20.c. On a little-endian machine the bytes of an array of words are the
words' bytes one after another; READLE and WRITELE are `ld32` and `st32`.
-/
namespace Verif.ChaCha
open Verif.Words

/-- hsk_chacha20_ctx (src/chacha20/chacha20.h:28-33); `keystream` as the 64 bytes it is. -/
structure Ctx where
  schedule : List UInt32
  keystream : Bytes
  available : Nat
  nonceSize : Nat
  deriving DecidableEq, Repr

/-- READLE (src/chacha20/chacha20.c:31-35) of four bytes in a buffer. -/
def readle (p : Bytes) (i : Nat) : Out Unit UInt32 := if i + 4 ≤ p.length then .ok (ld32 (p.drop i)) else .ub

/-- READLE at each of some places. -/
def reads (p : Bytes) : List Nat → Out Unit (List UInt32)
  | [] => .ok []
  | i :: l => (readle p i).bind fun w => (reads p l).bind fun r => .ok (w :: r)

/-- hsk_chacha20_keysetup (src/chacha20/chacha20.c:65-91). -/
def keysetup (c : Ctx) (key : Bytes) (length : Nat) : Out Unit Ctx :=
  let constants := (if length = 32 then "expand 32-byte k" else "expand 16-byte k").toUTF8.toList
  (reads constants [0, 4, 8, 12]).bind fun a =>
  (reads key [0, 4, 8, 12, 16 % length, 20 % length, 24 % length, 28 % length]).bind fun k =>
    .ok { c with schedule := a ++ k ++ 0 :: c.schedule.drop 13, available := 0, nonceSize := 8 }

/-- hsk_chacha20_ivsetup (src/chacha20/chacha20.c:93-112). -/
def ivsetup (c : Ctx) (nonce : Bytes) (nonceSize : Nat) : Out Unit Ctx :=
  (if nonceSize = 8 then (reads nonce [0, 4]).bind fun n => .ok (0 :: n) else reads nonce [0, 4, 8]).bind fun n =>
    .ok { c with schedule := c.schedule.take 12 ++ 0 :: n, nonceSize := nonceSize }

/-- hsk_chacha20_counter_set (src/chacha20/chacha20.c:114-123). -/
def counterSet (c : Ctx) (counter : UInt64) : Ctx :=
  let s := c.schedule.set 12 (UInt32.ofNat counter.toNat)
  let s := if c.nonceSize = 8 then s.set 13 (UInt32.ofNat (counter.toNat / 2 ^ 32)) else s
  { c with schedule := s, available := 0 }

/-- hsk_chacha20_counter_get (src/chacha20/chacha20.c:125-131). -/
def counterGet (c : Ctx) : Nat :=
  if c.nonceSize = 8 then (c.schedule.getD 13 0).toNat * 2 ^ 32 + (c.schedule.getD 12 0).toNat else (c.schedule.getD 12 0).toNat

/-- ROTL32 (src/chacha20/chacha20.c:29). -/
def rotl (v n : UInt32) : UInt32 := v <<< n ||| v >>> (32 - n)

/-- `x[a] += x[b]; x[d] = ROTL32(x[d] ^ x[a], n)`, a line of QUARTERROUND (src/chacha20/chacha20.c:48-51). -/
def line (x : List UInt32) (a b d : Nat) (n : UInt32) : List UInt32 :=
  let x := x.set a (x.getD a 0 + x.getD b 0)
  x.set d (rotl (x.getD d 0 ^^^ x.getD a 0) n)

/-- QUARTERROUND (src/chacha20/chacha20.c:47-51). -/
def quarter (x : List UInt32) (a b c d : Nat) : List UInt32 :=
  let x := line x a b d 16
  let x := line x c d b 12
  let x := line x a b d 8
  line x c d b 7

/-- The body of the loop in hsk_chacha20_block (src/chacha20/chacha20.c:141-148). -/
def doubleRound (x : List UInt32) : List UInt32 :=
  let x := quarter x 0 4 8 12
  let x := quarter x 1 5 9 13
  let x := quarter x 2 6 10 14
  let x := quarter x 3 7 11 15
  let x := quarter x 0 5 10 15
  let x := quarter x 1 6 11 12
  let x := quarter x 2 7 8 13
  quarter x 3 4 9 14

/-- The loop (src/chacha20/chacha20.c:140-149). -/
def rounds : Nat → List UInt32 → List UInt32
  | 0, x => x
  | i + 1, x => rounds i (doubleRound x)

/-- hsk_chacha20_block (src/chacha20/chacha20.c:133-160); `output` is the key stream of the context. -/
def block (c : Ctx) : Ctx :=
  let output := rounds 10 c.schedule
  let bytes := (List.zipWith (· + ·) output c.schedule).flatMap st32
  let n0 := c.schedule.getD 12 0 + 1
  let s := c.schedule.set 12 n0
  let s := if n0 = 0 ∧ c.nonceSize = 8 then s.set 13 (s.getD 13 0 + 1) else s
  { c with schedule := s, keystream := bytes }

/-- hsk_chacha20_xor (src/chacha20/chacha20.c:162-173), with the key stream from `i` on; it does
one round even if `length` is zero. -/
def xor (keystream : Bytes) (i : Nat) (input : Bytes) (length : Nat) : Out Unit Bytes :=
  let n := max length 1
  if i + n ≤ keystream.length ∧ n ≤ input.length then .ok (List.zipWith (· ^^^ ·) (input.take n) ((keystream.drop i).take n)) else .ub

/-- The loop of hsk_chacha20_encrypt (src/chacha20/chacha20.c:193-199), on what is left of the input. -/
def encLoop : Nat → Ctx → Bytes → Out Unit (Ctx × Bytes)
  | 0, _, _ => .ub
  | fuel + 1, c, input =>
    if input.length = 0 then .ok (c, [])
    else
      let amount := min input.length 64
      let c := block c
      (xor c.keystream 0 input amount).bind fun out =>
      (encLoop fuel { c with available := 64 - amount } (input.drop amount)).bind fun r => .ok (r.1, out ++ r.2)

/-- hsk_chacha20_encrypt (src/chacha20/chacha20.c:175-201); decrypt (src/chacha20/chacha20.c:203-211) is the same. -/
def encrypt (c : Ctx) (input : Bytes) : Out Unit (Ctx × Bytes) :=
  if input.length = 0 then .ok (c, [])
  else if c.available ≠ 0 then
    let amount := min input.length c.available
    (xor c.keystream (64 - c.available) input amount).bind fun out =>
    (encLoop (input.length + 1) { c with available := c.available - amount } (input.drop amount)).bind fun r => .ok (r.1, out ++ r.2)
  else encLoop (input.length + 1) c input

/-- A run of encryptions. -/
def encrypts : List Bytes → Ctx → Out Unit (Ctx × List Bytes)
  | [], c => .ok (c, [])
  | m :: l, c => (encrypt c m).bind fun r => (encrypts l r.1).bind fun q => .ok (q.1, r.2 :: q.2)

/-- hsk_chacha20_setup (src/chacha20/chacha20.c:53-63), with a counter set as the AEAD does
(src/aead.c:34-36). -/
def setup (c : Ctx) (key : Bytes) (length : Nat) (nonce : Bytes) (nonceSize : Nat) (counter : UInt64) : Out Unit Ctx :=
  (keysetup c key length).bind fun c => (ivsetup c nonce nonceSize).bind fun c => .ok (counterSet c counter)

end Verif.ChaCha
