import Verif.Spec.Sha256
/-
BLAKE2b as RFC 7693 defines it, without a key, on whole messages.
-/
namespace Verif.Spec.Blake2b

/-- 2.6: the first 64 bits of the fractional parts of the square roots of the first eight primes. -/
def IV (i : Nat) : UInt64 := UInt64.ofNat (Sha256.root 2 (Sha256.primes.getD i 0 * 2 ^ 128) 72 0)

/-- 2.7: the schedule of message words. -/
def SIGMA : List (List Nat) :=
  [[0, 1, 2, 3, 4, 5, 6, 7, 8, 9, 10, 11, 12, 13, 14, 15],
   [14, 10, 4, 8, 9, 15, 13, 6, 1, 12, 0, 2, 11, 7, 5, 3],
   [11, 8, 12, 0, 5, 2, 15, 13, 10, 14, 3, 6, 7, 1, 9, 4],
   [7, 9, 3, 1, 13, 12, 11, 14, 2, 6, 5, 10, 4, 0, 15, 8],
   [9, 0, 5, 7, 2, 4, 10, 15, 14, 1, 11, 12, 6, 8, 3, 13],
   [2, 12, 6, 10, 0, 11, 8, 3, 4, 13, 7, 5, 15, 14, 1, 9],
   [12, 5, 1, 15, 14, 13, 4, 10, 0, 7, 6, 3, 9, 2, 8, 11],
   [13, 11, 7, 14, 12, 1, 3, 9, 5, 0, 15, 4, 8, 6, 2, 10],
   [6, 15, 14, 9, 11, 3, 0, 8, 12, 2, 13, 7, 1, 4, 10, 5],
   [10, 2, 8, 4, 7, 6, 1, 5, 15, 11, 9, 14, 3, 12, 13, 0]]

def rotr (x : UInt64) (n : Nat) : UInt64 := ⟨x.toBitVec.rotateRight n⟩

/-- 3.1: the mixing function G, on four numbers with two words of the message. -/
def mix (a b c d x y : UInt64) : UInt64 × UInt64 × UInt64 × UInt64 :=
  let a := a + b + x; let d := rotr (d ^^^ a) 32
  let c := c + d; let b := rotr (b ^^^ c) 24
  let a := a + b + y; let d := rotr (d ^^^ a) 16
  let c := c + d; let b := rotr (b ^^^ c) 63
  (a, b, c, d)

/-- G on four places of the work vector. -/
def mixAt (v : List UInt64) (a b c d : Nat) (x y : UInt64) : List UInt64 :=
  let q := mix (v.getD a 0) (v.getD b 0) (v.getD c 0) (v.getD d 0) x y
  (((v.set a q.1).set b q.2.1).set c q.2.2.1).set d q.2.2.2

/-- 3.2: one round: G on the columns of the 4 by 4 matrix, then on its diagonals. -/
def round (m : List UInt64) (v : List UInt64) (r : Nat) : List UInt64 :=
  let s := fun i => m.getD ((SIGMA.getD (r % 10) []).getD i 0) 0
  let v := [0, 1, 2, 3].foldl (fun v i => mixAt v i (4 + i) (8 + i) (12 + i) (s (2 * i)) (s (2 * i + 1))) v
  [0, 1, 2, 3].foldl (fun v i => mixAt v i (4 + (i + 1) % 4) (8 + (i + 2) % 4) (12 + (i + 3) % 4) (s (8 + 2 * i)) (s (9 + 2 * i))) v

/-- 3.2: the compression function F on the state, a block, the offset counter and the flag of the last
block. -/
def F (h : List UInt64) (block : Bytes) (t : Nat) (last : Bool) : List UInt64 :=
  let m := (List.range 16).map fun i => UInt64.ofNat (leNat ((block.drop (8 * i)).take 8))
  let v := h ++ [IV 0, IV 1, IV 2, IV 3, IV 4 ^^^ UInt64.ofNat t, IV 5 ^^^ UInt64.ofNat (t / 2 ^ 64), if last then ~~~IV 6 else IV 6, IV 7]
  let v := (List.range 12).foldl (round m) v
  (List.range 8).map fun i => h.getD i 0 ^^^ v.getD i 0 ^^^ v.getD (i + 8) 0

/-- 3.3: the state at first, for a digest of `nn` bytes. -/
def start (nn : Nat) : List UInt64 :=
  [IV 0 ^^^ 0x01010000 ^^^ UInt64.ofNat nn, IV 1, IV 2, IV 3, IV 4, IV 5, IV 6, IV 7]

/-- 3.3: block `i` of the message, the last one padded with zeros. -/
def block (m : Bytes) (i : Nat) : Bytes :=
  let b := (m.drop (128 * i)).take 128
  b ++ List.replicate (128 - b.length) 0

/-- 3.3: the state after `n` blocks that are not the last. -/
def state (nn : Nat) (m : Bytes) : Nat → List UInt64
  | 0 => start nn
  | n + 1 => F (state nn m n) (block m n) (128 * (n + 1)) false

/-- 3.3: the digest of `nn` bytes of a message. There are as many blocks as needed, and at least one. -/
def blake2b (nn : Nat) (m : Bytes) : Bytes :=
  let last := (m.length - 1) / 128
  ((F (state nn m last) (block m last) m.length true).flatMap fun w => leBytes 8 w.toNat).take nn

end Verif.Spec.Blake2b
