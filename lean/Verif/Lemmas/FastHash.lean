import Verif.Lemmas.FastKeccak
import Verif.Lemmas.HeaderHash
import Verif.Lemmas.Header
import Verif.Lemmas.Addr
/-
The hash of a header on numbers, in a form the kernel evaluates quickly. Byte strings are their little-endian
numbers.
-/
namespace Verif.Fast
open Verif.Spec.BlockHash Verif.Header
open Verif.Addr (leNat_append)

theorem leNat_take (b : Bytes) (n : Nat) : leNat (b.take n) = leNat b % 256 ^ n := by
  induction n generalizing b with
  | zero => simp [leNat, Nat.mod_one]
  | succ n ih =>
    cases b with
    | nil => simp [leNat]
    | cons x r =>
      have hx := x.toNat_lt
      simp only [List.take_succ_cons, leNat, ih, Nat.pow_succ]
      rw [Nat.mul_comm (256 ^ n) 256, Nat.mod_mul, show (x.toNat + 256 * leNat r) % 256 = x.toNat by omega, show (x.toNat + 256 * leNat r) / 256 = leNat r by omega]

theorem leNat_drop (b : Bytes) (n : Nat) : leNat (b.drop n) = leNat b / 256 ^ n := by
  induction n generalizing b with
  | zero => simp
  | succ n ih =>
    cases b with
    | nil => simp [leNat]
    | cons x r =>
      have hx := x.toNat_lt
      simp only [List.drop_succ_cons, leNat, ih, Nat.pow_succ]
      rw [Nat.mul_comm (256 ^ n) 256, ← Nat.div_div_eq_div_mul]
      congr 1
      omega

theorem leNat_zeros (n : Nat) : leNat (List.replicate n 0) = 0 := by
  induction n with
  | zero => rfl
  | succ n ih => rw [List.replicate_succ, leNat, ih]; rfl

/-- Word `i` of a string. -/
theorem word_eq (b : Bytes) (i s : Nat) (hs : s = 64 * i) :
    Nat.mod (Nat.shiftRight (leNat b) s) 18446744073709551616 = (UInt64.ofNat (leNat ((b.drop (8 * i)).take 8))).toNat := by
  rw [leNat_take, leNat_drop, UInt64.toNat_ofNat', show ∀ x, x % 256 ^ 8 % 2 ^ 64 = x % 2 ^ 64 from fun x => Nat.mod_mod x _, Addr.pow256]
  show leNat b >>> s % 2 ^ 64 = leNat b / _ % 2 ^ 64
  rw [Nat.shiftRight_eq_div_pow, hs, show 8 * (8 * i) = 64 * i by omega]

theorem flat_take (l : List UInt64) (k : Nat) : (l.flatMap fun w => leBytes 8 w.toNat).take (8 * k) = (l.take k).flatMap fun w => leBytes 8 w.toNat := by
  induction l generalizing k with
  | nil => simp
  | cons w l ih =>
    cases k with
    | zero => rfl
    | succ k =>
      rw [List.take_succ_cons, List.flatMap_cons, List.flatMap_cons, ← ih k, Nat.mul_succ, List.take_append, List.take_of_length_le (by simp)]
      congr 2

theorem leNat_flat_cons (w : UInt64) (l : List UInt64) : leNat ((w :: l).flatMap fun w => leBytes 8 w.toNat) =
    w.toNat + 18446744073709551616 * leNat (l.flatMap fun w => leBytes 8 w.toNat) := by
  rw [List.flatMap_cons, leNat_append, leNat_leBytes_of_lt (by exact w.toNat_lt)]
  simp

theorem eight {l : List UInt64} (h : l.length = 8) : l = [l.getD 0 0, l.getD 1 0, l.getD 2 0, l.getD 3 0, l.getD 4 0, l.getD 5 0, l.getD 6 0, l.getD 7 0] := by
  match l, h with
  | [l0, l1, l2, l3, l4, l5, l6, l7], _ => rfl

theorem F_length (h : List UInt64) (b : Bytes) (t : Nat) (e : Bool) : (Spec.Blake2b.F h b t e).length = 8 := by
  simp [Spec.Blake2b.F]

attribute [local irreducible] Spec.Blake2b.F

theorem blake_short (nn : Nat) (m : Bytes) (hm : m.length ≤ 128) :
    Spec.Blake2b.blake2b nn m = ((Spec.Blake2b.F (Spec.Blake2b.start nn) (m ++ List.replicate (128 - m.length) 0) m.length true).flatMap fun w => leBytes 8 w.toNat).take nn := by
  have h0 : (m.length - 1) / 128 = 0 := by omega
  unfold Spec.Blake2b.blake2b
  dsimp only
  rw [h0]
  unfold Spec.Blake2b.state Spec.Blake2b.block
  simp only [Nat.mul_zero, List.drop_zero, List.take_of_length_le hm]

/-- The 256-bit digest of a message of `len` bytes, at most 128. -/
noncomputable def b256 {α : Type} (len X : Nat) (k : Nat → α) : α :=
  force X fun X =>
  force (Nat.mod (Nat.shiftRight X 0) 18446744073709551616) fun m0 =>
  force (Nat.mod (Nat.shiftRight X 64) 18446744073709551616) fun m1 =>
  force (Nat.mod (Nat.shiftRight X 128) 18446744073709551616) fun m2 =>
  force (Nat.mod (Nat.shiftRight X 192) 18446744073709551616) fun m3 =>
  force (Nat.mod (Nat.shiftRight X 256) 18446744073709551616) fun m4 =>
  force (Nat.mod (Nat.shiftRight X 320) 18446744073709551616) fun m5 =>
  force (Nat.mod (Nat.shiftRight X 384) 18446744073709551616) fun m6 =>
  force (Nat.mod (Nat.shiftRight X 448) 18446744073709551616) fun m7 =>
  force (Nat.mod (Nat.shiftRight X 512) 18446744073709551616) fun m8 =>
  force (Nat.mod (Nat.shiftRight X 576) 18446744073709551616) fun m9 =>
  force (Nat.mod (Nat.shiftRight X 640) 18446744073709551616) fun m10 =>
  force (Nat.mod (Nat.shiftRight X 704) 18446744073709551616) fun m11 =>
  force (Nat.mod (Nat.shiftRight X 768) 18446744073709551616) fun m12 =>
  force (Nat.mod (Nat.shiftRight X 832) 18446744073709551616) fun m13 =>
  force (Nat.mod (Nat.shiftRight X 896) 18446744073709551616) fun m14 =>
  force (Nat.mod (Nat.shiftRight X 960) 18446744073709551616) fun m15 =>
  compress 7640891576939301160 len m0 m1 m2 m3 m4 m5 m6 m7 m8 m9 m10 m11 m12 m13 m14 m15 fun h0 h1 h2 h3 h4 h5 h6 h7 =>
  force (Nat.add h0 (Nat.mul 18446744073709551616 (Nat.add h1 (Nat.mul 18446744073709551616 (Nat.add h2 (Nat.mul 18446744073709551616 h3)))))) k

theorem b256_eq {α : Type} (m : Bytes) (hm : m.length ≤ 128) (k : Nat → α) : b256 m.length (leNat m) k = k (leNat (blake256 m)) := by
  unfold b256 blake256
  rw [blake_short 32 m hm]
  have hX : leNat m = leNat (m ++ List.replicate (128 - m.length) 0) := by rw [leNat_append, leNat_zeros, Nat.mul_zero, Nat.add_zero]
  rw [hX]
  generalize m ++ List.replicate (128 - m.length) 0 = b
  simp only [force_eq]
  rw [word_eq b 0 0 rfl, word_eq b 1 64 rfl, word_eq b 2 128 rfl, word_eq b 3 192 rfl, word_eq b 4 256 rfl, word_eq b 5 320 rfl, word_eq b 6 384 rfl, word_eq b 7 448 rfl, word_eq b 8 512 rfl, word_eq b 9 576 rfl, word_eq b 10 640 rfl, word_eq b 11 704 rfl, word_eq b 12 768 rfl, word_eq b 13 832 rfl, word_eq b 14 896 rfl, word_eq b 15 960 rfl]
  rw [show 7640891576939301160 = (Spec.Blake2b.IV 0 ^^^ 0x01010000 ^^^ UInt64.ofNat 32).toNat by decide +kernel]
  rw [compress_eq 32 m.length (by omega) b]
  have hl := F_length (Spec.Blake2b.start 32) b m.length true
  generalize Spec.Blake2b.F (Spec.Blake2b.start 32) b m.length true = l at hl ⊢
  rw [flat_take l 4]
  congr 1
  conv => rhs; rw [eight hl]
  simp only [List.take_succ_cons, List.take_zero, leNat_flat_cons, List.flatMap_nil, leNat, Nat.mul_zero, Nat.add_zero]
  rfl

/-- The 512-bit digest of a message of `len` bytes, at most 128. -/
noncomputable def b512 {α : Type} (len X : Nat) (k : Nat → α) : α :=
  force X fun X =>
  force (Nat.mod (Nat.shiftRight X 0) 18446744073709551616) fun m0 =>
  force (Nat.mod (Nat.shiftRight X 64) 18446744073709551616) fun m1 =>
  force (Nat.mod (Nat.shiftRight X 128) 18446744073709551616) fun m2 =>
  force (Nat.mod (Nat.shiftRight X 192) 18446744073709551616) fun m3 =>
  force (Nat.mod (Nat.shiftRight X 256) 18446744073709551616) fun m4 =>
  force (Nat.mod (Nat.shiftRight X 320) 18446744073709551616) fun m5 =>
  force (Nat.mod (Nat.shiftRight X 384) 18446744073709551616) fun m6 =>
  force (Nat.mod (Nat.shiftRight X 448) 18446744073709551616) fun m7 =>
  force (Nat.mod (Nat.shiftRight X 512) 18446744073709551616) fun m8 =>
  force (Nat.mod (Nat.shiftRight X 576) 18446744073709551616) fun m9 =>
  force (Nat.mod (Nat.shiftRight X 640) 18446744073709551616) fun m10 =>
  force (Nat.mod (Nat.shiftRight X 704) 18446744073709551616) fun m11 =>
  force (Nat.mod (Nat.shiftRight X 768) 18446744073709551616) fun m12 =>
  force (Nat.mod (Nat.shiftRight X 832) 18446744073709551616) fun m13 =>
  force (Nat.mod (Nat.shiftRight X 896) 18446744073709551616) fun m14 =>
  force (Nat.mod (Nat.shiftRight X 960) 18446744073709551616) fun m15 =>
  compress 7640891576939301192 len m0 m1 m2 m3 m4 m5 m6 m7 m8 m9 m10 m11 m12 m13 m14 m15 fun h0 h1 h2 h3 h4 h5 h6 h7 =>
  force (Nat.add h0 (Nat.mul 18446744073709551616 (Nat.add h1 (Nat.mul 18446744073709551616 (Nat.add h2 (Nat.mul 18446744073709551616 (Nat.add h3 (Nat.mul 18446744073709551616 (Nat.add h4 (Nat.mul 18446744073709551616 (Nat.add h5 (Nat.mul 18446744073709551616 (Nat.add h6 (Nat.mul 18446744073709551616 h7)))))))))))))) k

theorem b512_eq {α : Type} (m : Bytes) (hm : m.length ≤ 128) (k : Nat → α) : b512 m.length (leNat m) k = k (leNat (blake512 m)) := by
  unfold b512 blake512
  rw [blake_short 64 m hm]
  have hX : leNat m = leNat (m ++ List.replicate (128 - m.length) 0) := by rw [leNat_append, leNat_zeros, Nat.mul_zero, Nat.add_zero]
  rw [hX]
  generalize m ++ List.replicate (128 - m.length) 0 = b
  simp only [force_eq]
  rw [word_eq b 0 0 rfl, word_eq b 1 64 rfl, word_eq b 2 128 rfl, word_eq b 3 192 rfl, word_eq b 4 256 rfl, word_eq b 5 320 rfl, word_eq b 6 384 rfl, word_eq b 7 448 rfl, word_eq b 8 512 rfl, word_eq b 9 576 rfl, word_eq b 10 640 rfl, word_eq b 11 704 rfl, word_eq b 12 768 rfl, word_eq b 13 832 rfl, word_eq b 14 896 rfl, word_eq b 15 960 rfl]
  rw [show 7640891576939301192 = (Spec.Blake2b.IV 0 ^^^ 0x01010000 ^^^ UInt64.ofNat 64).toNat by decide +kernel]
  rw [compress_eq 64 m.length (by omega) b]
  have hl := F_length (Spec.Blake2b.start 64) b m.length true
  generalize Spec.Blake2b.F (Spec.Blake2b.start 64) b m.length true = l at hl ⊢
  rw [flat_take l 8]
  congr 1
  conv => rhs; rw [eight hl]
  simp only [List.take_succ_cons, List.take_zero, leNat_flat_cons, List.flatMap_nil, leNat, Nat.mul_zero, Nat.add_zero]
  rfl

/-- The SHA3-256 digest of a message of 136 bytes. -/
noncomputable def sha {α : Type} (X : Nat) (k : Nat → α) : α :=
  force X fun X =>
  force (Nat.mod (Nat.shiftRight X 0) 18446744073709551616) fun m0 =>
  force (Nat.mod (Nat.shiftRight X 64) 18446744073709551616) fun m1 =>
  force (Nat.mod (Nat.shiftRight X 128) 18446744073709551616) fun m2 =>
  force (Nat.mod (Nat.shiftRight X 192) 18446744073709551616) fun m3 =>
  force (Nat.mod (Nat.shiftRight X 256) 18446744073709551616) fun m4 =>
  force (Nat.mod (Nat.shiftRight X 320) 18446744073709551616) fun m5 =>
  force (Nat.mod (Nat.shiftRight X 384) 18446744073709551616) fun m6 =>
  force (Nat.mod (Nat.shiftRight X 448) 18446744073709551616) fun m7 =>
  force (Nat.mod (Nat.shiftRight X 512) 18446744073709551616) fun m8 =>
  force (Nat.mod (Nat.shiftRight X 576) 18446744073709551616) fun m9 =>
  force (Nat.mod (Nat.shiftRight X 640) 18446744073709551616) fun m10 =>
  force (Nat.mod (Nat.shiftRight X 704) 18446744073709551616) fun m11 =>
  force (Nat.mod (Nat.shiftRight X 768) 18446744073709551616) fun m12 =>
  force (Nat.mod (Nat.shiftRight X 832) 18446744073709551616) fun m13 =>
  force (Nat.mod (Nat.shiftRight X 896) 18446744073709551616) fun m14 =>
  force (Nat.mod (Nat.shiftRight X 960) 18446744073709551616) fun m15 =>
  force (Nat.mod (Nat.shiftRight X 1024) 18446744073709551616) fun m16 =>
  kloop constants m0 m1 m2 m3 m4 m5 m6 m7 m8 m9 m10 m11 m12 m13 m14 m15 m16 0 0 0 0 0 0 0 0 fun a0 a1 a2 a3 a4 a5 a6 a7 a8 a9 a10 a11 a12 a13 a14 a15 a16 a17 a18 a19 a20 a21 a22 a23 a24 =>
  force (Nat.xor a0 6) fun a0 =>
  force (Nat.xor a16 9223372036854775808) fun a16 =>
  kloop constants a0 a1 a2 a3 a4 a5 a6 a7 a8 a9 a10 a11 a12 a13 a14 a15 a16 a17 a18 a19 a20 a21 a22 a23 a24 fun a0 a1 a2 a3 a4 a5 a6 a7 a8 a9 a10 a11 a12 a13 a14 a15 a16 a17 a18 a19 a20 a21 a22 a23 a24 =>
  force (Nat.add a0 (Nat.mul 18446744073709551616 (Nat.add a1 (Nat.mul 18446744073709551616 (Nat.add a2 (Nat.mul 18446744073709551616 a3)))))) k

theorem getD_mapIdx (A : List UInt64) (f : Nat → UInt64 → UInt64) (i : Nat) (h : i < A.length) : (A.mapIdx f).getD i 0 = f i (A.getD i 0) := by
  simp [List.getD_eq_getElem?_getD, h]

theorem keccak_length (A : List UInt64) (h : A.length = 25) : (Spec.Sha3.keccak A).length = 25 := (Sha3.permutation_eq h).2

attribute [local irreducible] Spec.Sha3.keccak

theorem absorb_fast {α : Type} (A : List UInt64) (hA : A.length = 25) (b : Bytes) (k : Nat → Nat → Nat → Nat → Nat → Nat → Nat → Nat → Nat → Nat → Nat → Nat → Nat → Nat → Nat → Nat → Nat → Nat → Nat → Nat → Nat → Nat → Nat → Nat → Nat → α) :
    kloop constants (A.getD 0 0 ^^^ UInt64.ofNat (leNat ((b.drop (8 * 0)).take 8))).toNat (A.getD 1 0 ^^^ UInt64.ofNat (leNat ((b.drop (8 * 1)).take 8))).toNat (A.getD 2 0 ^^^ UInt64.ofNat (leNat ((b.drop (8 * 2)).take 8))).toNat (A.getD 3 0 ^^^ UInt64.ofNat (leNat ((b.drop (8 * 3)).take 8))).toNat (A.getD 4 0 ^^^ UInt64.ofNat (leNat ((b.drop (8 * 4)).take 8))).toNat (A.getD 5 0 ^^^ UInt64.ofNat (leNat ((b.drop (8 * 5)).take 8))).toNat (A.getD 6 0 ^^^ UInt64.ofNat (leNat ((b.drop (8 * 6)).take 8))).toNat (A.getD 7 0 ^^^ UInt64.ofNat (leNat ((b.drop (8 * 7)).take 8))).toNat (A.getD 8 0 ^^^ UInt64.ofNat (leNat ((b.drop (8 * 8)).take 8))).toNat (A.getD 9 0 ^^^ UInt64.ofNat (leNat ((b.drop (8 * 9)).take 8))).toNat (A.getD 10 0 ^^^ UInt64.ofNat (leNat ((b.drop (8 * 10)).take 8))).toNat (A.getD 11 0 ^^^ UInt64.ofNat (leNat ((b.drop (8 * 11)).take 8))).toNat (A.getD 12 0 ^^^ UInt64.ofNat (leNat ((b.drop (8 * 12)).take 8))).toNat (A.getD 13 0 ^^^ UInt64.ofNat (leNat ((b.drop (8 * 13)).take 8))).toNat (A.getD 14 0 ^^^ UInt64.ofNat (leNat ((b.drop (8 * 14)).take 8))).toNat (A.getD 15 0 ^^^ UInt64.ofNat (leNat ((b.drop (8 * 15)).take 8))).toNat (A.getD 16 0 ^^^ UInt64.ofNat (leNat ((b.drop (8 * 16)).take 8))).toNat (A.getD 17 0 ^^^ UInt64.ofNat (leNat ((b.drop (8 * 17)).take 8))).toNat (A.getD 18 0 ^^^ UInt64.ofNat (leNat ((b.drop (8 * 18)).take 8))).toNat (A.getD 19 0 ^^^ UInt64.ofNat (leNat ((b.drop (8 * 19)).take 8))).toNat (A.getD 20 0 ^^^ UInt64.ofNat (leNat ((b.drop (8 * 20)).take 8))).toNat (A.getD 21 0 ^^^ UInt64.ofNat (leNat ((b.drop (8 * 21)).take 8))).toNat (A.getD 22 0 ^^^ UInt64.ofNat (leNat ((b.drop (8 * 22)).take 8))).toNat (A.getD 23 0 ^^^ UInt64.ofNat (leNat ((b.drop (8 * 23)).take 8))).toNat (A.getD 24 0 ^^^ UInt64.ofNat (leNat ((b.drop (8 * 24)).take 8))).toNat k = kapp k (Spec.Sha3.absorb A b) := by
  unfold Spec.Sha3.absorb
  rw [← keccak_eq _ (by rw [List.length_mapIdx, hA])]
  simp only [getD_mapIdx A _ 0 (by omega), getD_mapIdx A _ 1 (by omega), getD_mapIdx A _ 2 (by omega), getD_mapIdx A _ 3 (by omega), getD_mapIdx A _ 4 (by omega), getD_mapIdx A _ 5 (by omega), getD_mapIdx A _ 6 (by omega), getD_mapIdx A _ 7 (by omega), getD_mapIdx A _ 8 (by omega), getD_mapIdx A _ 9 (by omega), getD_mapIdx A _ 10 (by omega), getD_mapIdx A _ 11 (by omega), getD_mapIdx A _ 12 (by omega), getD_mapIdx A _ 13 (by omega), getD_mapIdx A _ 14 (by omega), getD_mapIdx A _ 15 (by omega), getD_mapIdx A _ 16 (by omega), getD_mapIdx A _ 17 (by omega), getD_mapIdx A _ 18 (by omega), getD_mapIdx A _ 19 (by omega), getD_mapIdx A _ 20 (by omega), getD_mapIdx A _ 21 (by omega), getD_mapIdx A _ 22 (by omega), getD_mapIdx A _ 23 (by omega), getD_mapIdx A _ 24 (by omega)]

theorem absorb_length (A : List UInt64) (hA : A.length = 25) (b : Bytes) : (Spec.Sha3.absorb A b).length = 25 := by
  unfold Spec.Sha3.absorb
  exact keccak_length _ (by rw [List.length_mapIdx, hA])

theorem take4 {l : List UInt64} (h : l.length = 25) : l.take 4 = [l.getD 0 0, l.getD 1 0, l.getD 2 0, l.getD 3 0] := by
  obtain ⟨a0, a1, a2, a3, a4, a5, a6, a7, a8, a9, a10, a11, a12, a13, a14, a15, a16, a17, a18, a19, a20, a21, a22, a23, a24, rfl⟩ := Sha3.lanes h
  rfl

/-- The second block: padding only. -/
def last : Bytes := [6] ++ List.replicate 134 0 ++ [0x80]

theorem last_words : UInt64.ofNat (leNat ((last.drop (8 * 0)).take 8)) = 6 ∧ UInt64.ofNat (leNat ((last.drop (8 * 1)).take 8)) = 0 ∧ UInt64.ofNat (leNat ((last.drop (8 * 2)).take 8)) = 0 ∧ UInt64.ofNat (leNat ((last.drop (8 * 3)).take 8)) = 0 ∧ UInt64.ofNat (leNat ((last.drop (8 * 4)).take 8)) = 0 ∧ UInt64.ofNat (leNat ((last.drop (8 * 5)).take 8)) = 0 ∧ UInt64.ofNat (leNat ((last.drop (8 * 6)).take 8)) = 0 ∧ UInt64.ofNat (leNat ((last.drop (8 * 7)).take 8)) = 0 ∧ UInt64.ofNat (leNat ((last.drop (8 * 8)).take 8)) = 0 ∧ UInt64.ofNat (leNat ((last.drop (8 * 9)).take 8)) = 0 ∧ UInt64.ofNat (leNat ((last.drop (8 * 10)).take 8)) = 0 ∧ UInt64.ofNat (leNat ((last.drop (8 * 11)).take 8)) = 0 ∧ UInt64.ofNat (leNat ((last.drop (8 * 12)).take 8)) = 0 ∧ UInt64.ofNat (leNat ((last.drop (8 * 13)).take 8)) = 0 ∧ UInt64.ofNat (leNat ((last.drop (8 * 14)).take 8)) = 0 ∧ UInt64.ofNat (leNat ((last.drop (8 * 15)).take 8)) = 0 ∧ UInt64.ofNat (leNat ((last.drop (8 * 16)).take 8)) = 9223372036854775808 ∧ UInt64.ofNat (leNat ((last.drop (8 * 17)).take 8)) = 0 ∧ UInt64.ofNat (leNat ((last.drop (8 * 18)).take 8)) = 0 ∧ UInt64.ofNat (leNat ((last.drop (8 * 19)).take 8)) = 0 ∧ UInt64.ofNat (leNat ((last.drop (8 * 20)).take 8)) = 0 ∧ UInt64.ofNat (leNat ((last.drop (8 * 21)).take 8)) = 0 ∧ UInt64.ofNat (leNat ((last.drop (8 * 22)).take 8)) = 0 ∧ UInt64.ofNat (leNat ((last.drop (8 * 23)).take 8)) = 0 ∧ UInt64.ofNat (leNat ((last.drop (8 * 24)).take 8)) = 0 := by decide +kernel

attribute [local irreducible] Spec.Sha3.absorb kloop constants

theorem sha3_136 (m : Bytes) (hm : m.length = 136) : sha3 m = ((Spec.Sha3.absorb (Spec.Sha3.absorb (List.replicate 25 0) m) last).flatMap fun w => leBytes 8 w.toNat).take 32 := by
  unfold sha3
  rw [Sha3.sha3_eq (bs := 136) (.inr (.inl rfl)) m 256 rfl, hm]
  simp only [Nat.reduceDiv, Chunks.chunks, Nat.reduceMod, Nat.reduceSub, Nat.reduceMul]
  rw [List.drop_eq_nil_of_le (as := m) (by omega), List.take_of_length_le (l := m) (by omega)]
  rfl

theorem absorb_first {α : Type} (m : Bytes) (hm : m.length = 136) (k : Nat → Nat → Nat → Nat → Nat → Nat → Nat → Nat → Nat → Nat → Nat → Nat → Nat → Nat → Nat → Nat → Nat → Nat → Nat → Nat → Nat → Nat → Nat → Nat → Nat → α) :
    kloop constants (UInt64.ofNat (leNat ((m.drop (8 * 0)).take 8))).toNat (UInt64.ofNat (leNat ((m.drop (8 * 1)).take 8))).toNat (UInt64.ofNat (leNat ((m.drop (8 * 2)).take 8))).toNat (UInt64.ofNat (leNat ((m.drop (8 * 3)).take 8))).toNat (UInt64.ofNat (leNat ((m.drop (8 * 4)).take 8))).toNat (UInt64.ofNat (leNat ((m.drop (8 * 5)).take 8))).toNat (UInt64.ofNat (leNat ((m.drop (8 * 6)).take 8))).toNat (UInt64.ofNat (leNat ((m.drop (8 * 7)).take 8))).toNat (UInt64.ofNat (leNat ((m.drop (8 * 8)).take 8))).toNat (UInt64.ofNat (leNat ((m.drop (8 * 9)).take 8))).toNat (UInt64.ofNat (leNat ((m.drop (8 * 10)).take 8))).toNat (UInt64.ofNat (leNat ((m.drop (8 * 11)).take 8))).toNat (UInt64.ofNat (leNat ((m.drop (8 * 12)).take 8))).toNat (UInt64.ofNat (leNat ((m.drop (8 * 13)).take 8))).toNat (UInt64.ofNat (leNat ((m.drop (8 * 14)).take 8))).toNat (UInt64.ofNat (leNat ((m.drop (8 * 15)).take 8))).toNat (UInt64.ofNat (leNat ((m.drop (8 * 16)).take 8))).toNat 0 0 0 0 0 0 0 0 k = kapp k (Spec.Sha3.absorb (List.replicate 25 0) m) := by
  have h1 := absorb_fast (α := α) (List.replicate 25 0) rfl m k
  have hz : ∀ i, 17 ≤ i → leNat ((m.drop (8 * i)).take 8) = 0 := by
    intro i hi
    rw [List.drop_eq_nil_of_le (as := m) (by omega)]; rfl
  rw [hz 17 (by decide), hz 18 (by decide), hz 19 (by decide), hz 20 (by decide), hz 21 (by decide), hz 22 (by decide), hz 23 (by decide), hz 24 (by decide)] at h1
  simp only [show (List.replicate 25 (0 : UInt64)).getD 0 0 = 0 from rfl, show (List.replicate 25 (0 : UInt64)).getD 1 0 = 0 from rfl, show (List.replicate 25 (0 : UInt64)).getD 2 0 = 0 from rfl, show (List.replicate 25 (0 : UInt64)).getD 3 0 = 0 from rfl, show (List.replicate 25 (0 : UInt64)).getD 4 0 = 0 from rfl, show (List.replicate 25 (0 : UInt64)).getD 5 0 = 0 from rfl, show (List.replicate 25 (0 : UInt64)).getD 6 0 = 0 from rfl, show (List.replicate 25 (0 : UInt64)).getD 7 0 = 0 from rfl, show (List.replicate 25 (0 : UInt64)).getD 8 0 = 0 from rfl, show (List.replicate 25 (0 : UInt64)).getD 9 0 = 0 from rfl, show (List.replicate 25 (0 : UInt64)).getD 10 0 = 0 from rfl, show (List.replicate 25 (0 : UInt64)).getD 11 0 = 0 from rfl, show (List.replicate 25 (0 : UInt64)).getD 12 0 = 0 from rfl, show (List.replicate 25 (0 : UInt64)).getD 13 0 = 0 from rfl, show (List.replicate 25 (0 : UInt64)).getD 14 0 = 0 from rfl, show (List.replicate 25 (0 : UInt64)).getD 15 0 = 0 from rfl, show (List.replicate 25 (0 : UInt64)).getD 16 0 = 0 from rfl, show (List.replicate 25 (0 : UInt64)).getD 17 0 = 0 from rfl, show (List.replicate 25 (0 : UInt64)).getD 18 0 = 0 from rfl, show (List.replicate 25 (0 : UInt64)).getD 19 0 = 0 from rfl, show (List.replicate 25 (0 : UInt64)).getD 20 0 = 0 from rfl, show (List.replicate 25 (0 : UInt64)).getD 21 0 = 0 from rfl, show (List.replicate 25 (0 : UInt64)).getD 22 0 = 0 from rfl, show (List.replicate 25 (0 : UInt64)).getD 23 0 = 0 from rfl, show (List.replicate 25 (0 : UInt64)).getD 24 0 = 0 from rfl, UInt64.zero_xor, show (UInt64.ofNat 0).toNat = 0 from rfl] at h1
  exact h1

theorem absorb_last {α : Type} (A : List UInt64) (hl : A.length = 25) (k : Nat → Nat → Nat → Nat → Nat → Nat → Nat → Nat → Nat → Nat → Nat → Nat → Nat → Nat → Nat → Nat → Nat → Nat → Nat → Nat → Nat → Nat → Nat → Nat → Nat → α) :
    kloop constants (A.getD 0 0 ^^^ 6).toNat (A.getD 1 0).toNat (A.getD 2 0).toNat (A.getD 3 0).toNat (A.getD 4 0).toNat (A.getD 5 0).toNat (A.getD 6 0).toNat (A.getD 7 0).toNat (A.getD 8 0).toNat (A.getD 9 0).toNat (A.getD 10 0).toNat (A.getD 11 0).toNat (A.getD 12 0).toNat (A.getD 13 0).toNat (A.getD 14 0).toNat (A.getD 15 0).toNat (A.getD 16 0 ^^^ 9223372036854775808).toNat (A.getD 17 0).toNat (A.getD 18 0).toNat (A.getD 19 0).toNat (A.getD 20 0).toNat (A.getD 21 0).toNat (A.getD 22 0).toNat (A.getD 23 0).toNat (A.getD 24 0).toNat k = kapp k (Spec.Sha3.absorb A last) := by
  have h2 := absorb_fast (α := α) A hl last k
  obtain ⟨e0, e1, e2, e3, e4, e5, e6, e7, e8, e9, e10, e11, e12, e13, e14, e15, e16, e17, e18, e19, e20, e21, e22, e23, e24⟩ := last_words
  rw [e0, e1, e2, e3, e4, e5, e6, e7, e8, e9, e10, e11, e12, e13, e14, e15, e16, e17, e18, e19, e20, e21, e22, e23, e24] at h2
  simp only [UInt64.xor_zero] at h2
  exact h2

theorem sha_eq {α : Type} (m : Bytes) (hm : m.length = 136) (k : Nat → α) : sha (leNat m) k = k (leNat (sha3 m)) := by
  unfold sha
  rw [sha3_136 m hm]
  simp only [force_eq]
  rw [word_eq m 0 0 rfl, word_eq m 1 64 rfl, word_eq m 2 128 rfl, word_eq m 3 192 rfl, word_eq m 4 256 rfl, word_eq m 5 320 rfl, word_eq m 6 384 rfl, word_eq m 7 448 rfl, word_eq m 8 512 rfl, word_eq m 9 576 rfl, word_eq m 10 640 rfl, word_eq m 11 704 rfl, word_eq m 12 768 rfl, word_eq m 13 832 rfl, word_eq m 14 896 rfl, word_eq m 15 960 rfl, word_eq m 16 1024 rfl]
  rw [absorb_first m hm]
  have hl := absorb_length (List.replicate 25 0) rfl m
  generalize Spec.Sha3.absorb (List.replicate 25 0) m = A at hl ⊢
  unfold kapp
  dsimp only
  rw [show Nat.xor (A.getD 0 0).toNat 6 = (A.getD 0 0 ^^^ 6).toNat from xor_toNat _ 6,
    show Nat.xor (A.getD 16 0).toNat 9223372036854775808 = (A.getD 16 0 ^^^ 9223372036854775808).toNat from xor_toNat _ 9223372036854775808]
  rw [absorb_last A hl]
  have hl2 := absorb_length A hl last
  generalize Spec.Sha3.absorb A last = B at hl2 ⊢
  unfold kapp
  dsimp only
  rw [flat_take B 4, take4 hl2]
  refine congrArg k ?_
  simp only [leNat_flat_cons, List.flatMap_nil, leNat, Nat.mul_zero, Nat.add_zero]
  rfl


/-! ## Headers -/

theorem xor_split (a b x y : Nat) (ha : a < 256) (hb : b < 256) : (a + 256 * x) ^^^ (b + 256 * y) = (a ^^^ b) + 256 * (x ^^^ y) := by
  have h1 : ((a + 256 * x) ^^^ (b + 256 * y)) % 2 ^ 8 = a ^^^ b := by
    rw [Nat.xor_mod_two_pow, show (a + 256 * x) % 2 ^ 8 = a by omega, show (b + 256 * y) % 2 ^ 8 = b by omega]
  have h2 : ((a + 256 * x) ^^^ (b + 256 * y)) / 2 ^ 8 = x ^^^ y := by
    rw [Nat.xor_div_two_pow, show (a + 256 * x) / 2 ^ 8 = x by omega, show (b + 256 * y) / 2 ^ 8 = y by omega]
  omega

theorem leNat_xor : ∀ (a b : Bytes), a.length = b.length → leNat (List.zipWith (· ^^^ ·) a b) = leNat a ^^^ leNat b
  | [], [], _ => rfl
  | x :: a, y :: b, h => by
    rw [List.zipWith_cons_cons, leNat, leNat, leNat, leNat_xor a b (by simpa using h), xor_split _ _ _ _ x.toNat_lt y.toNat_lt, UInt8.toNat_xor]

/-- The header whose 236 bytes are the number's. -/
def hdrOf (X : Nat) : Hdr :=
  ⟨X % 2 ^ 32, X / 2 ^ 32 % 2 ^ 64, leBytes 32 (X / 2 ^ 96), leBytes 32 (X / 2 ^ 352), leBytes 24 (X / 2 ^ 608), leBytes 32 (X / 2 ^ 800),
    leBytes 32 (X / 2 ^ 1056), leBytes 32 (X / 2 ^ 1312), X / 2 ^ 1568 % 2 ^ 32, X / 2 ^ 1600 % 2 ^ 32, leBytes 32 (X / 2 ^ 1632)⟩

theorem leBytes_add (a b X : Nat) : leBytes (a + b) X = leBytes a X ++ leBytes b (X / 256 ^ a) := by
  induction a generalizing X with
  | zero => simp [leBytes]
  | succ a ih =>
    rw [show a + 1 + b = (a + b) + 1 by omega, leBytes, leBytes, ih, List.cons_append, Nat.pow_succ, Nat.mul_comm (256 ^ a), Nat.div_div_eq_div_mul]

theorem leBytes_mod (k X : Nat) : leBytes k (X % 256 ^ k) = leBytes k X :=
  leNat_inj (by simp) (by rw [leNat_leBytes, leNat_leBytes, Nat.mod_mod])

theorem leBytes_split (a b c X e : Nat) (h : c = a + b) (he : e = 8 * a) : leBytes c X = leBytes a X ++ leBytes b (X / 2 ^ e) := by
  subst h he; rw [← Addr.pow256]; exact leBytes_add a b X

theorem write_hdrOf (X : Nat) : write (hdrOf X) = leBytes 236 X := by
  unfold write hdrOf Bio.writeU32 Bio.writeU64
  dsimp only
  rw [show leBytes 4 (X % 2 ^ 32) = leBytes 4 X from leBytes_mod 4 X, show leBytes 8 (X / 2 ^ 32 % 2 ^ 64) = leBytes 8 (X / 2 ^ 32) from leBytes_mod 8 _,
    show leBytes 4 (X / 2 ^ 1568 % 2 ^ 32) = leBytes 4 (X / 2 ^ 1568) from leBytes_mod 4 _, show leBytes 4 (X / 2 ^ 1600 % 2 ^ 32) = leBytes 4 (X / 2 ^ 1600) from leBytes_mod 4 _]
  rw [leBytes_split 204 32 236 X 1632 rfl rfl, leBytes_split 200 4 204 X 1600 rfl rfl, leBytes_split 196 4 200 X 1568 rfl rfl,
    leBytes_split 164 32 196 X 1312 rfl rfl, leBytes_split 132 32 164 X 1056 rfl rfl, leBytes_split 100 32 132 X 800 rfl rfl,
    leBytes_split 76 24 100 X 608 rfl rfl, leBytes_split 44 32 76 X 352 rfl rfl, leBytes_split 12 32 44 X 96 rfl rfl,
    leBytes_split 4 8 12 X 32 rfl rfl]

theorem hdrOf_wf (X : Nat) : WF (hdrOf X) :=
  ⟨Nat.mod_lt _ (by decide), Nat.mod_lt _ (by decide), leBytes_length _ _, leBytes_length _ _, leBytes_length _ _, leBytes_length _ _, leBytes_length _ _,
    leBytes_length _ _, Nat.mod_lt _ (by decide), Nat.mod_lt _ (by decide), leBytes_length _ _⟩

theorem read_hdrOf (X : Nat) (r : Bytes) : read (leBytes 236 X ++ r) = .ok (hdrOf X, r) :=
  read_eq_ok.2 ⟨by rw [write_hdrOf], hdrOf_wf X⟩

theorem hdrOf_leNat {h : Hdr} (hw : WF h) : hdrOf (leNat (write h)) = h := by
  have e : write h = leBytes 236 (leNat (write h)) := by
    have hl : (write h).length = 236 := by
      simp [write, Bio.writeU32, Bio.writeU64, hw.prevBlock, hw.nameRoot, hw.extraNonce, hw.reservedRoot, hw.witnessRoot, hw.merkleRoot, hw.mask]
    rw [← hl, leBytes_leNat]
  have h1 := read_hdrOf (leNat (write h)) []
  rw [← e] at h1
  have h2 : read (write h ++ []) = .ok (h, []) := read_eq_ok.2 ⟨rfl, hw⟩
  rw [h2] at h1
  exact (Prod.mk.inj (Out.ok.inj h1)).1.symm

/-- The block hash of the header, as a number. -/
noncomputable def fhash {α : Type} (X : Nat) (k : Nat → α) : α :=
  force X fun X =>
  force (Nat.mod (Nat.shiftRight X 96) 115792089237316195423570985008687907853269984665640564039457584007913129639936) fun prev =>
  force (Nat.mod (Nat.shiftRight X 352) 115792089237316195423570985008687907853269984665640564039457584007913129639936) fun name =>
  force (Nat.mod (Nat.shiftRight X 1632) 115792089237316195423570985008687907853269984665640564039457584007913129639936) fun mask =>
  force (Nat.xor prev name) fun pad =>
  b256 128 (Nat.mod (Nat.shiftRight X 608) 179769313486231590772930519078902473361797697894230657273430081157732675805500963132708477322407536021120113879871393357658789768814416622492847430639474124377767893424865485276302219601246094119453082952085005768838150682342462881473913110540827237163350510684586298239947245938479716304835356329624224137216) fun sub =>
  b256 64 (Nat.add prev (Nat.mul 115792089237316195423570985008687907853269984665640564039457584007913129639936 mask)) fun mh =>
  b256 64 (Nat.add sub (Nat.mul 115792089237316195423570985008687907853269984665640564039457584007913129639936 mh)) fun com =>
  force (Nat.add (Nat.mod X 79228162514264337593543950336) (Nat.mul 79228162514264337593543950336 (Nat.add (Nat.mod pad 1461501637330902918203684832716283019655932542976) (Nat.mul 1461501637330902918203684832716283019655932542976 (Nat.add prev (Nat.mul 115792089237316195423570985008687907853269984665640564039457584007913129639936 (Nat.add name (Nat.mul 115792089237316195423570985008687907853269984665640564039457584007913129639936 com)))))))) fun work =>
  b512 128 work fun l =>
  sha (Nat.add work (Nat.mul 179769313486231590772930519078902473361797697894230657273430081157732675805500963132708477322407536021120113879871393357658789768814416622492847430639474124377767893424865485276302219601246094119453082952085005768838150682342462881473913110540827237163350510684586298239947245938479716304835356329624224137216 (Nat.mod pad 18446744073709551616))) fun r =>
  b256 128 (Nat.add l (Nat.mul 13407807929942597099574024998205846127479365820592393377723561443721764030073546976801874298166903427690031858186486050853753882811946569946433649006084096 (Nat.add pad (Nat.mul 115792089237316195423570985008687907853269984665640564039457584007913129639936 r)))) fun f =>
  force (Nat.xor f mask) k

theorem pad_leNat (h : Hdr) (hp : h.prevBlock.length = 32) (hn : h.nameRoot.length = 32) (n : Nat) (hle : n ≤ 32) :
    leNat (pad h n) = (leNat h.prevBlock ^^^ leNat h.nameRoot) % 256 ^ n := by
  unfold pad
  rw [List.zipWith_append (by omega), List.take_append_of_le_length (by simp; omega), leNat_take, leNat_xor _ _ (by omega)]

attribute [local irreducible] Spec.Blake2b.blake2b Spec.Sha3.sha3

theorem fhash_eq {α : Type} (X : Nat) (k : Nat → α) : fhash X k = k (leNat (blockHash (hdrOf X))) := by
  have hw := hdrOf_wf X
  have ep : leNat (hdrOf X).prevBlock = Nat.mod (Nat.shiftRight X 96) 115792089237316195423570985008687907853269984665640564039457584007913129639936 := by
    unfold hdrOf; dsimp only; rw [leNat_leBytes]; exact congrArg (· % _) (Nat.shiftRight_eq_div_pow X 96).symm
  have en : leNat (hdrOf X).nameRoot = Nat.mod (Nat.shiftRight X 352) 115792089237316195423570985008687907853269984665640564039457584007913129639936 := by
    unfold hdrOf; dsimp only; rw [leNat_leBytes]; exact congrArg (· % _) (Nat.shiftRight_eq_div_pow X 352).symm
  have em : leNat (hdrOf X).mask = Nat.mod (Nat.shiftRight X 1632) 115792089237316195423570985008687907853269984665640564039457584007913129639936 := by
    unfold hdrOf; dsimp only; rw [leNat_leBytes]; exact congrArg (· % _) (Nat.shiftRight_eq_div_pow X 1632).symm
  have es : leNat (sub (hdrOf X)) = Nat.mod (Nat.shiftRight X 608) 179769313486231590772930519078902473361797697894230657273430081157732675805500963132708477322407536021120113879871393357658789768814416622492847430639474124377767893424865485276302219601246094119453082952085005768838150682342462881473913110540827237163350510684586298239947245938479716304835356329624224137216 := by
    have : sub (hdrOf X) = leBytes 128 (X / 2 ^ 608) := by
      unfold sub hdrOf
      dsimp only
      rw [show leBytes 4 (X / 2 ^ 1568 % 2 ^ 32) = leBytes 4 (X / 2 ^ 1568) from leBytes_mod 4 _, show leBytes 4 (X / 2 ^ 1600 % 2 ^ 32) = leBytes 4 (X / 2 ^ 1600) from leBytes_mod 4 _]
      rw [leBytes_split 124 4 128 (X / 2 ^ 608) 992 rfl rfl, leBytes_split 120 4 124 (X / 2 ^ 608) 960 rfl rfl,
        leBytes_split 88 32 120 (X / 2 ^ 608) 704 rfl rfl, leBytes_split 56 32 88 (X / 2 ^ 608) 448 rfl rfl, leBytes_split 24 32 56 (X / 2 ^ 608) 192 rfl rfl]
      simp only [Nat.div_div_eq_div_mul, ← Nat.pow_add, Nat.reduceAdd]
    rw [this, leNat_leBytes]; exact congrArg (· % _) (Nat.shiftRight_eq_div_pow X 608).symm
  have et : leNat (leBytes 4 (hdrOf X).nonce ++ leBytes 8 (hdrOf X).time) = Nat.mod X 79228162514264337593543950336 := by
    have : leBytes 4 (hdrOf X).nonce ++ leBytes 8 (hdrOf X).time = leBytes 12 X := by
      unfold hdrOf
      dsimp only
      rw [show leBytes 4 (X % 2 ^ 32) = leBytes 4 X from leBytes_mod 4 X, show leBytes 8 (X / 2 ^ 32 % 2 ^ 64) = leBytes 8 (X / 2 ^ 32) from leBytes_mod 8 _,
        leBytes_split 4 8 12 X 32 rfl rfl]
    rw [this, leNat_leBytes]; rfl
  generalize hdrOf X = h at hw ep en em es et ⊢
  have l1 := hw.prevBlock; have l2 := hw.nameRoot; have l3 := hw.mask; have l4 := hw.extraNonce; have l5 := hw.reservedRoot
  have l6 := hw.witnessRoot; have l7 := hw.merkleRoot
  have b1 := HeaderHash.blake256_length; have b2 := HeaderHash.blake512_length; have b3 := HeaderHash.sha3_length
  have pl : ∀ n, n ≤ 64 → (pad h n).length = n := by intro n hn; simp [pad, l1, l2, hn]
  have hx : leNat h.prevBlock ^^^ leNat h.nameRoot < 256 ^ 32 := by
    have := leNat_lt (List.zipWith (· ^^^ ·) h.prevBlock h.nameRoot)
    rw [leNat_xor _ _ (by omega)] at this
    simpa [l1, l2] using this
  have sl : (sub h).length = 128 := by simp [sub, l4, l5, l6, l7]
  have cl : (commitment h).length = 32 := b1 _
  have wl : (work h).length = 128 := by simp [work, l1, l2, pl 20 (by decide), cl]
  have c1 : Nat.add (leNat h.prevBlock) (Nat.mul 115792089237316195423570985008687907853269984665640564039457584007913129639936 (leNat h.mask)) = leNat (h.prevBlock ++ h.mask) := by rw [leNat_append, l1]; rfl
  have c2 : Nat.add (leNat (blake256 (sub h))) (Nat.mul 115792089237316195423570985008687907853269984665640564039457584007913129639936 (leNat (blake256 (h.prevBlock ++ h.mask)))) = leNat (blake256 (sub h) ++ blake256 (h.prevBlock ++ h.mask)) := by
    rw [leNat_append, b1]; rfl
  have c3 : Nat.add (leNat (leBytes 4 h.nonce ++ leBytes 8 h.time)) (Nat.mul 79228162514264337593543950336 (Nat.add (leNat (pad h 20)) (Nat.mul 1461501637330902918203684832716283019655932542976 (Nat.add (leNat h.prevBlock)
      (Nat.mul 115792089237316195423570985008687907853269984665640564039457584007913129639936 (Nat.add (leNat h.nameRoot) (Nat.mul 115792089237316195423570985008687907853269984665640564039457584007913129639936 (leNat (commitment h))))))))) = leNat (work h) := by
    have : work h = (leBytes 4 h.nonce ++ leBytes 8 h.time) ++ (pad h 20 ++ (h.prevBlock ++ (h.nameRoot ++ commitment h))) := by
      simp only [work, List.append_assoc]
    rw [this, leNat_append (leBytes 4 h.nonce ++ leBytes 8 h.time), leNat_append (pad h 20), leNat_append h.prevBlock, leNat_append h.nameRoot, l1, l2, pl 20 (by decide),
      List.length_append, leBytes_length, leBytes_length]
    rfl
  have c4 : Nat.add (leNat (work h)) (Nat.mul 179769313486231590772930519078902473361797697894230657273430081157732675805500963132708477322407536021120113879871393357658789768814416622492847430639474124377767893424865485276302219601246094119453082952085005768838150682342462881473913110540827237163350510684586298239947245938479716304835356329624224137216 (leNat (pad h 8))) = leNat (work h ++ pad h 8) := by rw [leNat_append, wl]; rfl
  have c5 : Nat.add (leNat (blake512 (work h))) (Nat.mul 13407807929942597099574024998205846127479365820592393377723561443721764030073546976801874298166903427690031858186486050853753882811946569946433649006084096 (Nat.add (leNat (pad h 32)) (Nat.mul 115792089237316195423570985008687907853269984665640564039457584007913129639936 (leNat (sha3 (work h ++ pad h 8)))))) =
      leNat (blake512 (work h) ++ pad h 32 ++ sha3 (work h ++ pad h 8)) := by
    rw [List.append_assoc, leNat_append (blake512 (work h)), leNat_append (pad h 32), b2, pl 32 (by decide)]; rfl
  have p20 : Nat.mod (leNat h.prevBlock ^^^ leNat h.nameRoot) 1461501637330902918203684832716283019655932542976 = leNat (pad h 20) := (pad_leNat h l1 l2 20 (by decide)).symm
  have p8 : Nat.mod (leNat h.prevBlock ^^^ leNat h.nameRoot) 18446744073709551616 = leNat (pad h 8) := (pad_leNat h l1 l2 8 (by decide)).symm
  have p32 : leNat h.prevBlock ^^^ leNat h.nameRoot = leNat (pad h 32) := by rw [pad_leNat h l1 l2 32 (by decide), Nat.mod_eq_of_lt hx]
  have hb1 : ∀ k : Nat → α, b256 128 (leNat (sub h)) k = k (leNat (blake256 (sub h))) := fun k => by
    have := b256_eq (sub h) (by omega) k; rwa [sl] at this
  have hb2 : ∀ k : Nat → α, b256 64 (leNat (h.prevBlock ++ h.mask)) k = k (leNat (blake256 (h.prevBlock ++ h.mask))) := fun k => by
    have hl : (h.prevBlock ++ h.mask).length = 64 := by simp [l1, l3]
    have := b256_eq (h.prevBlock ++ h.mask) (by omega) k; rwa [hl] at this
  have hb3 : ∀ k : Nat → α, b256 64 (leNat (blake256 (sub h) ++ blake256 (h.prevBlock ++ h.mask))) k = k (leNat (commitment h)) := fun k => by
    have hl : (blake256 (sub h) ++ blake256 (h.prevBlock ++ h.mask)).length = 64 := by simp [b1]
    have := b256_eq (blake256 (sub h) ++ blake256 (h.prevBlock ++ h.mask)) (by omega) k; rwa [hl] at this
  have hb4 : ∀ k : Nat → α, b512 128 (leNat (work h)) k = k (leNat (blake512 (work h))) := fun k => by
    have := b512_eq (work h) (by omega) k; rwa [wl] at this
  have hb5 : ∀ k : Nat → α, b256 128 (leNat (blake512 (work h) ++ pad h 32 ++ sha3 (work h ++ pad h 8))) k =
      k (leNat (blake256 (blake512 (work h) ++ pad h 32 ++ sha3 (work h ++ pad h 8)))) := fun k => by
    have hl : (blake512 (work h) ++ pad h 32 ++ sha3 (work h ++ pad h 8)).length = 128 := by simp [b2, b3, pl 32 (by decide)]
    have := b256_eq (blake512 (work h) ++ pad h 32 ++ sha3 (work h ++ pad h 8)) (by omega) k; rwa [hl] at this
  have hs : ∀ k : Nat → α, sha (leNat (work h ++ pad h 8)) k = k (leNat (sha3 (work h ++ pad h 8))) := fun k =>
    sha_eq _ (by simp [wl, pl 8 (by decide)]) k
  have xd : ∀ a b : Nat, Nat.xor a b = a ^^^ b := fun _ _ => rfl
  unfold fhash
  rw [force_eq]
  rw [← ep, ← en, ← em, ← es, ← et]
  simp only [force_eq, xd]
  rw [hb1, c1, hb2, c2, hb3, p20, c3, hb4, p8, c4, hs, p32, c5, hb5]
  unfold blockHash
  rw [leNat_xor _ _ (by rw [b1, l3])]

end Verif.Fast
