import Verif.Lemmas.FastBlake
import Verif.Lemmas.Sha3
/-
Keccak on numbers, in a form the kernel evaluates quickly.
-/
namespace Verif.Fast
open Verif.Spec.Sha3 (rotl)

theorem rotl_toNat (x : UInt64) (n s : Nat) (hn : 0 < n) (hs : n < 64) (h : s = 64 - n) : rot x.toNat s n = (rotl x n).toNat := by
  subst h
  show _ = (x.toBitVec.rotateLeft n).toNat
  rw [BitVec.toNat_rotateLeft, Nat.mod_eq_of_lt hs, Nat.or_comm]
  rfl

theorem and_toNat (a b : UInt64) : Nat.land a.toNat b.toNat = (a &&& b).toNat := (UInt64.toNat_and a b).symm
theorem not_toNat (a : UInt64) : Nat.sub 18446744073709551615 a.toNat = (~~~a).toNat := (UInt64.toNat_not a).symm

noncomputable def kround {α : Type} (rc : Nat) (a0 a1 a2 a3 a4 a5 a6 a7 a8 a9 a10 a11 a12 a13 a14 a15 a16 a17 a18 a19 a20 a21 a22 a23 a24 : Nat) (k : Nat → Nat → Nat → Nat → Nat → Nat → Nat → Nat → Nat → Nat → Nat → Nat → Nat → Nat → Nat → Nat → Nat → Nat → Nat → Nat → Nat → Nat → Nat → Nat → Nat → α) : α :=
  force (Nat.xor (Nat.xor (Nat.xor (Nat.xor a0 a5) a10) a15) a20) fun c0 =>
  force (Nat.xor (Nat.xor (Nat.xor (Nat.xor a1 a6) a11) a16) a21) fun c1 =>
  force (Nat.xor (Nat.xor (Nat.xor (Nat.xor a2 a7) a12) a17) a22) fun c2 =>
  force (Nat.xor (Nat.xor (Nat.xor (Nat.xor a3 a8) a13) a18) a23) fun c3 =>
  force (Nat.xor (Nat.xor (Nat.xor (Nat.xor a4 a9) a14) a19) a24) fun c4 =>
  force (Nat.xor c4 (rot c1 63 1)) fun d0 =>
  force (Nat.xor c0 (rot c2 63 1)) fun d1 =>
  force (Nat.xor c1 (rot c3 63 1)) fun d2 =>
  force (Nat.xor c2 (rot c4 63 1)) fun d3 =>
  force (Nat.xor c3 (rot c0 63 1)) fun d4 =>
  force (Nat.xor a0 d0) fun b0 =>
  force (rot (Nat.xor a6 d1) 20 44) fun b1 =>
  force (rot (Nat.xor a12 d2) 21 43) fun b2 =>
  force (rot (Nat.xor a18 d3) 43 21) fun b3 =>
  force (rot (Nat.xor a24 d4) 50 14) fun b4 =>
  force (rot (Nat.xor a3 d3) 36 28) fun b5 =>
  force (rot (Nat.xor a9 d4) 44 20) fun b6 =>
  force (rot (Nat.xor a10 d0) 61 3) fun b7 =>
  force (rot (Nat.xor a16 d1) 19 45) fun b8 =>
  force (rot (Nat.xor a22 d2) 3 61) fun b9 =>
  force (rot (Nat.xor a1 d1) 63 1) fun b10 =>
  force (rot (Nat.xor a7 d2) 58 6) fun b11 =>
  force (rot (Nat.xor a13 d3) 39 25) fun b12 =>
  force (rot (Nat.xor a19 d4) 56 8) fun b13 =>
  force (rot (Nat.xor a20 d0) 46 18) fun b14 =>
  force (rot (Nat.xor a4 d4) 37 27) fun b15 =>
  force (rot (Nat.xor a5 d0) 28 36) fun b16 =>
  force (rot (Nat.xor a11 d1) 54 10) fun b17 =>
  force (rot (Nat.xor a17 d2) 49 15) fun b18 =>
  force (rot (Nat.xor a23 d3) 8 56) fun b19 =>
  force (rot (Nat.xor a2 d2) 2 62) fun b20 =>
  force (rot (Nat.xor a8 d3) 9 55) fun b21 =>
  force (rot (Nat.xor a14 d4) 25 39) fun b22 =>
  force (rot (Nat.xor a15 d0) 23 41) fun b23 =>
  force (rot (Nat.xor a21 d1) 62 2) fun b24 =>
  force (Nat.xor (Nat.xor b0 (Nat.land (Nat.sub 18446744073709551615 b1) b2)) rc) fun e0 =>
  force (Nat.xor b1 (Nat.land (Nat.sub 18446744073709551615 b2) b3)) fun e1 =>
  force (Nat.xor b2 (Nat.land (Nat.sub 18446744073709551615 b3) b4)) fun e2 =>
  force (Nat.xor b3 (Nat.land (Nat.sub 18446744073709551615 b4) b0)) fun e3 =>
  force (Nat.xor b4 (Nat.land (Nat.sub 18446744073709551615 b0) b1)) fun e4 =>
  force (Nat.xor b5 (Nat.land (Nat.sub 18446744073709551615 b6) b7)) fun e5 =>
  force (Nat.xor b6 (Nat.land (Nat.sub 18446744073709551615 b7) b8)) fun e6 =>
  force (Nat.xor b7 (Nat.land (Nat.sub 18446744073709551615 b8) b9)) fun e7 =>
  force (Nat.xor b8 (Nat.land (Nat.sub 18446744073709551615 b9) b5)) fun e8 =>
  force (Nat.xor b9 (Nat.land (Nat.sub 18446744073709551615 b5) b6)) fun e9 =>
  force (Nat.xor b10 (Nat.land (Nat.sub 18446744073709551615 b11) b12)) fun e10 =>
  force (Nat.xor b11 (Nat.land (Nat.sub 18446744073709551615 b12) b13)) fun e11 =>
  force (Nat.xor b12 (Nat.land (Nat.sub 18446744073709551615 b13) b14)) fun e12 =>
  force (Nat.xor b13 (Nat.land (Nat.sub 18446744073709551615 b14) b10)) fun e13 =>
  force (Nat.xor b14 (Nat.land (Nat.sub 18446744073709551615 b10) b11)) fun e14 =>
  force (Nat.xor b15 (Nat.land (Nat.sub 18446744073709551615 b16) b17)) fun e15 =>
  force (Nat.xor b16 (Nat.land (Nat.sub 18446744073709551615 b17) b18)) fun e16 =>
  force (Nat.xor b17 (Nat.land (Nat.sub 18446744073709551615 b18) b19)) fun e17 =>
  force (Nat.xor b18 (Nat.land (Nat.sub 18446744073709551615 b19) b15)) fun e18 =>
  force (Nat.xor b19 (Nat.land (Nat.sub 18446744073709551615 b15) b16)) fun e19 =>
  force (Nat.xor b20 (Nat.land (Nat.sub 18446744073709551615 b21) b22)) fun e20 =>
  force (Nat.xor b21 (Nat.land (Nat.sub 18446744073709551615 b22) b23)) fun e21 =>
  force (Nat.xor b22 (Nat.land (Nat.sub 18446744073709551615 b23) b24)) fun e22 =>
  force (Nat.xor b23 (Nat.land (Nat.sub 18446744073709551615 b24) b20)) fun e23 =>
  force (Nat.xor b24 (Nat.land (Nat.sub 18446744073709551615 b20) b21)) fun e24 =>
  k e0 e1 e2 e3 e4 e5 e6 e7 e8 e9 e10 e11 e12 e13 e14 e15 e16 e17 e18 e19 e20 e21 e22 e23 e24

noncomputable def kapp {α : Type} (k : Nat → Nat → Nat → Nat → Nat → Nat → Nat → Nat → Nat → Nat → Nat → Nat → Nat → Nat → Nat → Nat → Nat → Nat → Nat → Nat → Nat → Nat → Nat → Nat → Nat → α) (l : List UInt64) : α :=
  k (l.getD 0 0).toNat (l.getD 1 0).toNat (l.getD 2 0).toNat (l.getD 3 0).toNat (l.getD 4 0).toNat (l.getD 5 0).toNat (l.getD 6 0).toNat (l.getD 7 0).toNat (l.getD 8 0).toNat (l.getD 9 0).toNat (l.getD 10 0).toNat (l.getD 11 0).toNat (l.getD 12 0).toNat (l.getD 13 0).toNat (l.getD 14 0).toNat (l.getD 15 0).toNat (l.getD 16 0).toNat (l.getD 17 0).toNat (l.getD 18 0).toNat (l.getD 19 0).toNat (l.getD 20 0).toNat (l.getD 21 0).toNat (l.getD 22 0).toNat (l.getD 23 0).toNat (l.getD 24 0).toNat

theorem rot_1 (x : UInt64) : rot x.toNat 63 1 = (rotl x 1).toNat := rotl_toNat x 1 63 (by decide) (by decide) (by decide)
theorem rot_2 (x : UInt64) : rot x.toNat 62 2 = (rotl x 2).toNat := rotl_toNat x 2 62 (by decide) (by decide) (by decide)
theorem rot_3 (x : UInt64) : rot x.toNat 61 3 = (rotl x 3).toNat := rotl_toNat x 3 61 (by decide) (by decide) (by decide)
theorem rot_6 (x : UInt64) : rot x.toNat 58 6 = (rotl x 6).toNat := rotl_toNat x 6 58 (by decide) (by decide) (by decide)
theorem rot_8 (x : UInt64) : rot x.toNat 56 8 = (rotl x 8).toNat := rotl_toNat x 8 56 (by decide) (by decide) (by decide)
theorem rot_10 (x : UInt64) : rot x.toNat 54 10 = (rotl x 10).toNat := rotl_toNat x 10 54 (by decide) (by decide) (by decide)
theorem rot_14 (x : UInt64) : rot x.toNat 50 14 = (rotl x 14).toNat := rotl_toNat x 14 50 (by decide) (by decide) (by decide)
theorem rot_15 (x : UInt64) : rot x.toNat 49 15 = (rotl x 15).toNat := rotl_toNat x 15 49 (by decide) (by decide) (by decide)
theorem rot_18 (x : UInt64) : rot x.toNat 46 18 = (rotl x 18).toNat := rotl_toNat x 18 46 (by decide) (by decide) (by decide)
theorem rot_20 (x : UInt64) : rot x.toNat 44 20 = (rotl x 20).toNat := rotl_toNat x 20 44 (by decide) (by decide) (by decide)
theorem rot_21 (x : UInt64) : rot x.toNat 43 21 = (rotl x 21).toNat := rotl_toNat x 21 43 (by decide) (by decide) (by decide)
theorem rot_25 (x : UInt64) : rot x.toNat 39 25 = (rotl x 25).toNat := rotl_toNat x 25 39 (by decide) (by decide) (by decide)
theorem rot_27 (x : UInt64) : rot x.toNat 37 27 = (rotl x 27).toNat := rotl_toNat x 27 37 (by decide) (by decide) (by decide)
theorem rot_28 (x : UInt64) : rot x.toNat 36 28 = (rotl x 28).toNat := rotl_toNat x 28 36 (by decide) (by decide) (by decide)
theorem rot_36 (x : UInt64) : rot x.toNat 28 36 = (rotl x 36).toNat := rotl_toNat x 36 28 (by decide) (by decide) (by decide)
theorem rot_39 (x : UInt64) : rot x.toNat 25 39 = (rotl x 39).toNat := rotl_toNat x 39 25 (by decide) (by decide) (by decide)
theorem rot_41 (x : UInt64) : rot x.toNat 23 41 = (rotl x 41).toNat := rotl_toNat x 41 23 (by decide) (by decide) (by decide)
theorem rot_43 (x : UInt64) : rot x.toNat 21 43 = (rotl x 43).toNat := rotl_toNat x 43 21 (by decide) (by decide) (by decide)
theorem rot_44 (x : UInt64) : rot x.toNat 20 44 = (rotl x 44).toNat := rotl_toNat x 44 20 (by decide) (by decide) (by decide)
theorem rot_45 (x : UInt64) : rot x.toNat 19 45 = (rotl x 45).toNat := rotl_toNat x 45 19 (by decide) (by decide) (by decide)
theorem rot_55 (x : UInt64) : rot x.toNat 9 55 = (rotl x 55).toNat := rotl_toNat x 55 9 (by decide) (by decide) (by decide)
theorem rot_56 (x : UInt64) : rot x.toNat 8 56 = (rotl x 56).toNat := rotl_toNat x 56 8 (by decide) (by decide) (by decide)
theorem rot_61 (x : UInt64) : rot x.toNat 3 61 = (rotl x 61).toNat := rotl_toNat x 61 3 (by decide) (by decide) (by decide)
theorem rot_62 (x : UInt64) : rot x.toNat 2 62 = (rotl x 62).toNat := rotl_toNat x 62 2 (by decide) (by decide) (by decide)
theorem theta_ex (a0 a1 a2 a3 a4 a5 a6 a7 a8 a9 a10 a11 a12 a13 a14 a15 a16 a17 a18 a19 a20 a21 a22 a23 a24 : UInt64) : Spec.Sha3.theta [a0, a1, a2, a3, a4, a5, a6, a7, a8, a9, a10, a11, a12, a13, a14, a15, a16, a17, a18, a19, a20, a21, a22, a23, a24] = [a0 ^^^ ((a4 ^^^ a9 ^^^ a14 ^^^ a19 ^^^ a24) ^^^ rotl (a1 ^^^ a6 ^^^ a11 ^^^ a16 ^^^ a21) 1), a1 ^^^ ((a0 ^^^ a5 ^^^ a10 ^^^ a15 ^^^ a20) ^^^ rotl (a2 ^^^ a7 ^^^ a12 ^^^ a17 ^^^ a22) 1), a2 ^^^ ((a1 ^^^ a6 ^^^ a11 ^^^ a16 ^^^ a21) ^^^ rotl (a3 ^^^ a8 ^^^ a13 ^^^ a18 ^^^ a23) 1), a3 ^^^ ((a2 ^^^ a7 ^^^ a12 ^^^ a17 ^^^ a22) ^^^ rotl (a4 ^^^ a9 ^^^ a14 ^^^ a19 ^^^ a24) 1), a4 ^^^ ((a3 ^^^ a8 ^^^ a13 ^^^ a18 ^^^ a23) ^^^ rotl (a0 ^^^ a5 ^^^ a10 ^^^ a15 ^^^ a20) 1), a5 ^^^ ((a4 ^^^ a9 ^^^ a14 ^^^ a19 ^^^ a24) ^^^ rotl (a1 ^^^ a6 ^^^ a11 ^^^ a16 ^^^ a21) 1), a6 ^^^ ((a0 ^^^ a5 ^^^ a10 ^^^ a15 ^^^ a20) ^^^ rotl (a2 ^^^ a7 ^^^ a12 ^^^ a17 ^^^ a22) 1), a7 ^^^ ((a1 ^^^ a6 ^^^ a11 ^^^ a16 ^^^ a21) ^^^ rotl (a3 ^^^ a8 ^^^ a13 ^^^ a18 ^^^ a23) 1), a8 ^^^ ((a2 ^^^ a7 ^^^ a12 ^^^ a17 ^^^ a22) ^^^ rotl (a4 ^^^ a9 ^^^ a14 ^^^ a19 ^^^ a24) 1), a9 ^^^ ((a3 ^^^ a8 ^^^ a13 ^^^ a18 ^^^ a23) ^^^ rotl (a0 ^^^ a5 ^^^ a10 ^^^ a15 ^^^ a20) 1), a10 ^^^ ((a4 ^^^ a9 ^^^ a14 ^^^ a19 ^^^ a24) ^^^ rotl (a1 ^^^ a6 ^^^ a11 ^^^ a16 ^^^ a21) 1), a11 ^^^ ((a0 ^^^ a5 ^^^ a10 ^^^ a15 ^^^ a20) ^^^ rotl (a2 ^^^ a7 ^^^ a12 ^^^ a17 ^^^ a22) 1), a12 ^^^ ((a1 ^^^ a6 ^^^ a11 ^^^ a16 ^^^ a21) ^^^ rotl (a3 ^^^ a8 ^^^ a13 ^^^ a18 ^^^ a23) 1), a13 ^^^ ((a2 ^^^ a7 ^^^ a12 ^^^ a17 ^^^ a22) ^^^ rotl (a4 ^^^ a9 ^^^ a14 ^^^ a19 ^^^ a24) 1), a14 ^^^ ((a3 ^^^ a8 ^^^ a13 ^^^ a18 ^^^ a23) ^^^ rotl (a0 ^^^ a5 ^^^ a10 ^^^ a15 ^^^ a20) 1), a15 ^^^ ((a4 ^^^ a9 ^^^ a14 ^^^ a19 ^^^ a24) ^^^ rotl (a1 ^^^ a6 ^^^ a11 ^^^ a16 ^^^ a21) 1), a16 ^^^ ((a0 ^^^ a5 ^^^ a10 ^^^ a15 ^^^ a20) ^^^ rotl (a2 ^^^ a7 ^^^ a12 ^^^ a17 ^^^ a22) 1), a17 ^^^ ((a1 ^^^ a6 ^^^ a11 ^^^ a16 ^^^ a21) ^^^ rotl (a3 ^^^ a8 ^^^ a13 ^^^ a18 ^^^ a23) 1), a18 ^^^ ((a2 ^^^ a7 ^^^ a12 ^^^ a17 ^^^ a22) ^^^ rotl (a4 ^^^ a9 ^^^ a14 ^^^ a19 ^^^ a24) 1), a19 ^^^ ((a3 ^^^ a8 ^^^ a13 ^^^ a18 ^^^ a23) ^^^ rotl (a0 ^^^ a5 ^^^ a10 ^^^ a15 ^^^ a20) 1), a20 ^^^ ((a4 ^^^ a9 ^^^ a14 ^^^ a19 ^^^ a24) ^^^ rotl (a1 ^^^ a6 ^^^ a11 ^^^ a16 ^^^ a21) 1), a21 ^^^ ((a0 ^^^ a5 ^^^ a10 ^^^ a15 ^^^ a20) ^^^ rotl (a2 ^^^ a7 ^^^ a12 ^^^ a17 ^^^ a22) 1), a22 ^^^ ((a1 ^^^ a6 ^^^ a11 ^^^ a16 ^^^ a21) ^^^ rotl (a3 ^^^ a8 ^^^ a13 ^^^ a18 ^^^ a23) 1), a23 ^^^ ((a2 ^^^ a7 ^^^ a12 ^^^ a17 ^^^ a22) ^^^ rotl (a4 ^^^ a9 ^^^ a14 ^^^ a19 ^^^ a24) 1), a24 ^^^ ((a3 ^^^ a8 ^^^ a13 ^^^ a18 ^^^ a23) ^^^ rotl (a0 ^^^ a5 ^^^ a10 ^^^ a15 ^^^ a20) 1)] := by
  unfold Spec.Sha3.theta Spec.Sha3.state Spec.Sha3.lane
  rw [Sha3.range25]
  simp only [List.foldl_cons, List.foldl_nil, List.set_cons_succ, List.set_cons_zero, List.getD_cons_succ, List.getD_cons_zero, List.map_cons, List.map_nil,
    Nat.reduceMod, Nat.reduceMul, Nat.reduceAdd, Nat.reduceDiv, Nat.zero_add, Nat.add_zero, Nat.mul_zero, Nat.zero_mod, Nat.zero_div]

theorem rho_ex (a0 a1 a2 a3 a4 a5 a6 a7 a8 a9 a10 a11 a12 a13 a14 a15 a16 a17 a18 a19 a20 a21 a22 a23 a24 : UInt64) : Spec.Sha3.rho [a0, a1, a2, a3, a4, a5, a6, a7, a8, a9, a10, a11, a12, a13, a14, a15, a16, a17, a18, a19, a20, a21, a22, a23, a24] = [a0, rotl a1 1, rotl a2 62, rotl a3 28, rotl a4 27, rotl a5 36, rotl a6 44, rotl a7 6, rotl a8 55, rotl a9 20, rotl a10 3, rotl a11 10, rotl a12 43, rotl a13 25, rotl a14 39, rotl a15 41, rotl a16 45, rotl a17 15, rotl a18 21, rotl a19 8, rotl a20 18, rotl a21 2, rotl a22 61, rotl a23 56, rotl a24 14] := by
  rw [Sha3.rho_spec, Sha3.path_eq]
  simp only [List.foldl_cons, List.foldl_nil, List.set_cons_succ, List.set_cons_zero, List.getD_cons_succ, List.getD_cons_zero, List.map_cons, List.map_nil,
    Nat.reduceMod, Nat.reduceMul, Nat.reduceAdd, Nat.reduceDiv, Nat.zero_add, Nat.add_zero, Nat.mul_zero, Nat.zero_mod, Nat.zero_div]

theorem pi_ex (a0 a1 a2 a3 a4 a5 a6 a7 a8 a9 a10 a11 a12 a13 a14 a15 a16 a17 a18 a19 a20 a21 a22 a23 a24 : UInt64) : Spec.Sha3.pi [a0, a1, a2, a3, a4, a5, a6, a7, a8, a9, a10, a11, a12, a13, a14, a15, a16, a17, a18, a19, a20, a21, a22, a23, a24] = [a0, a6, a12, a18, a24, a3, a9, a10, a16, a22, a1, a7, a13, a19, a20, a4, a5, a11, a17, a23, a2, a8, a14, a15, a21] := by
  unfold Spec.Sha3.pi Spec.Sha3.state Spec.Sha3.lane
  rw [Sha3.range25]
  simp only [List.foldl_cons, List.foldl_nil, List.set_cons_succ, List.set_cons_zero, List.getD_cons_succ, List.getD_cons_zero, List.map_cons, List.map_nil,
    Nat.reduceMod, Nat.reduceMul, Nat.reduceAdd, Nat.reduceDiv, Nat.zero_add, Nat.add_zero, Nat.mul_zero, Nat.zero_mod, Nat.zero_div]

theorem chi_ex (a0 a1 a2 a3 a4 a5 a6 a7 a8 a9 a10 a11 a12 a13 a14 a15 a16 a17 a18 a19 a20 a21 a22 a23 a24 : UInt64) : Spec.Sha3.chi [a0, a1, a2, a3, a4, a5, a6, a7, a8, a9, a10, a11, a12, a13, a14, a15, a16, a17, a18, a19, a20, a21, a22, a23, a24] = [a0 ^^^ (~~~a1 &&& a2), a1 ^^^ (~~~a2 &&& a3), a2 ^^^ (~~~a3 &&& a4), a3 ^^^ (~~~a4 &&& a0), a4 ^^^ (~~~a0 &&& a1), a5 ^^^ (~~~a6 &&& a7), a6 ^^^ (~~~a7 &&& a8), a7 ^^^ (~~~a8 &&& a9), a8 ^^^ (~~~a9 &&& a5), a9 ^^^ (~~~a5 &&& a6), a10 ^^^ (~~~a11 &&& a12), a11 ^^^ (~~~a12 &&& a13), a12 ^^^ (~~~a13 &&& a14), a13 ^^^ (~~~a14 &&& a10), a14 ^^^ (~~~a10 &&& a11), a15 ^^^ (~~~a16 &&& a17), a16 ^^^ (~~~a17 &&& a18), a17 ^^^ (~~~a18 &&& a19), a18 ^^^ (~~~a19 &&& a15), a19 ^^^ (~~~a15 &&& a16), a20 ^^^ (~~~a21 &&& a22), a21 ^^^ (~~~a22 &&& a23), a22 ^^^ (~~~a23 &&& a24), a23 ^^^ (~~~a24 &&& a20), a24 ^^^ (~~~a20 &&& a21)] := by
  unfold Spec.Sha3.chi Spec.Sha3.state Spec.Sha3.lane
  rw [Sha3.range25]
  simp only [List.foldl_cons, List.foldl_nil, List.set_cons_succ, List.set_cons_zero, List.getD_cons_succ, List.getD_cons_zero, List.map_cons, List.map_nil,
    Nat.reduceMod, Nat.reduceMul, Nat.reduceAdd, Nat.reduceDiv, Nat.zero_add, Nat.add_zero, Nat.mul_zero, Nat.zero_mod, Nat.zero_div]


theorem kround_eq {α : Type} (A : List UInt64) (hA : A.length = 25) (r : Nat) (hr : r < 24) (k : Nat → Nat → Nat → Nat → Nat → Nat → Nat → Nat → Nat → Nat → Nat → Nat → Nat → Nat → Nat → Nat → Nat → Nat → Nat → Nat → Nat → Nat → Nat → Nat → Nat → α) :
    kround (Sha3.roundConstants.getD r 0).toNat (A.getD 0 0).toNat (A.getD 1 0).toNat (A.getD 2 0).toNat (A.getD 3 0).toNat (A.getD 4 0).toNat (A.getD 5 0).toNat (A.getD 6 0).toNat (A.getD 7 0).toNat (A.getD 8 0).toNat (A.getD 9 0).toNat (A.getD 10 0).toNat (A.getD 11 0).toNat (A.getD 12 0).toNat (A.getD 13 0).toNat (A.getD 14 0).toNat (A.getD 15 0).toNat (A.getD 16 0).toNat (A.getD 17 0).toNat (A.getD 18 0).toNat (A.getD 19 0).toNat (A.getD 20 0).toNat (A.getD 21 0).toNat (A.getD 22 0).toNat (A.getD 23 0).toNat (A.getD 24 0).toNat k = kapp k (Spec.Sha3.iota (Spec.Sha3.chi (Spec.Sha3.pi (Spec.Sha3.rho (Spec.Sha3.theta A)))) r) := by
  unfold Spec.Sha3.iota
  rw [← Sha3.constants_eq r hr]
  generalize Sha3.roundConstants.getD r 0 = rc
  obtain ⟨a0, a1, a2, a3, a4, a5, a6, a7, a8, a9, a10, a11, a12, a13, a14, a15, a16, a17, a18, a19, a20, a21, a22, a23, a24, rfl⟩ := Sha3.lanes hA
  unfold kround
  simp only [force_eq, List.getD_cons_succ, List.getD_cons_zero, xor_toNat, and_toNat, not_toNat, rot_1, rot_2, rot_3, rot_6, rot_8, rot_10, rot_14, rot_15, rot_18, rot_20, rot_21, rot_25, rot_27, rot_28, rot_36, rot_39, rot_41, rot_43, rot_44, rot_45, rot_55, rot_56, rot_61, rot_62]
  rw [theta_ex, rho_ex, pi_ex, chi_ex]
  simp only [kapp, Spec.Sha3.lane, List.getD_cons_succ, List.getD_cons_zero, List.set_cons_zero, Nat.zero_mod, Nat.mul_zero, Nat.add_zero]

theorem iota_length (A : List UInt64) (r : Nat) : (Spec.Sha3.iota (Spec.Sha3.chi (Spec.Sha3.pi (Spec.Sha3.rho (Spec.Sha3.theta A)))) r).length = 25 := by
  unfold Spec.Sha3.iota
  rw [List.length_set]
  exact Sha3.chi_length _

/-- The permutation, with the round constants still to come. -/
noncomputable def kloop {α : Type} (cs : List Nat) : Nat → Nat → Nat → Nat → Nat → Nat → Nat → Nat → Nat → Nat → Nat → Nat → Nat → Nat → Nat → Nat → Nat → Nat → Nat → Nat → Nat → Nat → Nat → Nat → Nat → (Nat → Nat → Nat → Nat → Nat → Nat → Nat → Nat → Nat → Nat → Nat → Nat → Nat → Nat → Nat → Nat → Nat → Nat → Nat → Nat → Nat → Nat → Nat → Nat → Nat → α) → α :=
  @List.rec Nat (fun _ => Nat → Nat → Nat → Nat → Nat → Nat → Nat → Nat → Nat → Nat → Nat → Nat → Nat → Nat → Nat → Nat → Nat → Nat → Nat → Nat → Nat → Nat → Nat → Nat → Nat → (Nat → Nat → Nat → Nat → Nat → Nat → Nat → Nat → Nat → Nat → Nat → Nat → Nat → Nat → Nat → Nat → Nat → Nat → Nat → Nat → Nat → Nat → Nat → Nat → Nat → α) → α) (fun a0 a1 a2 a3 a4 a5 a6 a7 a8 a9 a10 a11 a12 a13 a14 a15 a16 a17 a18 a19 a20 a21 a22 a23 a24 k => k a0 a1 a2 a3 a4 a5 a6 a7 a8 a9 a10 a11 a12 a13 a14 a15 a16 a17 a18 a19 a20 a21 a22 a23 a24)
    (fun c _ ih a0 a1 a2 a3 a4 a5 a6 a7 a8 a9 a10 a11 a12 a13 a14 a15 a16 a17 a18 a19 a20 a21 a22 a23 a24 k => kround c a0 a1 a2 a3 a4 a5 a6 a7 a8 a9 a10 a11 a12 a13 a14 a15 a16 a17 a18 a19 a20 a21 a22 a23 a24 fun a0 a1 a2 a3 a4 a5 a6 a7 a8 a9 a10 a11 a12 a13 a14 a15 a16 a17 a18 a19 a20 a21 a22 a23 a24 => ih a0 a1 a2 a3 a4 a5 a6 a7 a8 a9 a10 a11 a12 a13 a14 a15 a16 a17 a18 a19 a20 a21 a22 a23 a24 k) cs

theorem kloop_cons {α : Type} (c : Nat) (cs : List Nat) (a0 a1 a2 a3 a4 a5 a6 a7 a8 a9 a10 a11 a12 a13 a14 a15 a16 a17 a18 a19 a20 a21 a22 a23 a24 : Nat) (k : Nat → Nat → Nat → Nat → Nat → Nat → Nat → Nat → Nat → Nat → Nat → Nat → Nat → Nat → Nat → Nat → Nat → Nat → Nat → Nat → Nat → Nat → Nat → Nat → Nat → α) :
    kloop (c :: cs) a0 a1 a2 a3 a4 a5 a6 a7 a8 a9 a10 a11 a12 a13 a14 a15 a16 a17 a18 a19 a20 a21 a22 a23 a24 k = kround c a0 a1 a2 a3 a4 a5 a6 a7 a8 a9 a10 a11 a12 a13 a14 a15 a16 a17 a18 a19 a20 a21 a22 a23 a24 fun a0 a1 a2 a3 a4 a5 a6 a7 a8 a9 a10 a11 a12 a13 a14 a15 a16 a17 a18 a19 a20 a21 a22 a23 a24 => kloop cs a0 a1 a2 a3 a4 a5 a6 a7 a8 a9 a10 a11 a12 a13 a14 a15 a16 a17 a18 a19 a20 a21 a22 a23 a24 k := rfl

def constants : List Nat := [1, 32898, 9223372036854808714, 9223372039002292224, 32907, 2147483649, 9223372039002292353, 9223372036854808585, 138, 136, 2147516425, 2147483658, 2147516555, 9223372036854775947, 9223372036854808713, 9223372036854808579, 9223372036854808578, 9223372036854775936, 32778, 9223372039002259466, 9223372039002292353, 9223372036854808704, 2147483649, 9223372039002292232]

theorem kloop_eq {α : Type} (k : Nat → Nat → Nat → Nat → Nat → Nat → Nat → Nat → Nat → Nat → Nat → Nat → Nat → Nat → Nat → Nat → Nat → Nat → Nat → Nat → Nat → Nat → Nat → Nat → Nat → α) : ∀ (n i : Nat) (A : List UInt64), A.length = 25 → i + n = 24 →
    kloop ((List.range' i n).map fun r => (Sha3.roundConstants.getD r 0).toNat) (A.getD 0 0).toNat (A.getD 1 0).toNat (A.getD 2 0).toNat (A.getD 3 0).toNat (A.getD 4 0).toNat (A.getD 5 0).toNat (A.getD 6 0).toNat (A.getD 7 0).toNat (A.getD 8 0).toNat (A.getD 9 0).toNat (A.getD 10 0).toNat (A.getD 11 0).toNat (A.getD 12 0).toNat (A.getD 13 0).toNat (A.getD 14 0).toNat (A.getD 15 0).toNat (A.getD 16 0).toNat (A.getD 17 0).toNat (A.getD 18 0).toNat (A.getD 19 0).toNat (A.getD 20 0).toNat (A.getD 21 0).toNat (A.getD 22 0).toNat (A.getD 23 0).toNat (A.getD 24 0).toNat k =
      kapp k ((List.range' i n).foldl (fun A i => Spec.Sha3.iota (Spec.Sha3.chi (Spec.Sha3.pi (Spec.Sha3.rho (Spec.Sha3.theta A)))) i) A)
  | 0, i, A, hA, _ => rfl
  | n + 1, i, A, hA, h => by
    rw [List.range'_succ, List.map_cons, kloop_cons, kround_eq A hA i (by omega), List.foldl_cons]
    have hl := iota_length A i
    generalize Spec.Sha3.iota (Spec.Sha3.chi (Spec.Sha3.pi (Spec.Sha3.rho (Spec.Sha3.theta A)))) i = B at hl ⊢
    rw [kapp]
    exact kloop_eq k n (i + 1) B hl (by omega)

theorem keccak_eq {α : Type} (A : List UInt64) (hA : A.length = 25) (k : Nat → Nat → Nat → Nat → Nat → Nat → Nat → Nat → Nat → Nat → Nat → Nat → Nat → Nat → Nat → Nat → Nat → Nat → Nat → Nat → Nat → Nat → Nat → Nat → Nat → α) :
    kloop constants (A.getD 0 0).toNat (A.getD 1 0).toNat (A.getD 2 0).toNat (A.getD 3 0).toNat (A.getD 4 0).toNat (A.getD 5 0).toNat (A.getD 6 0).toNat (A.getD 7 0).toNat (A.getD 8 0).toNat (A.getD 9 0).toNat (A.getD 10 0).toNat (A.getD 11 0).toNat (A.getD 12 0).toNat (A.getD 13 0).toNat (A.getD 14 0).toNat (A.getD 15 0).toNat (A.getD 16 0).toNat (A.getD 17 0).toNat (A.getD 18 0).toNat (A.getD 19 0).toNat (A.getD 20 0).toNat (A.getD 21 0).toNat (A.getD 22 0).toNat (A.getD 23 0).toNat (A.getD 24 0).toNat k = kapp k (Spec.Sha3.keccak A) := by
  have h := kloop_eq k 24 0 A hA rfl
  rw [show ((List.range' 0 24).map fun r => (Sha3.roundConstants.getD r 0).toNat) = constants by decide +kernel] at h
  rw [h, ← List.range_eq_range']
  rfl

end Verif.Fast
