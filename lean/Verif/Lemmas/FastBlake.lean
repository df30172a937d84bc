import Verif.Lemmas.Blake2b
/-
BLAKE2b on numbers, in a form the kernel evaluates quickly: every intermediate value is computed before it is
used.
-/
namespace Verif.Fast
open Verif.Spec.Blake2b

/-- `k x`, where the kernel evaluates `x` first. -/
noncomputable def force {α : Type} (x : Nat) (k : Nat → α) : α := @Nat.rec (fun _ => α) (k 0) (fun m _ => k (Nat.succ m)) x

theorem force_eq {α : Type} (x : Nat) (k : Nat → α) : force x k = k x := by cases x <;> rfl

/-- Rotation of a 64-bit number to the right. -/
def rot (x n s : Nat) : Nat := Nat.lor (Nat.shiftRight x n) (Nat.mod (Nat.shiftLeft x s) 18446744073709551616)

theorem rot_eq (x : UInt64) (n s : Nat) (hn : n < 64) (hs : s = 64 - n) : rot x.toNat n s = (rotr x n).toNat := by
  subst hs
  show _ = (x.toBitVec.rotateRight n).toNat
  rw [BitVec.toNat_rotateRight, Nat.mod_eq_of_lt hn]
  rfl

noncomputable def G {α : Type} (a b c d x y : Nat) (k : Nat → Nat → Nat → Nat → α) : α :=
  force (Nat.mod (Nat.add (Nat.add a b) x) 18446744073709551616) fun a => force (rot (Nat.xor d a) 32 32) fun d =>
  force (Nat.mod (Nat.add c d) 18446744073709551616) fun c => force (rot (Nat.xor b c) 24 40) fun b =>
  force (Nat.mod (Nat.add (Nat.add a b) y) 18446744073709551616) fun a => force (rot (Nat.xor d a) 16 48) fun d =>
  force (Nat.mod (Nat.add c d) 18446744073709551616) fun c => force (rot (Nat.xor b c) 63 1) fun b => k a b c d

theorem add_toNat (a b : UInt64) : Nat.mod (Nat.add a.toNat b.toNat) 18446744073709551616 = (a + b).toNat := (UInt64.toNat_add a b).symm
theorem add3_toNat (a b c : UInt64) : Nat.mod (Nat.add (Nat.add a.toNat b.toNat) c.toNat) 18446744073709551616 = (a + b + c).toNat := by
  rw [UInt64.toNat_add, UInt64.toNat_add]
  show (a.toNat + b.toNat + c.toNat) % 2 ^ 64 = _
  omega
theorem xor_toNat (a b : UInt64) : Nat.xor a.toNat b.toNat = (a ^^^ b).toNat := (UInt64.toNat_xor a b).symm

theorem G_eq {α : Type} (a b c d x y : UInt64) (k : Nat → Nat → Nat → Nat → α) :
    G a.toNat b.toNat c.toNat d.toNat x.toNat y.toNat k =
      k (mix a b c d x y).1.toNat (mix a b c d x y).2.1.toNat (mix a b c d x y).2.2.1.toNat (mix a b c d x y).2.2.2.toNat := by
  unfold G mix
  simp only [force_eq, add_toNat, add3_toNat, xor_toNat]
  rw [rot_eq _ 32 32 (by decide) (by decide)]
  simp only [add_toNat, add3_toNat, xor_toNat]
  rw [rot_eq _ 24 40 (by decide) (by decide)]
  simp only [add_toNat, add3_toNat, xor_toNat]
  rw [rot_eq _ 16 48 (by decide) (by decide)]
  simp only [add_toNat, add3_toNat, xor_toNat]
  rw [rot_eq _ 63 1 (by decide) (by decide)]

noncomputable def round {α : Type} (v0 v1 v2 v3 v4 v5 v6 v7 v8 v9 v10 v11 v12 v13 v14 v15 x0 x1 x2 x3 x4 x5 x6 x7 x8 x9 x10 x11 x12 x13 x14 x15 : Nat) (k : Nat → Nat → Nat → Nat → Nat → Nat → Nat → Nat → Nat → Nat → Nat → Nat → Nat → Nat → Nat → Nat → α) : α :=
  G v0 v4 v8 v12 x0 x1 fun v0 v4 v8 v12 =>
  G v1 v5 v9 v13 x2 x3 fun v1 v5 v9 v13 =>
  G v2 v6 v10 v14 x4 x5 fun v2 v6 v10 v14 =>
  G v3 v7 v11 v15 x6 x7 fun v3 v7 v11 v15 =>
  G v0 v5 v10 v15 x8 x9 fun v0 v5 v10 v15 =>
  G v1 v6 v11 v12 x10 x11 fun v1 v6 v11 v12 =>
  G v2 v7 v8 v13 x12 x13 fun v2 v7 v8 v13 =>
  G v3 v4 v9 v14 x14 x15 fun v3 v4 v9 v14 =>
  k v0 v1 v2 v3 v4 v5 v6 v7 v8 v9 v10 v11 v12 v13 v14 v15

/-- The numbers of a list of sixteen words. -/
noncomputable def app {α : Type} (k : Nat → Nat → Nat → Nat → Nat → Nat → Nat → Nat → Nat → Nat → Nat → Nat → Nat → Nat → Nat → Nat → α) (l : List UInt64) : α :=
  k (l.getD 0 0).toNat (l.getD 1 0).toNat (l.getD 2 0).toNat (l.getD 3 0).toNat (l.getD 4 0).toNat (l.getD 5 0).toNat (l.getD 6 0).toNat (l.getD 7 0).toNat (l.getD 8 0).toNat (l.getD 9 0).toNat (l.getD 10 0).toNat (l.getD 11 0).toNat (l.getD 12 0).toNat (l.getD 13 0).toNat (l.getD 14 0).toNat (l.getD 15 0).toNat

/-- A round with the message words in order. -/
def mixes (v : List UInt64) (x0 x1 x2 x3 x4 x5 x6 x7 x8 x9 x10 x11 x12 x13 x14 x15 : UInt64) : List UInt64 :=
  let v := mixAt v 0 4 8 12 x0 x1
  let v := mixAt v 1 5 9 13 x2 x3
  let v := mixAt v 2 6 10 14 x4 x5
  let v := mixAt v 3 7 11 15 x6 x7
  let v := mixAt v 0 5 10 15 x8 x9
  let v := mixAt v 1 6 11 12 x10 x11
  let v := mixAt v 2 7 8 13 x12 x13
  let v := mixAt v 3 4 9 14 x14 x15
  v

theorem mixAt_0 (v0 v1 v2 v3 v4 v5 v6 v7 v8 v9 v10 v11 v12 v13 v14 v15 x y : UInt64) : mixAt [v0, v1, v2, v3, v4, v5, v6, v7, v8, v9, v10, v11, v12, v13, v14, v15] 0 4 8 12 x y =
    [(mix v0 v4 v8 v12 x y).1, v1, v2, v3, (mix v0 v4 v8 v12 x y).2.1, v5, v6, v7, (mix v0 v4 v8 v12 x y).2.2.1, v9, v10, v11, (mix v0 v4 v8 v12 x y).2.2.2, v13, v14, v15] := rfl
theorem mixAt_1 (v0 v1 v2 v3 v4 v5 v6 v7 v8 v9 v10 v11 v12 v13 v14 v15 x y : UInt64) : mixAt [v0, v1, v2, v3, v4, v5, v6, v7, v8, v9, v10, v11, v12, v13, v14, v15] 1 5 9 13 x y =
    [v0, (mix v1 v5 v9 v13 x y).1, v2, v3, v4, (mix v1 v5 v9 v13 x y).2.1, v6, v7, v8, (mix v1 v5 v9 v13 x y).2.2.1, v10, v11, v12, (mix v1 v5 v9 v13 x y).2.2.2, v14, v15] := rfl
theorem mixAt_2 (v0 v1 v2 v3 v4 v5 v6 v7 v8 v9 v10 v11 v12 v13 v14 v15 x y : UInt64) : mixAt [v0, v1, v2, v3, v4, v5, v6, v7, v8, v9, v10, v11, v12, v13, v14, v15] 2 6 10 14 x y =
    [v0, v1, (mix v2 v6 v10 v14 x y).1, v3, v4, v5, (mix v2 v6 v10 v14 x y).2.1, v7, v8, v9, (mix v2 v6 v10 v14 x y).2.2.1, v11, v12, v13, (mix v2 v6 v10 v14 x y).2.2.2, v15] := rfl
theorem mixAt_3 (v0 v1 v2 v3 v4 v5 v6 v7 v8 v9 v10 v11 v12 v13 v14 v15 x y : UInt64) : mixAt [v0, v1, v2, v3, v4, v5, v6, v7, v8, v9, v10, v11, v12, v13, v14, v15] 3 7 11 15 x y =
    [v0, v1, v2, (mix v3 v7 v11 v15 x y).1, v4, v5, v6, (mix v3 v7 v11 v15 x y).2.1, v8, v9, v10, (mix v3 v7 v11 v15 x y).2.2.1, v12, v13, v14, (mix v3 v7 v11 v15 x y).2.2.2] := rfl
theorem mixAt_4 (v0 v1 v2 v3 v4 v5 v6 v7 v8 v9 v10 v11 v12 v13 v14 v15 x y : UInt64) : mixAt [v0, v1, v2, v3, v4, v5, v6, v7, v8, v9, v10, v11, v12, v13, v14, v15] 0 5 10 15 x y =
    [(mix v0 v5 v10 v15 x y).1, v1, v2, v3, v4, (mix v0 v5 v10 v15 x y).2.1, v6, v7, v8, v9, (mix v0 v5 v10 v15 x y).2.2.1, v11, v12, v13, v14, (mix v0 v5 v10 v15 x y).2.2.2] := rfl
theorem mixAt_5 (v0 v1 v2 v3 v4 v5 v6 v7 v8 v9 v10 v11 v12 v13 v14 v15 x y : UInt64) : mixAt [v0, v1, v2, v3, v4, v5, v6, v7, v8, v9, v10, v11, v12, v13, v14, v15] 1 6 11 12 x y =
    [v0, (mix v1 v6 v11 v12 x y).1, v2, v3, v4, v5, (mix v1 v6 v11 v12 x y).2.1, v7, v8, v9, v10, (mix v1 v6 v11 v12 x y).2.2.1, (mix v1 v6 v11 v12 x y).2.2.2, v13, v14, v15] := rfl
theorem mixAt_6 (v0 v1 v2 v3 v4 v5 v6 v7 v8 v9 v10 v11 v12 v13 v14 v15 x y : UInt64) : mixAt [v0, v1, v2, v3, v4, v5, v6, v7, v8, v9, v10, v11, v12, v13, v14, v15] 2 7 8 13 x y =
    [v0, v1, (mix v2 v7 v8 v13 x y).1, v3, v4, v5, v6, (mix v2 v7 v8 v13 x y).2.1, (mix v2 v7 v8 v13 x y).2.2.1, v9, v10, v11, v12, (mix v2 v7 v8 v13 x y).2.2.2, v14, v15] := rfl
theorem mixAt_7 (v0 v1 v2 v3 v4 v5 v6 v7 v8 v9 v10 v11 v12 v13 v14 v15 x y : UInt64) : mixAt [v0, v1, v2, v3, v4, v5, v6, v7, v8, v9, v10, v11, v12, v13, v14, v15] 3 4 9 14 x y =
    [v0, v1, v2, (mix v3 v4 v9 v14 x y).1, (mix v3 v4 v9 v14 x y).2.1, v5, v6, v7, v8, (mix v3 v4 v9 v14 x y).2.2.1, v10, v11, v12, v13, (mix v3 v4 v9 v14 x y).2.2.2, v15] := rfl

theorem mixes_length (v : List UInt64) (x0 x1 x2 x3 x4 x5 x6 x7 x8 x9 x10 x11 x12 x13 x14 x15 : UInt64) (h : v.length = 16) : (mixes v x0 x1 x2 x3 x4 x5 x6 x7 x8 x9 x10 x11 x12 x13 x14 x15).length = 16 := by
  simp [mixes, h]

theorem sixteen {v : List UInt64} (h : v.length = 16) : v = [v.getD 0 0, v.getD 1 0, v.getD 2 0, v.getD 3 0, v.getD 4 0, v.getD 5 0, v.getD 6 0, v.getD 7 0, v.getD 8 0, v.getD 9 0, v.getD 10 0, v.getD 11 0, v.getD 12 0, v.getD 13 0, v.getD 14 0, v.getD 15 0] := by
  match v, h with
  | [v0, v1, v2, v3, v4, v5, v6, v7, v8, v9, v10, v11, v12, v13, v14, v15], _ => rfl

theorem round_eq {α : Type} (v : List UInt64) (h : v.length = 16) (x0 x1 x2 x3 x4 x5 x6 x7 x8 x9 x10 x11 x12 x13 x14 x15 : UInt64) (k : Nat → Nat → Nat → Nat → Nat → Nat → Nat → Nat → Nat → Nat → Nat → Nat → Nat → Nat → Nat → Nat → α) :
    round (v.getD 0 0).toNat (v.getD 1 0).toNat (v.getD 2 0).toNat (v.getD 3 0).toNat (v.getD 4 0).toNat (v.getD 5 0).toNat (v.getD 6 0).toNat (v.getD 7 0).toNat (v.getD 8 0).toNat (v.getD 9 0).toNat (v.getD 10 0).toNat (v.getD 11 0).toNat (v.getD 12 0).toNat (v.getD 13 0).toNat (v.getD 14 0).toNat (v.getD 15 0).toNat x0.toNat x1.toNat x2.toNat x3.toNat x4.toNat x5.toNat x6.toNat x7.toNat x8.toNat x9.toNat x10.toNat x11.toNat x12.toNat x13.toNat x14.toNat x15.toNat k = app k (mixes v x0 x1 x2 x3 x4 x5 x6 x7 x8 x9 x10 x11 x12 x13 x14 x15) := by
  match v, h with
  | [v0, v1, v2, v3, v4, v5, v6, v7, v8, v9, v10, v11, v12, v13, v14, v15], _ =>
    simp only [List.getD_cons_zero, List.getD_cons_succ]
    unfold round mixes
    simp only [G_eq, mixAt_0, mixAt_1, mixAt_2, mixAt_3, mixAt_4, mixAt_5, mixAt_6, mixAt_7]
    rfl

/-- The compression of the only block. -/
noncomputable def compress {α : Type} (h0 t : Nat) (m0 m1 m2 m3 m4 m5 m6 m7 m8 m9 m10 m11 m12 m13 m14 m15 : Nat) (k : Nat → Nat → Nat → Nat → Nat → Nat → Nat → Nat → α) : α :=
  force (Nat.xor 5840696475078001361 t) fun v12 =>
  round h0 13503953896175478587 4354685564936845355 11912009170470909681 5840696475078001361 11170449401992604703 2270897969802886507 6620516959819538809 7640891576956012808 13503953896175478587 4354685564936845355 11912009170470909681 v12 11170449401992604703 16175846103906665108 6620516959819538809 m0 m1 m2 m3 m4 m5 m6 m7 m8 m9 m10 m11 m12 m13 m14 m15 fun v0 v1 v2 v3 v4 v5 v6 v7 v8 v9 v10 v11 v12 v13 v14 v15 =>
  round v0 v1 v2 v3 v4 v5 v6 v7 v8 v9 v10 v11 v12 v13 v14 v15 m14 m10 m4 m8 m9 m15 m13 m6 m1 m12 m0 m2 m11 m7 m5 m3 fun v0 v1 v2 v3 v4 v5 v6 v7 v8 v9 v10 v11 v12 v13 v14 v15 =>
  round v0 v1 v2 v3 v4 v5 v6 v7 v8 v9 v10 v11 v12 v13 v14 v15 m11 m8 m12 m0 m5 m2 m15 m13 m10 m14 m3 m6 m7 m1 m9 m4 fun v0 v1 v2 v3 v4 v5 v6 v7 v8 v9 v10 v11 v12 v13 v14 v15 =>
  round v0 v1 v2 v3 v4 v5 v6 v7 v8 v9 v10 v11 v12 v13 v14 v15 m7 m9 m3 m1 m13 m12 m11 m14 m2 m6 m5 m10 m4 m0 m15 m8 fun v0 v1 v2 v3 v4 v5 v6 v7 v8 v9 v10 v11 v12 v13 v14 v15 =>
  round v0 v1 v2 v3 v4 v5 v6 v7 v8 v9 v10 v11 v12 v13 v14 v15 m9 m0 m5 m7 m2 m4 m10 m15 m14 m1 m11 m12 m6 m8 m3 m13 fun v0 v1 v2 v3 v4 v5 v6 v7 v8 v9 v10 v11 v12 v13 v14 v15 =>
  round v0 v1 v2 v3 v4 v5 v6 v7 v8 v9 v10 v11 v12 v13 v14 v15 m2 m12 m6 m10 m0 m11 m8 m3 m4 m13 m7 m5 m15 m14 m1 m9 fun v0 v1 v2 v3 v4 v5 v6 v7 v8 v9 v10 v11 v12 v13 v14 v15 =>
  round v0 v1 v2 v3 v4 v5 v6 v7 v8 v9 v10 v11 v12 v13 v14 v15 m12 m5 m1 m15 m14 m13 m4 m10 m0 m7 m6 m3 m9 m2 m8 m11 fun v0 v1 v2 v3 v4 v5 v6 v7 v8 v9 v10 v11 v12 v13 v14 v15 =>
  round v0 v1 v2 v3 v4 v5 v6 v7 v8 v9 v10 v11 v12 v13 v14 v15 m13 m11 m7 m14 m12 m1 m3 m9 m5 m0 m15 m4 m8 m6 m2 m10 fun v0 v1 v2 v3 v4 v5 v6 v7 v8 v9 v10 v11 v12 v13 v14 v15 =>
  round v0 v1 v2 v3 v4 v5 v6 v7 v8 v9 v10 v11 v12 v13 v14 v15 m6 m15 m14 m9 m11 m3 m0 m8 m12 m2 m13 m7 m1 m4 m10 m5 fun v0 v1 v2 v3 v4 v5 v6 v7 v8 v9 v10 v11 v12 v13 v14 v15 =>
  round v0 v1 v2 v3 v4 v5 v6 v7 v8 v9 v10 v11 v12 v13 v14 v15 m10 m2 m8 m4 m7 m6 m1 m5 m15 m11 m9 m14 m3 m12 m13 m0 fun v0 v1 v2 v3 v4 v5 v6 v7 v8 v9 v10 v11 v12 v13 v14 v15 =>
  round v0 v1 v2 v3 v4 v5 v6 v7 v8 v9 v10 v11 v12 v13 v14 v15 m0 m1 m2 m3 m4 m5 m6 m7 m8 m9 m10 m11 m12 m13 m14 m15 fun v0 v1 v2 v3 v4 v5 v6 v7 v8 v9 v10 v11 v12 v13 v14 v15 =>
  round v0 v1 v2 v3 v4 v5 v6 v7 v8 v9 v10 v11 v12 v13 v14 v15 m14 m10 m4 m8 m9 m15 m13 m6 m1 m12 m0 m2 m11 m7 m5 m3 fun v0 v1 v2 v3 v4 v5 v6 v7 v8 v9 v10 v11 v12 v13 v14 v15 =>
  k (Nat.xor h0 (Nat.xor v0 v8)) (Nat.xor 13503953896175478587 (Nat.xor v1 v9)) (Nat.xor 4354685564936845355 (Nat.xor v2 v10)) (Nat.xor 11912009170470909681 (Nat.xor v3 v11)) (Nat.xor 5840696475078001361 (Nat.xor v4 v12)) (Nat.xor 11170449401992604703 (Nat.xor v5 v13)) (Nat.xor 2270897969802886507 (Nat.xor v6 v14)) (Nat.xor 6620516959819538809 (Nat.xor v7 v15))

theorem IV_eq : [IV 0, IV 1, IV 2, IV 3, IV 4, IV 5, IV 6, IV 7] = [7640891576956012808, 13503953896175478587, 4354685564936845355, 11912009170470909681, 5840696475078001361, 11170449401992604703, 2270897969802886507, 6620516959819538809] := by decide +kernel

attribute [local irreducible] mixAt
theorem round_0 (m v : List UInt64) : Spec.Blake2b.round m v 0 = mixes v (m.getD 0 0) (m.getD 1 0) (m.getD 2 0) (m.getD 3 0) (m.getD 4 0) (m.getD 5 0) (m.getD 6 0) (m.getD 7 0) (m.getD 8 0) (m.getD 9 0) (m.getD 10 0) (m.getD 11 0) (m.getD 12 0) (m.getD 13 0) (m.getD 14 0) (m.getD 15 0) := rfl
theorem round_1 (m v : List UInt64) : Spec.Blake2b.round m v 1 = mixes v (m.getD 14 0) (m.getD 10 0) (m.getD 4 0) (m.getD 8 0) (m.getD 9 0) (m.getD 15 0) (m.getD 13 0) (m.getD 6 0) (m.getD 1 0) (m.getD 12 0) (m.getD 0 0) (m.getD 2 0) (m.getD 11 0) (m.getD 7 0) (m.getD 5 0) (m.getD 3 0) := rfl
theorem round_2 (m v : List UInt64) : Spec.Blake2b.round m v 2 = mixes v (m.getD 11 0) (m.getD 8 0) (m.getD 12 0) (m.getD 0 0) (m.getD 5 0) (m.getD 2 0) (m.getD 15 0) (m.getD 13 0) (m.getD 10 0) (m.getD 14 0) (m.getD 3 0) (m.getD 6 0) (m.getD 7 0) (m.getD 1 0) (m.getD 9 0) (m.getD 4 0) := rfl
theorem round_3 (m v : List UInt64) : Spec.Blake2b.round m v 3 = mixes v (m.getD 7 0) (m.getD 9 0) (m.getD 3 0) (m.getD 1 0) (m.getD 13 0) (m.getD 12 0) (m.getD 11 0) (m.getD 14 0) (m.getD 2 0) (m.getD 6 0) (m.getD 5 0) (m.getD 10 0) (m.getD 4 0) (m.getD 0 0) (m.getD 15 0) (m.getD 8 0) := rfl
theorem round_4 (m v : List UInt64) : Spec.Blake2b.round m v 4 = mixes v (m.getD 9 0) (m.getD 0 0) (m.getD 5 0) (m.getD 7 0) (m.getD 2 0) (m.getD 4 0) (m.getD 10 0) (m.getD 15 0) (m.getD 14 0) (m.getD 1 0) (m.getD 11 0) (m.getD 12 0) (m.getD 6 0) (m.getD 8 0) (m.getD 3 0) (m.getD 13 0) := rfl
theorem round_5 (m v : List UInt64) : Spec.Blake2b.round m v 5 = mixes v (m.getD 2 0) (m.getD 12 0) (m.getD 6 0) (m.getD 10 0) (m.getD 0 0) (m.getD 11 0) (m.getD 8 0) (m.getD 3 0) (m.getD 4 0) (m.getD 13 0) (m.getD 7 0) (m.getD 5 0) (m.getD 15 0) (m.getD 14 0) (m.getD 1 0) (m.getD 9 0) := rfl
theorem round_6 (m v : List UInt64) : Spec.Blake2b.round m v 6 = mixes v (m.getD 12 0) (m.getD 5 0) (m.getD 1 0) (m.getD 15 0) (m.getD 14 0) (m.getD 13 0) (m.getD 4 0) (m.getD 10 0) (m.getD 0 0) (m.getD 7 0) (m.getD 6 0) (m.getD 3 0) (m.getD 9 0) (m.getD 2 0) (m.getD 8 0) (m.getD 11 0) := rfl
theorem round_7 (m v : List UInt64) : Spec.Blake2b.round m v 7 = mixes v (m.getD 13 0) (m.getD 11 0) (m.getD 7 0) (m.getD 14 0) (m.getD 12 0) (m.getD 1 0) (m.getD 3 0) (m.getD 9 0) (m.getD 5 0) (m.getD 0 0) (m.getD 15 0) (m.getD 4 0) (m.getD 8 0) (m.getD 6 0) (m.getD 2 0) (m.getD 10 0) := rfl
theorem round_8 (m v : List UInt64) : Spec.Blake2b.round m v 8 = mixes v (m.getD 6 0) (m.getD 15 0) (m.getD 14 0) (m.getD 9 0) (m.getD 11 0) (m.getD 3 0) (m.getD 0 0) (m.getD 8 0) (m.getD 12 0) (m.getD 2 0) (m.getD 13 0) (m.getD 7 0) (m.getD 1 0) (m.getD 4 0) (m.getD 10 0) (m.getD 5 0) := rfl
theorem round_9 (m v : List UInt64) : Spec.Blake2b.round m v 9 = mixes v (m.getD 10 0) (m.getD 2 0) (m.getD 8 0) (m.getD 4 0) (m.getD 7 0) (m.getD 6 0) (m.getD 1 0) (m.getD 5 0) (m.getD 15 0) (m.getD 11 0) (m.getD 9 0) (m.getD 14 0) (m.getD 3 0) (m.getD 12 0) (m.getD 13 0) (m.getD 0 0) := rfl
theorem round_10 (m v : List UInt64) : Spec.Blake2b.round m v 10 = mixes v (m.getD 0 0) (m.getD 1 0) (m.getD 2 0) (m.getD 3 0) (m.getD 4 0) (m.getD 5 0) (m.getD 6 0) (m.getD 7 0) (m.getD 8 0) (m.getD 9 0) (m.getD 10 0) (m.getD 11 0) (m.getD 12 0) (m.getD 13 0) (m.getD 14 0) (m.getD 15 0) := rfl
theorem round_11 (m v : List UInt64) : Spec.Blake2b.round m v 11 = mixes v (m.getD 14 0) (m.getD 10 0) (m.getD 4 0) (m.getD 8 0) (m.getD 9 0) (m.getD 15 0) (m.getD 13 0) (m.getD 6 0) (m.getD 1 0) (m.getD 12 0) (m.getD 0 0) (m.getD 2 0) (m.getD 11 0) (m.getD 7 0) (m.getD 5 0) (m.getD 3 0) := rfl

attribute [local irreducible] mixes

theorem rounds_eq (m v : List UInt64) : (List.range 12).foldl (Spec.Blake2b.round m) v =
    (mixes (mixes (mixes (mixes (mixes (mixes (mixes (mixes (mixes (mixes (mixes (mixes v (m.getD 0 0) (m.getD 1 0) (m.getD 2 0) (m.getD 3 0) (m.getD 4 0) (m.getD 5 0) (m.getD 6 0) (m.getD 7 0) (m.getD 8 0) (m.getD 9 0) (m.getD 10 0) (m.getD 11 0) (m.getD 12 0) (m.getD 13 0) (m.getD 14 0) (m.getD 15 0)) (m.getD 14 0) (m.getD 10 0) (m.getD 4 0) (m.getD 8 0) (m.getD 9 0) (m.getD 15 0) (m.getD 13 0) (m.getD 6 0) (m.getD 1 0) (m.getD 12 0) (m.getD 0 0) (m.getD 2 0) (m.getD 11 0) (m.getD 7 0) (m.getD 5 0) (m.getD 3 0)) (m.getD 11 0) (m.getD 8 0) (m.getD 12 0) (m.getD 0 0) (m.getD 5 0) (m.getD 2 0) (m.getD 15 0) (m.getD 13 0) (m.getD 10 0) (m.getD 14 0) (m.getD 3 0) (m.getD 6 0) (m.getD 7 0) (m.getD 1 0) (m.getD 9 0) (m.getD 4 0)) (m.getD 7 0) (m.getD 9 0) (m.getD 3 0) (m.getD 1 0) (m.getD 13 0) (m.getD 12 0) (m.getD 11 0) (m.getD 14 0) (m.getD 2 0) (m.getD 6 0) (m.getD 5 0) (m.getD 10 0) (m.getD 4 0) (m.getD 0 0) (m.getD 15 0) (m.getD 8 0)) (m.getD 9 0) (m.getD 0 0) (m.getD 5 0) (m.getD 7 0) (m.getD 2 0) (m.getD 4 0) (m.getD 10 0) (m.getD 15 0) (m.getD 14 0) (m.getD 1 0) (m.getD 11 0) (m.getD 12 0) (m.getD 6 0) (m.getD 8 0) (m.getD 3 0) (m.getD 13 0)) (m.getD 2 0) (m.getD 12 0) (m.getD 6 0) (m.getD 10 0) (m.getD 0 0) (m.getD 11 0) (m.getD 8 0) (m.getD 3 0) (m.getD 4 0) (m.getD 13 0) (m.getD 7 0) (m.getD 5 0) (m.getD 15 0) (m.getD 14 0) (m.getD 1 0) (m.getD 9 0)) (m.getD 12 0) (m.getD 5 0) (m.getD 1 0) (m.getD 15 0) (m.getD 14 0) (m.getD 13 0) (m.getD 4 0) (m.getD 10 0) (m.getD 0 0) (m.getD 7 0) (m.getD 6 0) (m.getD 3 0) (m.getD 9 0) (m.getD 2 0) (m.getD 8 0) (m.getD 11 0)) (m.getD 13 0) (m.getD 11 0) (m.getD 7 0) (m.getD 14 0) (m.getD 12 0) (m.getD 1 0) (m.getD 3 0) (m.getD 9 0) (m.getD 5 0) (m.getD 0 0) (m.getD 15 0) (m.getD 4 0) (m.getD 8 0) (m.getD 6 0) (m.getD 2 0) (m.getD 10 0)) (m.getD 6 0) (m.getD 15 0) (m.getD 14 0) (m.getD 9 0) (m.getD 11 0) (m.getD 3 0) (m.getD 0 0) (m.getD 8 0) (m.getD 12 0) (m.getD 2 0) (m.getD 13 0) (m.getD 7 0) (m.getD 1 0) (m.getD 4 0) (m.getD 10 0) (m.getD 5 0)) (m.getD 10 0) (m.getD 2 0) (m.getD 8 0) (m.getD 4 0) (m.getD 7 0) (m.getD 6 0) (m.getD 1 0) (m.getD 5 0) (m.getD 15 0) (m.getD 11 0) (m.getD 9 0) (m.getD 14 0) (m.getD 3 0) (m.getD 12 0) (m.getD 13 0) (m.getD 0 0)) (m.getD 0 0) (m.getD 1 0) (m.getD 2 0) (m.getD 3 0) (m.getD 4 0) (m.getD 5 0) (m.getD 6 0) (m.getD 7 0) (m.getD 8 0) (m.getD 9 0) (m.getD 10 0) (m.getD 11 0) (m.getD 12 0) (m.getD 13 0) (m.getD 14 0) (m.getD 15 0)) (m.getD 14 0) (m.getD 10 0) (m.getD 4 0) (m.getD 8 0) (m.getD 9 0) (m.getD 15 0) (m.getD 13 0) (m.getD 6 0) (m.getD 1 0) (m.getD 12 0) (m.getD 0 0) (m.getD 2 0) (m.getD 11 0) (m.getD 7 0) (m.getD 5 0) (m.getD 3 0)) := by
  rw [show List.range 12 = [0, 1, 2, 3, 4, 5, 6, 7, 8, 9, 10, 11] by decide]
  simp only [List.foldl_cons, List.foldl_nil, round_0, round_1, round_2, round_3, round_4, round_5, round_6, round_7, round_8, round_9, round_10, round_11]

theorem getD_map16 (f : Nat → UInt64) (i : Nat) (h : i < 16) : ((List.range 16).map f).getD i 0 = f i := by
  rw [List.getD_eq_getElem?_getD, List.getElem?_map, List.getElem?_range h]; rfl

theorem getD_map8 (f : Nat → UInt64) (i : Nat) (h : i < 8) : ((List.range 8).map f).getD i 0 = f i := by
  rw [List.getD_eq_getElem?_getD, List.getElem?_map, List.getElem?_range h]; rfl

theorem IVs : IV 0 = 7640891576956012808 ∧ IV 1 = 13503953896175478587 ∧ IV 2 = 4354685564936845355 ∧ IV 3 = 11912009170470909681 ∧ IV 4 = 5840696475078001361 ∧ IV 5 = 11170449401992604703 ∧ IV 6 = 2270897969802886507 ∧ IV 7 = 6620516959819538809 := by decide +kernel

theorem compress_list {α : Type} (h0 t : UInt64) (m : List UInt64) (k : Nat → Nat → Nat → Nat → Nat → Nat → Nat → Nat → α) :
    compress h0.toNat t.toNat (m.getD 0 0).toNat (m.getD 1 0).toNat (m.getD 2 0).toNat (m.getD 3 0).toNat (m.getD 4 0).toNat (m.getD 5 0).toNat (m.getD 6 0).toNat (m.getD 7 0).toNat (m.getD 8 0).toNat (m.getD 9 0).toNat (m.getD 10 0).toNat (m.getD 11 0).toNat (m.getD 12 0).toNat (m.getD 13 0).toNat (m.getD 14 0).toNat (m.getD 15 0).toNat k =
      (fun v : List UInt64 => k (h0 ^^^ v.getD 0 0 ^^^ v.getD 8 0).toNat (IV 1 ^^^ v.getD 1 0 ^^^ v.getD 9 0).toNat (IV 2 ^^^ v.getD 2 0 ^^^ v.getD 10 0).toNat (IV 3 ^^^ v.getD 3 0 ^^^ v.getD 11 0).toNat (IV 4 ^^^ v.getD 4 0 ^^^ v.getD 12 0).toNat (IV 5 ^^^ v.getD 5 0 ^^^ v.getD 13 0).toNat (IV 6 ^^^ v.getD 6 0 ^^^ v.getD 14 0).toNat (IV 7 ^^^ v.getD 7 0 ^^^ v.getD 15 0).toNat)
      ((List.range 12).foldl (Spec.Blake2b.round m) [h0, IV 1, IV 2, IV 3, IV 4, IV 5, IV 6, IV 7, IV 0, IV 1, IV 2, IV 3, IV 4 ^^^ t, IV 5, ~~~IV 6, IV 7]) := by
  rw [rounds_eq]
  obtain ⟨e0, e1, e2, e3, e4, e5, e6, e7⟩ := IVs
  unfold compress
  rw [force_eq]
  have key : ∀ kk : Nat → Nat → Nat → Nat → Nat → Nat → Nat → Nat → Nat → Nat → Nat → Nat → Nat → Nat → Nat → Nat → α, round h0.toNat 13503953896175478587 4354685564936845355 11912009170470909681 5840696475078001361 11170449401992604703 2270897969802886507 6620516959819538809 7640891576956012808 13503953896175478587 4354685564936845355 11912009170470909681 (Nat.xor 5840696475078001361 t.toNat) 11170449401992604703 16175846103906665108 6620516959819538809 (m.getD 0 0).toNat (m.getD 1 0).toNat (m.getD 2 0).toNat (m.getD 3 0).toNat (m.getD 4 0).toNat (m.getD 5 0).toNat (m.getD 6 0).toNat (m.getD 7 0).toNat (m.getD 8 0).toNat (m.getD 9 0).toNat (m.getD 10 0).toNat (m.getD 11 0).toNat (m.getD 12 0).toNat (m.getD 13 0).toNat (m.getD 14 0).toNat (m.getD 15 0).toNat kk =
      app kk (mixes [h0, IV 1, IV 2, IV 3, IV 4, IV 5, IV 6, IV 7, IV 0, IV 1, IV 2, IV 3, IV 4 ^^^ t, IV 5, ~~~IV 6, IV 7] (m.getD 0 0) (m.getD 1 0) (m.getD 2 0) (m.getD 3 0) (m.getD 4 0) (m.getD 5 0) (m.getD 6 0) (m.getD 7 0) (m.getD 8 0) (m.getD 9 0) (m.getD 10 0) (m.getD 11 0) (m.getD 12 0) (m.getD 13 0) (m.getD 14 0) (m.getD 15 0)) := by
    intro kk
    rw [← round_eq _ rfl]
    rw [e0, e1, e2, e3, e4, e5, e6, e7]
    simp only [List.getD_cons_zero, List.getD_cons_succ, UInt64.toNat_xor]
    rfl
  rw [key]
  have h0l := mixes_length [h0, IV 1, IV 2, IV 3, IV 4, IV 5, IV 6, IV 7, IV 0, IV 1, IV 2, IV 3, IV 4 ^^^ t, IV 5, ~~~IV 6, IV 7] (m.getD 0 0) (m.getD 1 0) (m.getD 2 0) (m.getD 3 0) (m.getD 4 0) (m.getD 5 0) (m.getD 6 0) (m.getD 7 0) (m.getD 8 0) (m.getD 9 0) (m.getD 10 0) (m.getD 11 0) (m.getD 12 0) (m.getD 13 0) (m.getD 14 0) (m.getD 15 0) rfl
  generalize mixes [h0, IV 1, IV 2, IV 3, IV 4, IV 5, IV 6, IV 7, IV 0, IV 1, IV 2, IV 3, IV 4 ^^^ t, IV 5, ~~~IV 6, IV 7] (m.getD 0 0) (m.getD 1 0) (m.getD 2 0) (m.getD 3 0) (m.getD 4 0) (m.getD 5 0) (m.getD 6 0) (m.getD 7 0) (m.getD 8 0) (m.getD 9 0) (m.getD 10 0) (m.getD 11 0) (m.getD 12 0) (m.getD 13 0) (m.getD 14 0) (m.getD 15 0) = w0 at h0l ⊢
  rw [app, round_eq _ h0l]
  have h1l := mixes_length w0 (m.getD 14 0) (m.getD 10 0) (m.getD 4 0) (m.getD 8 0) (m.getD 9 0) (m.getD 15 0) (m.getD 13 0) (m.getD 6 0) (m.getD 1 0) (m.getD 12 0) (m.getD 0 0) (m.getD 2 0) (m.getD 11 0) (m.getD 7 0) (m.getD 5 0) (m.getD 3 0) h0l
  generalize mixes w0 (m.getD 14 0) (m.getD 10 0) (m.getD 4 0) (m.getD 8 0) (m.getD 9 0) (m.getD 15 0) (m.getD 13 0) (m.getD 6 0) (m.getD 1 0) (m.getD 12 0) (m.getD 0 0) (m.getD 2 0) (m.getD 11 0) (m.getD 7 0) (m.getD 5 0) (m.getD 3 0) = w1 at h1l ⊢
  rw [app, round_eq _ h1l]
  have h2l := mixes_length w1 (m.getD 11 0) (m.getD 8 0) (m.getD 12 0) (m.getD 0 0) (m.getD 5 0) (m.getD 2 0) (m.getD 15 0) (m.getD 13 0) (m.getD 10 0) (m.getD 14 0) (m.getD 3 0) (m.getD 6 0) (m.getD 7 0) (m.getD 1 0) (m.getD 9 0) (m.getD 4 0) h1l
  generalize mixes w1 (m.getD 11 0) (m.getD 8 0) (m.getD 12 0) (m.getD 0 0) (m.getD 5 0) (m.getD 2 0) (m.getD 15 0) (m.getD 13 0) (m.getD 10 0) (m.getD 14 0) (m.getD 3 0) (m.getD 6 0) (m.getD 7 0) (m.getD 1 0) (m.getD 9 0) (m.getD 4 0) = w2 at h2l ⊢
  rw [app, round_eq _ h2l]
  have h3l := mixes_length w2 (m.getD 7 0) (m.getD 9 0) (m.getD 3 0) (m.getD 1 0) (m.getD 13 0) (m.getD 12 0) (m.getD 11 0) (m.getD 14 0) (m.getD 2 0) (m.getD 6 0) (m.getD 5 0) (m.getD 10 0) (m.getD 4 0) (m.getD 0 0) (m.getD 15 0) (m.getD 8 0) h2l
  generalize mixes w2 (m.getD 7 0) (m.getD 9 0) (m.getD 3 0) (m.getD 1 0) (m.getD 13 0) (m.getD 12 0) (m.getD 11 0) (m.getD 14 0) (m.getD 2 0) (m.getD 6 0) (m.getD 5 0) (m.getD 10 0) (m.getD 4 0) (m.getD 0 0) (m.getD 15 0) (m.getD 8 0) = w3 at h3l ⊢
  rw [app, round_eq _ h3l]
  have h4l := mixes_length w3 (m.getD 9 0) (m.getD 0 0) (m.getD 5 0) (m.getD 7 0) (m.getD 2 0) (m.getD 4 0) (m.getD 10 0) (m.getD 15 0) (m.getD 14 0) (m.getD 1 0) (m.getD 11 0) (m.getD 12 0) (m.getD 6 0) (m.getD 8 0) (m.getD 3 0) (m.getD 13 0) h3l
  generalize mixes w3 (m.getD 9 0) (m.getD 0 0) (m.getD 5 0) (m.getD 7 0) (m.getD 2 0) (m.getD 4 0) (m.getD 10 0) (m.getD 15 0) (m.getD 14 0) (m.getD 1 0) (m.getD 11 0) (m.getD 12 0) (m.getD 6 0) (m.getD 8 0) (m.getD 3 0) (m.getD 13 0) = w4 at h4l ⊢
  rw [app, round_eq _ h4l]
  have h5l := mixes_length w4 (m.getD 2 0) (m.getD 12 0) (m.getD 6 0) (m.getD 10 0) (m.getD 0 0) (m.getD 11 0) (m.getD 8 0) (m.getD 3 0) (m.getD 4 0) (m.getD 13 0) (m.getD 7 0) (m.getD 5 0) (m.getD 15 0) (m.getD 14 0) (m.getD 1 0) (m.getD 9 0) h4l
  generalize mixes w4 (m.getD 2 0) (m.getD 12 0) (m.getD 6 0) (m.getD 10 0) (m.getD 0 0) (m.getD 11 0) (m.getD 8 0) (m.getD 3 0) (m.getD 4 0) (m.getD 13 0) (m.getD 7 0) (m.getD 5 0) (m.getD 15 0) (m.getD 14 0) (m.getD 1 0) (m.getD 9 0) = w5 at h5l ⊢
  rw [app, round_eq _ h5l]
  have h6l := mixes_length w5 (m.getD 12 0) (m.getD 5 0) (m.getD 1 0) (m.getD 15 0) (m.getD 14 0) (m.getD 13 0) (m.getD 4 0) (m.getD 10 0) (m.getD 0 0) (m.getD 7 0) (m.getD 6 0) (m.getD 3 0) (m.getD 9 0) (m.getD 2 0) (m.getD 8 0) (m.getD 11 0) h5l
  generalize mixes w5 (m.getD 12 0) (m.getD 5 0) (m.getD 1 0) (m.getD 15 0) (m.getD 14 0) (m.getD 13 0) (m.getD 4 0) (m.getD 10 0) (m.getD 0 0) (m.getD 7 0) (m.getD 6 0) (m.getD 3 0) (m.getD 9 0) (m.getD 2 0) (m.getD 8 0) (m.getD 11 0) = w6 at h6l ⊢
  rw [app, round_eq _ h6l]
  have h7l := mixes_length w6 (m.getD 13 0) (m.getD 11 0) (m.getD 7 0) (m.getD 14 0) (m.getD 12 0) (m.getD 1 0) (m.getD 3 0) (m.getD 9 0) (m.getD 5 0) (m.getD 0 0) (m.getD 15 0) (m.getD 4 0) (m.getD 8 0) (m.getD 6 0) (m.getD 2 0) (m.getD 10 0) h6l
  generalize mixes w6 (m.getD 13 0) (m.getD 11 0) (m.getD 7 0) (m.getD 14 0) (m.getD 12 0) (m.getD 1 0) (m.getD 3 0) (m.getD 9 0) (m.getD 5 0) (m.getD 0 0) (m.getD 15 0) (m.getD 4 0) (m.getD 8 0) (m.getD 6 0) (m.getD 2 0) (m.getD 10 0) = w7 at h7l ⊢
  rw [app, round_eq _ h7l]
  have h8l := mixes_length w7 (m.getD 6 0) (m.getD 15 0) (m.getD 14 0) (m.getD 9 0) (m.getD 11 0) (m.getD 3 0) (m.getD 0 0) (m.getD 8 0) (m.getD 12 0) (m.getD 2 0) (m.getD 13 0) (m.getD 7 0) (m.getD 1 0) (m.getD 4 0) (m.getD 10 0) (m.getD 5 0) h7l
  generalize mixes w7 (m.getD 6 0) (m.getD 15 0) (m.getD 14 0) (m.getD 9 0) (m.getD 11 0) (m.getD 3 0) (m.getD 0 0) (m.getD 8 0) (m.getD 12 0) (m.getD 2 0) (m.getD 13 0) (m.getD 7 0) (m.getD 1 0) (m.getD 4 0) (m.getD 10 0) (m.getD 5 0) = w8 at h8l ⊢
  rw [app, round_eq _ h8l]
  have h9l := mixes_length w8 (m.getD 10 0) (m.getD 2 0) (m.getD 8 0) (m.getD 4 0) (m.getD 7 0) (m.getD 6 0) (m.getD 1 0) (m.getD 5 0) (m.getD 15 0) (m.getD 11 0) (m.getD 9 0) (m.getD 14 0) (m.getD 3 0) (m.getD 12 0) (m.getD 13 0) (m.getD 0 0) h8l
  generalize mixes w8 (m.getD 10 0) (m.getD 2 0) (m.getD 8 0) (m.getD 4 0) (m.getD 7 0) (m.getD 6 0) (m.getD 1 0) (m.getD 5 0) (m.getD 15 0) (m.getD 11 0) (m.getD 9 0) (m.getD 14 0) (m.getD 3 0) (m.getD 12 0) (m.getD 13 0) (m.getD 0 0) = w9 at h9l ⊢
  rw [app, round_eq _ h9l]
  have h10l := mixes_length w9 (m.getD 0 0) (m.getD 1 0) (m.getD 2 0) (m.getD 3 0) (m.getD 4 0) (m.getD 5 0) (m.getD 6 0) (m.getD 7 0) (m.getD 8 0) (m.getD 9 0) (m.getD 10 0) (m.getD 11 0) (m.getD 12 0) (m.getD 13 0) (m.getD 14 0) (m.getD 15 0) h9l
  generalize mixes w9 (m.getD 0 0) (m.getD 1 0) (m.getD 2 0) (m.getD 3 0) (m.getD 4 0) (m.getD 5 0) (m.getD 6 0) (m.getD 7 0) (m.getD 8 0) (m.getD 9 0) (m.getD 10 0) (m.getD 11 0) (m.getD 12 0) (m.getD 13 0) (m.getD 14 0) (m.getD 15 0) = w10 at h10l ⊢
  rw [app, round_eq _ h10l]
  have h11l := mixes_length w10 (m.getD 14 0) (m.getD 10 0) (m.getD 4 0) (m.getD 8 0) (m.getD 9 0) (m.getD 15 0) (m.getD 13 0) (m.getD 6 0) (m.getD 1 0) (m.getD 12 0) (m.getD 0 0) (m.getD 2 0) (m.getD 11 0) (m.getD 7 0) (m.getD 5 0) (m.getD 3 0) h10l
  generalize mixes w10 (m.getD 14 0) (m.getD 10 0) (m.getD 4 0) (m.getD 8 0) (m.getD 9 0) (m.getD 15 0) (m.getD 13 0) (m.getD 6 0) (m.getD 1 0) (m.getD 12 0) (m.getD 0 0) (m.getD 2 0) (m.getD 11 0) (m.getD 7 0) (m.getD 5 0) (m.getD 3 0) = w11 at h11l ⊢
  unfold app
  simp only [e1, e2, e3, e4, e5, e6, e7, UInt64.toNat_xor, Nat.xor_assoc]
  rfl

theorem compress_eq {α : Type} (nn t : Nat) (ht : t < 2 ^ 64) (b : Bytes) (k : Nat → Nat → Nat → Nat → Nat → Nat → Nat → Nat → α) :
    compress (IV 0 ^^^ 0x01010000 ^^^ UInt64.ofNat nn).toNat t (UInt64.ofNat (leNat ((b.drop (8 * 0)).take 8))).toNat (UInt64.ofNat (leNat ((b.drop (8 * 1)).take 8))).toNat (UInt64.ofNat (leNat ((b.drop (8 * 2)).take 8))).toNat (UInt64.ofNat (leNat ((b.drop (8 * 3)).take 8))).toNat (UInt64.ofNat (leNat ((b.drop (8 * 4)).take 8))).toNat (UInt64.ofNat (leNat ((b.drop (8 * 5)).take 8))).toNat (UInt64.ofNat (leNat ((b.drop (8 * 6)).take 8))).toNat (UInt64.ofNat (leNat ((b.drop (8 * 7)).take 8))).toNat (UInt64.ofNat (leNat ((b.drop (8 * 8)).take 8))).toNat (UInt64.ofNat (leNat ((b.drop (8 * 9)).take 8))).toNat (UInt64.ofNat (leNat ((b.drop (8 * 10)).take 8))).toNat (UInt64.ofNat (leNat ((b.drop (8 * 11)).take 8))).toNat (UInt64.ofNat (leNat ((b.drop (8 * 12)).take 8))).toNat (UInt64.ofNat (leNat ((b.drop (8 * 13)).take 8))).toNat (UInt64.ofNat (leNat ((b.drop (8 * 14)).take 8))).toNat (UInt64.ofNat (leNat ((b.drop (8 * 15)).take 8))).toNat k =
      (fun l : List UInt64 => k (l.getD 0 0).toNat (l.getD 1 0).toNat (l.getD 2 0).toNat (l.getD 3 0).toNat (l.getD 4 0).toNat (l.getD 5 0).toNat (l.getD 6 0).toNat (l.getD 7 0).toNat) (F (start nn) b t true) := by
  have e := compress_list (IV 0 ^^^ 0x01010000 ^^^ UInt64.ofNat nn) (UInt64.ofNat t) ((List.range 16).map fun i => UInt64.ofNat (leNat ((b.drop (8 * i)).take 8))) k
  rw [UInt64.toNat_ofNat_of_lt' ht] at e
  simp only [getD_map16 _ 0 (by decide), getD_map16 _ 1 (by decide), getD_map16 _ 2 (by decide), getD_map16 _ 3 (by decide), getD_map16 _ 4 (by decide), getD_map16 _ 5 (by decide), getD_map16 _ 6 (by decide), getD_map16 _ 7 (by decide), getD_map16 _ 8 (by decide), getD_map16 _ 9 (by decide), getD_map16 _ 10 (by decide), getD_map16 _ 11 (by decide), getD_map16 _ 12 (by decide), getD_map16 _ 13 (by decide), getD_map16 _ 14 (by decide), getD_map16 _ 15 (by decide)] at e
  rw [e]
  have hz : UInt64.ofNat (t / 2 ^ 64) = 0 := by rw [Nat.div_eq_of_lt ht]; rfl
  unfold F start
  simp only [getD_map8 _ 0 (by decide), getD_map8 _ 1 (by decide), getD_map8 _ 2 (by decide), getD_map8 _ 3 (by decide), getD_map8 _ 4 (by decide), getD_map8 _ 5 (by decide), getD_map8 _ 6 (by decide), getD_map8 _ 7 (by decide), hz, UInt64.xor_zero, if_true, List.cons_append, List.nil_append, List.getD_cons_zero, List.getD_cons_succ]

end Verif.Fast
