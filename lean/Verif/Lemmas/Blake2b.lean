import Verif.Model.Blake2b
import Verif.Spec.Blake2b
import Verif.Lemmas.Words
namespace Verif.Blake2b
open Verif.Words

theorem rotr_eq (x n : UInt64) (h0 : 0 < n.toNat) (h : n.toNat < 64) : rotr x n = Spec.Blake2b.rotr x n.toNat := by
  have hs : (64 - n).toNat = 64 - n.toNat := by
    rw [UInt64.toNat_sub_of_le]; rfl
    show n.toNat ≤ 64; omega
  apply UInt64.eq_of_toBitVec_eq
  unfold rotr Spec.Blake2b.rotr
  rw [UInt64.toBitVec_or, UInt64.toBitVec_shiftRight, UInt64.toBitVec_shiftLeft]
  apply BitVec.eq_of_getLsbD_eq
  intro i hi
  have e1 : (n.toBitVec % 64).toNat = n.toNat := by
    rw [BitVec.toNat_umod]; show n.toNat % 64 = _; omega
  have e2 : ((64 - n).toBitVec % 64).toNat = 64 - n.toNat := by
    rw [BitVec.toNat_umod]; show (64 - n).toNat % 64 = _; omega
  rw [BitVec.getLsbD_or, BitVec.ushiftRight_eq', BitVec.shiftLeft_eq', e1, e2, BitVec.getLsbD_ushiftRight, BitVec.getLsbD_shiftLeft,
    BitVec.getLsbD_rotateRight]
  rw [Nat.mod_eq_of_lt h]
  by_cases hc : i < 64 - n.toNat
  · simp [hc]
  · simp only [hc, hi, if_false]
    rw [BitVec.getLsbD_of_ge _ (n.toNat + i) (by omega)]
    simp

theorem getD_set (l : List UInt64) (i j : Nat) (w : UInt64) (h : i < l.length) :
    (l.set i w).getD j 0 = if i = j then w else l.getD j 0 := by
  rw [List.getD_eq_getElem?_getD, List.getElem?_set]
  by_cases hij : i = j
  · subst hij; simp [h]
  · simp [hij, List.getD_eq_getElem?_getD]

theorem ext_getD {a b : List UInt64} (hl : a.length = b.length) (h : ∀ i, a.getD i 0 = b.getD i 0) : a = b := by
  apply List.ext_getElem hl
  intro i h1 h2
  have := h i
  simpa [List.getD_eq_getElem?_getD, h1, h2] using this

@[simp] theorem line_length (v : List UInt64) (a d : Nat) (s n : UInt64) : (line v a d s n).length = v.length := by simp [line]

theorem line_getD (v : List UInt64) (a d : Nat) (s n : UInt64) (j : Nat) (ha : a < v.length) (hd : d < v.length) (had : a ≠ d) :
    (line v a d s n).getD j 0 = if j = d then rotr (v.getD d 0 ^^^ s) n else if j = a then s else v.getD j 0 := by
  unfold line
  dsimp only
  rw [getD_set _ _ _ _ (by simpa using hd), getD_set _ _ _ _ ha, getD_set _ _ _ _ ha, getD_set _ _ _ _ ha]
  grind

theorem mix_eq (v : List UInt64) (a b c d : Nat) (p q : UInt64) (hv : v.length = 16) (h : a < 16 ∧ b < 16 ∧ c < 16 ∧ d < 16)
    (hn : a ≠ b ∧ a ≠ c ∧ a ≠ d ∧ b ≠ c ∧ b ≠ d ∧ c ≠ d) :
    (let v := line v a d (v.getD a 0 + v.getD b 0 + p) 32
     let v := line v c b (v.getD c 0 + v.getD d 0) 24
     let v := line v a d (v.getD a 0 + v.getD b 0 + q) 16
     line v c b (v.getD c 0 + v.getD d 0) 63) = Spec.Blake2b.mixAt v a b c d p q := by
  obtain ⟨h1, h2, h3, h4⟩ := h
  obtain ⟨n1, n2, n3, n4, n5, n6⟩ := hn
  have r1 : ∀ x, rotr x 32 = Spec.Blake2b.rotr x 32 := fun x => rotr_eq x 32 (by decide) (by decide)
  have r2 : ∀ x, rotr x 24 = Spec.Blake2b.rotr x 24 := fun x => rotr_eq x 24 (by decide) (by decide)
  have r3 : ∀ x, rotr x 16 = Spec.Blake2b.rotr x 16 := fun x => rotr_eq x 16 (by decide) (by decide)
  have r4 : ∀ x, rotr x 63 = Spec.Blake2b.rotr x 63 := fun x => rotr_eq x 63 (by decide) (by decide)
  unfold Spec.Blake2b.mixAt Spec.Blake2b.mix
  dsimp only
  generalize eA : v.getD a 0 = A
  generalize eB : v.getD b 0 = B
  generalize eC : v.getD c 0 = C
  generalize eD : v.getD d 0 = D
  have g1 := fun j => line_getD v a d (A + B + p) 32 j (by omega) (by omega) n3
  generalize hx1 : line v a d (A + B + p) 32 = x1 at g1 ⊢
  have l1 : x1.length = 16 := by rw [← hx1, line_length, hv]
  simp only [r1, eD] at g1
  have a1 := g1 a
  have b1 := g1 b
  have c1 := g1 c
  have d1 := g1 d
  simp only [if_true, n3, if_false, n1.symm, n5, n2.symm, n6, eB, eC] at a1 b1 c1 d1
  simp only [c1, d1]
  have g2 := fun j => line_getD x1 c b (C + Spec.Blake2b.rotr (D ^^^ (A + B + p)) 32) 24 j (by omega) (by omega) n4.symm
  generalize hx2 : line x1 c b (C + Spec.Blake2b.rotr (D ^^^ (A + B + p)) 32) 24 = x2 at g2 ⊢
  have l2 : x2.length = 16 := by rw [← hx2, line_length, l1]
  simp only [r2, b1] at g2
  have a2 := g2 a
  have b2 := g2 b
  have c2 := g2 c
  have d2 := g2 d
  simp only [if_true, if_false, n1, n2, n4.symm, n5.symm, n6.symm, a1, d1] at a2 b2 c2 d2
  simp only [a2, b2]
  generalize eP : A + B + p = P at *
  generalize eD1 : Spec.Blake2b.rotr (D ^^^ P) 32 = D1 at *
  generalize eC1 : C + D1 = C1 at *
  generalize eB1 : Spec.Blake2b.rotr (B ^^^ C1) 24 = B1 at *
  have g3 := fun j => line_getD x2 a d (P + B1 + q) 16 j (by omega) (by omega) n3
  generalize hx3 : line x2 a d (P + B1 + q) 16 = x3 at g3 ⊢
  have l3 : x3.length = 16 := by rw [← hx3, line_length, l2]
  simp only [r3, d2] at g3
  have a3 := g3 a
  have b3 := g3 b
  have c3 := g3 c
  have d3 := g3 d
  simp only [if_true, n3, if_false, n1.symm, n5, n2.symm, n6, b2, c2] at a3 b3 c3 d3
  simp only [c3, d3]
  generalize eP2 : P + B1 + q = P2 at *
  generalize eD2 : Spec.Blake2b.rotr (D1 ^^^ P2) 16 = D2 at *
  have g4 := fun j => line_getD x3 c b (C1 + D2) 63 j (by omega) (by omega) n4.symm
  generalize hx4 : line x3 c b (C1 + D2) 63 = x4 at g4 ⊢
  have l4 : x4.length = 16 := by rw [← hx4, line_length, l3]
  simp only [r4, b3] at g4
  have a4 := g4 a
  have b4 := g4 b
  have c4 := g4 c
  have d4 := g4 d
  simp only [if_true, if_false, n1, n2, n4.symm, n5.symm, n6.symm, a3, d3] at a4 b4 c4 d4
  apply ext_getD
  · simp [l4, hv]
  intro j
  rw [getD_set _ _ _ _ (by simp [hv, h4]), getD_set _ _ _ _ (by simp [hv, h3]), getD_set _ _ _ _ (by simp [hv, h2]), getD_set _ _ _ _ (by simp [hv, h1])]
  by_cases e4 : d = j
  · subst e4; rw [if_pos rfl, d4]
  by_cases e3 : c = j
  · subst e3; rw [if_neg e4, if_pos rfl, c4]
  by_cases e2 : b = j
  · subst e2; rw [if_neg e4, if_neg e3, if_pos rfl, b4]
  by_cases e1 : a = j
  · subst e1; rw [if_neg e4, if_neg e3, if_neg e2, if_pos rfl, a4]
  rw [if_neg e4, if_neg e3, if_neg e2, if_neg e1, g4, if_neg (Ne.symm e2), if_neg (Ne.symm e3), g3, if_neg (Ne.symm e4), if_neg (Ne.symm e1),
    g2, if_neg (Ne.symm e2), if_neg (Ne.symm e3), g1, if_neg (Ne.symm e4), if_neg (Ne.symm e1)]

theorem sigma_eq : ∀ r < 12, sigma.getD r [] = Spec.Blake2b.SIGMA.getD (r % 10) [] := by decide

theorem g_eq (m : List UInt64) (r i : Nat) (v : List UInt64) (a b c d : Nat) (hr : r < 12) (hv : v.length = 16)
    (h : a < 16 ∧ b < 16 ∧ c < 16 ∧ d < 16) (hn : a ≠ b ∧ a ≠ c ∧ a ≠ d ∧ b ≠ c ∧ b ≠ d ∧ c ≠ d) :
    g m r i v a b c d = Spec.Blake2b.mixAt v a b c d (m.getD ((Spec.Blake2b.SIGMA.getD (r % 10) []).getD (2 * i) 0) 0)
      (m.getD ((Spec.Blake2b.SIGMA.getD (r % 10) []).getD (2 * i + 1) 0) 0) := by
  rw [← mix_eq v a b c d _ _ hv h hn]
  unfold g
  rw [sigma_eq r hr]

@[simp] theorem mixAt_length (v : List UInt64) (a b c d : Nat) (x y : UInt64) : (Spec.Blake2b.mixAt v a b c d x y).length = v.length := by
  simp [Spec.Blake2b.mixAt]

theorem round_eq (m v : List UInt64) (r : Nat) (hr : r < 12) (hv : v.length = 16) : round m r v = Spec.Blake2b.round m v r := by
  unfold round Spec.Blake2b.round
  simp only [List.foldl_cons, List.foldl_nil, Nat.reduceAdd, Nat.reduceMod, Nat.reduceMul]
  rw [g_eq m r 0 v 0 4 8 12 hr hv (by decide) (by decide)]
  rw [g_eq m r 1 _ 1 5 9 13 hr (by simpa using hv) (by decide) (by decide)]
  rw [g_eq m r 2 _ 2 6 10 14 hr (by simpa using hv) (by decide) (by decide)]
  rw [g_eq m r 3 _ 3 7 11 15 hr (by simpa using hv) (by decide) (by decide)]
  rw [g_eq m r 4 _ 0 5 10 15 hr (by simpa using hv) (by decide) (by decide)]
  rw [g_eq m r 5 _ 1 6 11 12 hr (by simpa using hv) (by decide) (by decide)]
  rw [g_eq m r 6 _ 2 7 8 13 hr (by simpa using hv) (by decide) (by decide)]
  rw [g_eq m r 7 _ 3 4 9 14 hr (by simpa using hv) (by decide) (by decide)]

theorem round_length (m v : List UInt64) (r : Nat) : (Spec.Blake2b.round m v r).length = v.length := by
  simp [Spec.Blake2b.round]

theorem rounds_eq (m : List UInt64) (n r : Nat) (v : List UInt64) (h : r + n ≤ 12) (hv : v.length = 16) :
    rounds m n r v = (List.range' r n).foldl (Spec.Blake2b.round m) v := by
  induction n generalizing r v with
  | zero => rfl
  | succ n ih =>
    rw [rounds, round_eq m v r (by omega) hv, ih (r + 1) _ (by omega) (by rw [round_length, hv])]
    rw [List.range'_succ, List.foldl_cons]

theorem iv_eq : iv = [Spec.Blake2b.IV 0, Spec.Blake2b.IV 1, Spec.Blake2b.IV 2, Spec.Blake2b.IV 3, Spec.Blake2b.IV 4, Spec.Blake2b.IV 5,
    Spec.Blake2b.IV 6, Spec.Blake2b.IV 7] := by decide +kernel

theorem F_length (h : List UInt64) (b : Bytes) (t : Nat) (l : Bool) : (Spec.Blake2b.F h b t l).length = 8 := by simp [Spec.Blake2b.F]

theorem state_length (nn : Nat) (m : Bytes) (n : Nat) : (Spec.Blake2b.state nn m n).length = 8 := by
  cases n with
  | zero => rfl
  | succ n => rw [Spec.Blake2b.state, F_length]

theorem xor_ones (x : UInt64) : x ^^^ 0xffffffffffffffff = ~~~x := by
  apply UInt64.eq_of_toBitVec_eq
  have : (0xffffffffffffffff : UInt64).toBitVec = BitVec.allOnes 64 := by decide
  rw [UInt64.toBitVec_xor, this, UInt64.toBitVec_not, BitVec.xor_allOnes]

/-- A block is compressed as F does it. -/
theorem compress_eq (c : Ctx) (b : Bytes) (t : Nat) (last : Bool) (hb : b.length = 128) (hh : c.h.length = 8) (h0 : c.t0 = UInt64.ofNat t)
    (h1 : c.t1 = UInt64.ofNat (t / 2 ^ 64)) (hf : c.f0 = if last then 0xffffffffffffffff else 0) (hg : c.f1 = 0) :
    compress c b = .ok { c with h := Spec.Blake2b.F c.h b t last } := by
  unfold compress
  rw [if_neg (by omega)]
  dsimp only
  have hv : c.h ++ iv.take 4 ++ [iv.getD 4 0 ^^^ c.t0, iv.getD 5 0 ^^^ c.t1, iv.getD 6 0 ^^^ c.f0, iv.getD 7 0 ^^^ c.f1] =
      c.h ++ [Spec.Blake2b.IV 0, Spec.Blake2b.IV 1, Spec.Blake2b.IV 2, Spec.Blake2b.IV 3, Spec.Blake2b.IV 4 ^^^ UInt64.ofNat t,
        Spec.Blake2b.IV 5 ^^^ UInt64.ofNat (t / 2 ^ 64), if last then ~~~Spec.Blake2b.IV 6 else Spec.Blake2b.IV 6, Spec.Blake2b.IV 7] := by
    rw [iv_eq]
    generalize Spec.Blake2b.IV 0 = a0
    generalize Spec.Blake2b.IV 1 = a1
    generalize Spec.Blake2b.IV 2 = a2
    generalize Spec.Blake2b.IV 3 = a3
    generalize Spec.Blake2b.IV 4 = a4
    generalize Spec.Blake2b.IV 5 = a5
    generalize Spec.Blake2b.IV 6 = a6
    generalize Spec.Blake2b.IV 7 = a7
    simp only [List.take_succ_cons, List.take_zero, List.getD_cons_succ, List.getD_cons_zero, List.append_assoc, List.cons_append, List.nil_append]
    rw [h0, h1, hf, hg]
    cases last
    · simp
    · simp only [if_true, UInt64.xor_zero]
      rw [xor_ones]
  rw [hv]
  rw [rounds_eq _ 12 0 _ (by omega) (by simp [hh]), ← List.range_eq_range']
  rfl

/-! ## The counter -/

theorem increment_at (c : Ctx) (t : Nat) (inc : UInt64) (h0 : c.t0 = UInt64.ofNat t) (h1 : c.t1 = UInt64.ofNat (t / 2 ^ 64)) :
    increment c inc = { c with t0 := UInt64.ofNat (t + inc.toNat), t1 := UInt64.ofNat ((t + inc.toNat) / 2 ^ 64) } := by
  have hi := inc.toNat_lt
  have e0 : c.t0 + inc = UInt64.ofNat (t + inc.toNat) := by
    rw [h0]
    apply UInt64.toNat_inj.1
    simp
  unfold increment
  dsimp only
  rw [e0]
  congr 1
  rw [h1]
  apply UInt64.toNat_inj.1
  by_cases hlt : UInt64.ofNat (t + inc.toNat) < inc
  · rw [if_pos hlt]
    have := UInt64.lt_iff_toNat_lt.1 hlt
    simp only [UInt64.toNat_add, UInt64.toNat_ofNat'] at this ⊢
    show (t / 2 ^ 64 % 2 ^ 64 + 1) % 2 ^ 64 = _
    omega
  · rw [if_neg hlt]
    have := mt UInt64.lt_iff_toNat_lt.2 hlt
    simp only [UInt64.toNat_add, UInt64.toNat_ofNat'] at this ⊢
    show (t / 2 ^ 64 % 2 ^ 64 + 0) % 2 ^ 64 = _
    omega

/-! ## Blocks -/

theorem block_full (m : Bytes) (i : Nat) (h : 128 * (i + 1) ≤ m.length) : Spec.Blake2b.block m i = (m.drop (128 * i)).take 128 := by
  unfold Spec.Blake2b.block
  have : ((m.drop (128 * i)).take 128).length = 128 := by rw [List.length_take, List.length_drop]; omega
  simp [this]

theorem block_append (m r : Bytes) (i : Nat) (h : 128 * (i + 1) ≤ m.length) : Spec.Blake2b.block (m ++ r) i = Spec.Blake2b.block m i := by
  rw [block_full m i h, block_full _ i (by rw [List.length_append]; omega), List.drop_append_of_le_length (by omega),
    List.take_append_of_le_length (by rw [List.length_drop]; omega)]

attribute [local irreducible] Spec.Blake2b.F Spec.Blake2b.start

theorem state_append (nn : Nat) (m r : Bytes) (n : Nat) (h : 128 * n ≤ m.length) : Spec.Blake2b.state nn (m ++ r) n = Spec.Blake2b.state nn m n := by
  induction n with
  | zero => rfl
  | succ n ih => rw [Spec.Blake2b.state, Spec.Blake2b.state, ih (by omega), block_append m r n h]

/-! ## Updates -/

/-- The context after `k` blocks of a message, none of it in the buffer. -/
structure Done (nn : Nat) (m : Bytes) (k : Nat) (c : Ctx) : Prop where
  h : c.h = Spec.Blake2b.state nn m k
  t0 : c.t0 = UInt64.ofNat (128 * k)
  t1 : c.t1 = UInt64.ofNat (128 * k / 2 ^ 64)
  f0 : c.f0 = 0
  f1 : c.f1 = 0
  buf : c.buf.length = 128
  out : c.outlen = nn
  node : c.lastNode = false

/-- The number of blocks compressed once a message has been fed. -/
def full (m : Bytes) : Nat := (m.length - 1) / 128

/-- The context after a message has been fed: the last block, which may be full, is in the buffer. -/
structure Inv (nn : Nat) (m : Bytes) (c : Ctx) : Prop where
  done : Done nn m (full m) c
  len : c.buflen = m.length - 128 * full m
  rest : c.buf.take c.buflen = m.drop (128 * full m)

theorem step (nn : Nat) (m : Bytes) (k : Nat) (c : Ctx) (b : Bytes) (hd : Done nn m k c) (hl : 128 * (k + 1) ≤ m.length)
    (hb : b = (m.drop (128 * k)).take 128) : ∃ c', compress (increment c 128) b = .ok c' ∧ Done nn m (k + 1) c' ∧ c'.buflen = c.buflen := by
  have hbl : b.length = 128 := by rw [hb, List.length_take, List.length_drop]; omega
  rw [increment_at c (128 * k) 128 hd.t0 hd.t1]
  have e : 128 * k + (128 : UInt64).toNat = 128 * (k + 1) := by show 128 * k + 128 = _; omega
  rw [e]
  refine ⟨_, compress_eq _ b (128 * (k + 1)) false hbl ?_ rfl rfl hd.f0 hd.f1, ⟨?_, rfl, rfl, hd.f0, hd.f1, hd.buf, hd.out, hd.node⟩, rfl⟩
  · show c.h.length = 8
    rw [hd.h, state_length]
  · show Spec.Blake2b.F c.h b _ false = Spec.Blake2b.F _ _ _ _
    rw [block_full m k hl, ← hb, hd.h]

theorem loop_spec (nn : Nat) (m : Bytes) : ∀ (fuel k : Nat) (c : Ctx), Done nn m k c → c.buflen = 0 → 128 * k < m.length → m.length - 128 * k < fuel →
    ∃ c', loop fuel c (m.drop (128 * k)) = .ok c' ∧ Inv nn m c'
  | 0, _, _, _, _, _, h => absurd h (by omega)
  | fuel + 1, k, c, hd, hb, hk, hf => by
    rw [loop]
    by_cases hl : (m.drop (128 * k)).length > 128
    · rw [if_pos hl]
      rw [List.length_drop] at hl
      obtain ⟨c1, e1, d1, l1⟩ := step nn m k c _ hd (by omega) rfl
      rw [e1]
      dsimp only [Out.bind]
      rw [List.drop_drop, show 128 * k + 128 = 128 * (k + 1) by omega]
      exact loop_spec nn m fuel (k + 1) c1 d1 (by omega) (by omega) (by omega)
    · rw [if_neg hl]
      rw [List.length_drop] at hl
      have hfull : full m = k := by unfold full; omega
      rw [memcpy_ok (by rw [hb, List.length_drop, hd.buf]; omega)]
      refine ⟨_, rfl, ⟨?_, ?_, ?_⟩⟩
      · rw [hfull]
        refine ⟨hd.h, hd.t0, hd.t1, hd.f0, hd.f1, ?_, hd.out, hd.node⟩
        show List.length (_ ++ _ ++ _) = 128
        simp only [List.length_append, List.length_take, List.length_drop, hd.buf, hb]
        omega
      · rw [hfull]
        show c.buflen + _ = _
        rw [hb, List.length_drop]; omega
      · rw [hfull]
        show List.take (c.buflen + _) (_ ++ _ ++ _) = _
        rw [hb]
        simp only [List.take_zero, List.nil_append, Nat.zero_add]
        rw [List.take_left]

theorem update_spec (nn : Nat) (m x : Bytes) (c : Ctx) (hi : Inv nn m c) : ∃ c', update c x = .ok c' ∧ Inv nn (m ++ x) c' := by
  have hbl := hi.len
  have hbuf := hi.done.buf
  have hfl : 128 * full m ≤ m.length := by unfold full; omega
  have hle : c.buflen ≤ 128 := by rw [hbl]; unfold full; omega
  unfold update
  by_cases hx : x.length > 0
  · rw [if_pos hx]
    dsimp only
    by_cases hl : x.length > 128 - c.buflen
    · rw [if_pos hl]
      have htl : (x.take (128 - c.buflen)).length = 128 - c.buflen := by rw [List.length_take]; omega
      rw [memcpy_ok (by rw [htl, hbuf]; omega), htl, hi.rest, List.drop_eq_nil_of_le (as := c.buf) (by omega), List.append_nil]
      dsimp only [Out.bind]
      have hd : Done nn (m ++ x) (full m) { c with buf := m.drop (128 * full m) ++ x.take (128 - c.buflen), buflen := 0 } := by
        refine ⟨?_, hi.done.t0, hi.done.t1, hi.done.f0, hi.done.f1, ?_, hi.done.out, hi.done.node⟩
        · rw [state_append _ _ _ _ hfl]; exact hi.done.h
        · show List.length (_ ++ _) = 128
          rw [List.length_append, htl, List.length_drop]; omega
      obtain ⟨c1, e1, d1, l1⟩ := step nn (m ++ x) (full m) _ (m.drop (128 * full m) ++ x.take (128 - c.buflen)) hd
        (by rw [List.length_append]; omega) (by
          rw [List.drop_append_of_le_length hfl, List.take_append, List.take_of_length_le (l := m.drop (128 * full m)) (by rw [List.length_drop]; omega), List.length_drop, ← hbl])
      rw [e1]
      dsimp only
      have hdrop : x.drop (128 - c.buflen) = (m ++ x).drop (128 * (full m + 1)) := by
        rw [List.drop_append, List.drop_eq_nil_of_le (as := m) (by omega), List.nil_append]
        congr 1
        omega
      rw [hdrop]
      exact loop_spec nn (m ++ x) _ (full m + 1) c1 d1 l1 (by rw [List.length_append]; omega) (by rw [List.length_append]; omega)
    · rw [if_neg hl, memcpy_ok (by rw [hbuf]; omega), hi.rest]
      have hfull : full (m ++ x) = full m := by
        unfold full at *
        rw [List.length_append]; omega
      refine ⟨_, rfl, ⟨?_, ?_, ?_⟩⟩
      · rw [hfull]
        refine ⟨?_, hi.done.t0, hi.done.t1, hi.done.f0, hi.done.f1, ?_, hi.done.out, hi.done.node⟩
        · rw [state_append _ _ _ _ hfl]; exact hi.done.h
        · show List.length (_ ++ _ ++ _) = 128
          simp only [List.length_append, List.length_drop, hbuf]
          omega
      · rw [hfull]
        show c.buflen + _ = _
        rw [List.length_append]; omega
      · rw [hfull]
        show List.take (c.buflen + x.length) (_ ++ _ ++ _) = _
        rw [List.drop_append_of_le_length hfl]
        have : c.buflen + x.length = (m.drop (128 * full m) ++ x).length := by rw [List.length_append, List.length_drop]; omega
        rw [this, List.take_left]
  · rw [if_neg hx]
    have : x = [] := List.eq_nil_of_length_eq_zero (by omega)
    subst this
    rw [List.append_nil]
    exact ⟨c, rfl, hi⟩

theorem updates_spec (nn : Nat) (l : List Bytes) : ∀ (m : Bytes) (c : Ctx), Inv nn m c → ∃ c', updates l c = .ok c' ∧ Inv nn (m ++ l.flatten) c' := by
  induction l with
  | nil => intro m c hi; exact ⟨c, rfl, by simpa using hi⟩
  | cons x l ih =>
    intro m c hi
    obtain ⟨c1, e1, i1⟩ := update_spec nn m x c hi
    obtain ⟨c2, e2, i2⟩ := ih _ _ i1
    refine ⟨c2, ?_, ?_⟩
    · rw [updates, e1]; exact e2
    · rw [List.flatten_cons, ← List.append_assoc]; exact i2

/-! ## Beginning and end -/

theorem init_spec (nn : Nat) (h0 : 0 < nn) (h : nn ≤ 64) : ∃ c, init nn = .ok c ∧ Inv nn [] c := by
  unfold init
  rw [if_neg (by omega)]
  refine ⟨_, rfl, ⟨⟨?_, rfl, rfl, rfl, rfl, rfl, ?_, rfl⟩, rfl, rfl⟩⟩
  · revert h0 h
    have : ∀ n < 65, 0 < n → (initParam (params n)).h = Spec.Blake2b.start n := by decide +kernel
    intro h0 h
    exact this nn (by omega) h0
  · show ((params nn).headD 0).toNat = nn
    show (UInt8.ofNat nn).toNat = nn
    simp; omega

theorem final_spec (nn : Nat) (m : Bytes) (c : Ctx) (hn : nn ≤ 64) (hi : Inv nn m c) : final c nn = .ok (Spec.Blake2b.blake2b nn m) := by
  have hbl := hi.len
  have hbuf := hi.done.buf
  have hfl : 128 * full m ≤ m.length := by unfold full; omega
  have hle : c.buflen ≤ 128 := by rw [hbl]; unfold full; omega
  unfold final
  rw [if_neg (by rw [hi.done.out]; omega), if_neg (by rw [hi.done.f0]; decide)]
  dsimp only
  rw [increment_at c (128 * full m) _ hi.done.t0 hi.done.t1]
  have e : 128 * full m + (UInt64.ofNat c.buflen).toNat = m.length := by
    rw [UInt64.toNat_ofNat']; omega
  rw [e]
  unfold setLastblock
  dsimp only
  rw [hi.done.node, if_neg (by decide)]
  dsimp only
  rw [memcpy_ok (by rw [List.length_replicate, hbuf]; omega), hi.rest, List.length_replicate, List.drop_eq_nil_of_le (as := c.buf) (by omega), List.append_nil]
  dsimp only [Out.bind]
  have hblock : m.drop (128 * full m) ++ List.replicate (128 - c.buflen) 0 = Spec.Blake2b.block m (full m) := by
    unfold Spec.Blake2b.block
    dsimp only
    rw [List.take_of_length_le (by rw [List.length_drop]; omega), List.length_drop, hbl]
  have hlen : (Spec.Blake2b.block m (full m)).length = 128 := by
    rw [← hblock, List.length_append, List.length_drop, List.length_replicate]; omega
  rw [hblock]
  rw [compress_eq _ _ m.length true hlen]
  · dsimp only
    rw [hi.done.out, if_pos hn, hi.done.h]
    rfl
  · show c.h.length = 8
    rw [hi.done.h, state_length]
  · rfl
  · rfl
  · rfl
  · exact hi.done.f1

theorem hashOf_spec (nn : Nat) (h0 : 0 < nn) (h : nn ≤ 64) (l : List Bytes) : hashOf nn l = .ok (Spec.Blake2b.blake2b nn l.flatten) := by
  obtain ⟨c0, e0, i0⟩ := init_spec nn h0 h
  obtain ⟨c1, e1, i1⟩ := updates_spec nn l [] c0 i0
  unfold hashOf
  rw [e0]
  dsimp only [asserted, Out.bind]
  rw [e1]
  dsimp only
  rw [final_spec nn _ c1 h i1, List.nil_append]

theorem blake2b_length (nn : Nat) (h : nn ≤ 64) (m : Bytes) : (Spec.Blake2b.blake2b nn m).length = nn := by
  unfold Spec.Blake2b.blake2b
  dsimp only
  have := F_length (Spec.Blake2b.state nn m ((m.length - 1) / 128)) (Spec.Blake2b.block m ((m.length - 1) / 128)) m.length true
  generalize Spec.Blake2b.F _ _ _ _ = l at this ⊢
  rw [List.length_take, List.length_flatMap]
  simp only [leBytes_length, List.map_const', this]
  have : (List.replicate 8 8).sum = 64 := by decide
  omega

end Verif.Blake2b
