import Verif.Model.SecpHash
import Verif.Lemmas.Hash
import Verif.Model.Ecdsa
import Verif.Spec.Secdsa
/-
The library's SHA-256 computes what src/sha256.c computes.
-/
namespace Verif.SecpHash
open Verif.Words Verif.Chunks

theorem rotr_eq (x n : UInt32) (h0 : 0 < n.toNat) (h : n.toNat < 32) : rotr x n = Sha256.rotr x n := by
  rw [Sha256.rotr_eq x n h0 h]
  have hs : (32 - n).toNat = 32 - n.toNat := by
    rw [UInt32.toNat_sub_of_le]; rfl
    show n.toNat ≤ 32; omega
  apply UInt32.eq_of_toBitVec_eq
  unfold rotr Spec.Sha256.rotr
  rw [UInt32.toBitVec_or, UInt32.toBitVec_shiftRight, UInt32.toBitVec_shiftLeft]
  apply BitVec.eq_of_getLsbD_eq
  intro i hi
  have e1 : (n.toBitVec % 32).toNat = n.toNat := by
    rw [BitVec.toNat_umod]; show n.toNat % 32 = _; omega
  have e2 : ((32 - n).toBitVec % 32).toNat = 32 - n.toNat := by
    rw [BitVec.toNat_umod]; show (32 - n).toNat % 32 = _; omega
  rw [BitVec.getLsbD_or, BitVec.ushiftRight_eq', BitVec.shiftLeft_eq', e1, e2, BitVec.getLsbD_ushiftRight, BitVec.getLsbD_shiftLeft,
    BitVec.getLsbD_rotateRight]
  rw [Nat.mod_eq_of_lt h]
  by_cases hc : i < 32 - n.toNat
  · simp [hc]
  · simp [hc, hi]
    rw [BitVec.getLsbD_of_ge x.toBitVec (n.toNat + i) (by omega)]
    intro h'; cases h'

theorem bigSigma0_eq (x : UInt32) : bigSigma0 x = Sha256.bigSigma0 x := by
  unfold bigSigma0
  rw [rotr_eq x 2 (by decide) (by decide), rotr_eq x 13 (by decide) (by decide), rotr_eq x 22 (by decide) (by decide)]; rfl
theorem bigSigma1_eq (x : UInt32) : bigSigma1 x = Sha256.bigSigma1 x := by
  unfold bigSigma1
  rw [rotr_eq x 6 (by decide) (by decide), rotr_eq x 11 (by decide) (by decide), rotr_eq x 25 (by decide) (by decide)]; rfl
theorem sigma0_eq (x : UInt32) : sigma0 x = Sha256.sigma0 x := by
  unfold sigma0
  rw [rotr_eq x 7 (by decide) (by decide), rotr_eq x 18 (by decide) (by decide)]; rfl
theorem sigma1_eq (x : UInt32) : sigma1 x = Sha256.sigma1 x := by
  unfold sigma1
  rw [rotr_eq x 17 (by decide) (by decide), rotr_eq x 19 (by decide) (by decide)]; rfl
theorem ch_eq (x y z : UInt32) : ch x y z = Sha256.ch x y z := rfl
theorem maj_eq (x y z : UInt32) : maj x y z = Sha256.maj x y z := by
  apply UInt32.eq_of_toBitVec_eq
  unfold maj Sha256.maj
  simp only [UInt32.toBitVec_xor, UInt32.toBitVec_and, UInt32.toBitVec_or]
  apply BitVec.eq_of_getLsbD_eq
  intro i hi
  simp only [BitVec.getLsbD_xor, BitVec.getLsbD_and, BitVec.getLsbD_or]
  cases x.toBitVec.getLsbD i <;> cases y.toBitVec.getLsbD i <;> cases z.toBitVec.getLsbD i <;> rfl

theorem m1 (a b c d : UInt8) : (bv32 a b c d &&& 0xFF#32) <<< 24#32 = bv32 0 0 0 a := by
  have h : bv32 a b c d &&& 0xFF#32 = bv32 a 0 0 0 := by
    apply BitVec.eq_of_getElem_eq
    intro i hi
    interval_cases i <;> simp [bv32_getElem]
  rw [h, BitVec.shiftLeft_eq']
  apply BitVec.eq_of_getElem_eq
  intro i hi
  rw [BitVec.getElem_shiftLeft]
  interval_cases i <;> simp [bv32_getElem]
theorem m2 (a b c d : UInt8) : (bv32 a b c d &&& 0xFF00#32) <<< 8#32 = bv32 0 0 b 0 := by
  apply BitVec.eq_of_getElem_eq
  intro i hi
  interval_cases i <;> simp [bv32_getElem]
theorem m3 (a b c d : UInt8) : (bv32 a b c d &&& 0xFF0000#32) >>> 8#32 = bv32 0 c 0 0 := by
  apply BitVec.eq_of_getElem_eq
  intro i hi
  interval_cases i <;> simp [bv32_getElem]
theorem m4 (a b c d : UInt8) : (bv32 a b c d &&& 0xFF000000#32) >>> 24#32 = bv32 d 0 0 0 := by
  apply BitVec.eq_of_getElem_eq
  intro i hi
  interval_cases i <;> simp [bv32_getElem]
theorem m5 (a b c d : UInt8) : bv32 0 0 0 a ||| bv32 0 0 b 0 ||| bv32 0 c 0 0 ||| bv32 d 0 0 0 = bv32 d c b a := by
  apply BitVec.eq_of_getElem_eq
  intro i hi
  rw [BitVec.getElem_or, BitVec.getElem_or, BitVec.getElem_or]
  interval_cases i <;> simp [bv32_getElem]
theorem be32_eq (x : UInt32) : be32 x = Sha256.bswap x := by
  obtain ⟨a, b, c, d, rfl⟩ := exists_bv32 x
  have h := m5 a b c d
  rw [← m1 a b c d, ← m2 a b c d, ← m3 a b c d, ← m4 a b c d] at h
  rw [Sha256.bswap_bv32]
  apply UInt32.eq_of_toBitVec_eq
  refine Eq.trans ?_ h
  clear h
  generalize bv32 a b c d = w
  rfl

theorem k_eq : k = Sha256.k256 := rfl

theorem round_eq (n : Nat) (v : List UInt32) (q w : UInt32) : round n v q w = Sha256.round n v q w := by
  unfold round Sha256.round
  simp only [bigSigma0_eq, bigSigma1_eq, ch_eq, maj_eq, UInt32.add_assoc]
  rfl

theorem rounds1_eq (b : Bytes) (n : Nat) (s : List UInt32 × List UInt32) : rounds1 b n s = Sha256.rounds1 b n s := by
  induction n with
  | zero => rfl
  | succ n ih => rw [rounds1, Sha256.rounds1, ih, be32_eq, round_eq, k_eq]

theorem rounds2_eq (base n : Nat) (s : List UInt32 × List UInt32) : rounds2 base n s = Sha256.rounds2 base n s := by
  induction n with
  | zero => rfl
  | succ n ih => rw [rounds2, Sha256.rounds2, ih, Sha256.recalc, round_eq, k_eq, sigma0_eq, sigma1_eq]

theorem rounds1_len (b : Bytes) (n : Nat) (s : List UInt32 × List UInt32) : (Sha256.rounds1 b n s).2.length = s.2.length := by
  induction n with
  | zero => rfl
  | succ n ih => rw [Sha256.rounds1]; dsimp only; rw [List.length_set, ih]

theorem rounds2_len (base n : Nat) (s : List UInt32 × List UInt32) : (Sha256.rounds2 base n s).2.length = s.2.length := by
  induction n with
  | zero => rfl
  | succ n ih => rw [Sha256.rounds2]; dsimp only; rw [Sha256.recalc, List.length_set, ih]

theorem rounds2_succ (base n : Nat) (s : List UInt32 × List UInt32) : Sha256.rounds2 base (n + 1) s =
    (Sha256.round n (Sha256.rounds2 base n s).1 (Sha256.k256.getD (base + n) 0) ((Sha256.recalc (Sha256.rounds2 base n s).2 n).getD n 0),
      Sha256.recalc (Sha256.rounds2 base n s).2 n) := rfl

theorem rounds3_eq (s : List UInt32 × List UInt32) (h : s.2.length = 16) :
    rounds3 (Sha256.rounds2 48 14 s) = (Sha256.rounds2 48 16 s).1 := by
  have hl : (Sha256.rounds2 48 14 s).2.length = 16 := by rw [rounds2_len, h]
  have e : (Sha256.rounds2 48 16 s).1 = Sha256.round 15 (Sha256.round 14 (Sha256.rounds2 48 14 s).1 (Sha256.k256.getD 62 0)
      ((Sha256.recalc (Sha256.rounds2 48 14 s).2 14).getD 14 0)) (Sha256.k256.getD 63 0)
      ((Sha256.recalc (Sha256.recalc (Sha256.rounds2 48 14 s).2 14) 15).getD 15 0) := by
    rw [rounds2_succ 48 15, rounds2_succ 48 14]
  rw [e]
  clear e
  generalize Sha256.rounds2 48 14 s = r at hl
  obtain ⟨v, w⟩ := r
  dsimp only at hl ⊢
  have g : ∀ (l : List UInt32) i j w, l.length = 16 → i < 16 → (l.set i w).getD j 0 = if i = j then w else l.getD j 0 :=
    fun l i j w h1 h2 => Sha256.getD_set l i j w (by omega)
  have a1 : (Sha256.recalc w 14).getD 14 0 = w.getD 14 0 + sigma1 (w.getD 12 0) + w.getD 7 0 + sigma0 (w.getD 15 0) := by
    rw [Sha256.recalc, g _ _ _ _ hl (by decide), if_pos rfl, sigma1_eq, sigma0_eq]
    simp only [Nat.reduceAdd, Nat.reduceMod, UInt32.add_assoc]
  have a2 : ∀ j, j ≠ 14 → (Sha256.recalc w 14).getD j 0 = w.getD j 0 := by
    intro j hj
    rw [Sha256.recalc, g _ _ _ _ hl (by decide), if_neg (by omega)]
  have hl2 : (Sha256.recalc w 14).length = 16 := by rw [Sha256.recalc, List.length_set, hl]
  generalize Sha256.recalc w 14 = w2 at a1 a2 hl2
  have a3 : (Sha256.recalc w2 15).getD 15 0 = w.getD 15 0 + sigma1 (w.getD 13 0) + w.getD 8 0 + sigma0 (w.getD 0 0) := by
    rw [Sha256.recalc, g _ _ _ _ hl2 (by decide), if_pos rfl, sigma1_eq, sigma0_eq]
    simp only [Nat.reduceAdd, Nat.reduceMod]
    rw [a2 _ (by decide), a2 _ (by decide), a2 _ (by decide), a2 _ (by decide)]
    simp only [UInt32.add_assoc]
  rw [rounds3]
  dsimp only
  rw [← a1, ← a3, round_eq, round_eq, k_eq]

theorem transform_eq (s : List UInt32) (b : Bytes) : transform s b = Sha256.processBlock s b := by
  unfold transform Sha256.processBlock
  dsimp only
  rw [rounds1_eq, rounds2_eq, rounds2_eq, rounds2_eq, rounds3_eq]
  rw [rounds2_len, rounds2_len, rounds1_len, List.length_replicate]

/-! ### Writing -/

/-- The context stands for the message `M`, but for its length. -/
structure Half (M : Bytes) (c : Ctx) : Prop where
  size : c.buf.length = 64
  hash : c.s = chunks 64 Sha256.processBlock (M.length / 64) M Sha256.iv
  rest : c.buf.take (M.length % 64) = M.drop (64 * (M.length / 64))

structure Inv (M : Bytes) (c : Ctx) : Prop extends Half M c where
  len : c.bytes = M.length % 2 ^ 64

theorem inv_init (mem : Bytes) (h : mem.length = 64) : Inv [] (sha256Init mem) := ⟨⟨h, rfl, by simp⟩, rfl⟩

theorem loop_spec (fuel : Nat) (c : Ctx) (M data : Bytes) (h : Half M c) (hf : data.length < fuel) :
    ∃ c', writeLoop fuel c (M.length % 64) data = .ok c' ∧ c'.bytes = c.bytes ∧ Half (M ++ data) c' := by
  induction fuel generalizing c M data with
  | zero => omega
  | succ fuel ih =>
    obtain ⟨hs, hh, hr⟩ := h
    have hrl : (M.drop (64 * (M.length / 64))).length = M.length % 64 := by rw [List.length_drop]; omega
    rw [writeLoop]
    by_cases h1 : M.length % 64 + data.length ≥ 64
    · rw [if_pos h1]
      dsimp only
      have htl : (data.take (64 - M.length % 64)).length = 64 - M.length % 64 := by rw [List.length_take]; omega
      rw [memcpy_ok (by rw [htl]; omega)]
      dsimp only [Out.bind]
      have e : c.buf.take (M.length % 64) ++ data.take (64 - M.length % 64) ++ c.buf.drop (M.length % 64 + (data.take (64 - M.length % 64)).length)
          = M.drop (64 * (M.length / 64)) ++ data.take (64 - M.length % 64) := by
        have e' : c.buf.drop (M.length % 64 + (64 - M.length % 64)) = [] := List.drop_of_length_le (by omega)
        rw [hr, htl, e', List.append_nil]
      rw [e, transform_eq]
      have hM : M ++ data = (M ++ data.take (64 - M.length % 64)) ++ data.drop (64 - M.length % 64) := by
        rw [List.append_assoc, List.take_append_drop]
      have hbl : (M.drop (64 * (M.length / 64)) ++ data.take (64 - M.length % 64)).length = 64 := by rw [List.length_append, hrl, htl]; omega
      have hml : (M ++ data.take (64 - M.length % 64)).length = 64 * (M.length / 64 + 1) := by rw [List.length_append, htl]; omega
      have h2 : Half (M ++ data.take (64 - M.length % 64)) { c with
          buf := M.drop (64 * (M.length / 64)) ++ data.take (64 - M.length % 64),
          s := Sha256.processBlock c.s (M.drop (64 * (M.length / 64)) ++ data.take (64 - M.length % 64)) } := by
        refine ⟨hbl, ?_, ?_⟩
        · rw [hml, show 64 * (M.length / 64 + 1) / 64 = M.length / 64 + 1 by omega]
          have hsplit : M ++ data.take (64 - M.length % 64)
              = M.take (64 * (M.length / 64)) ++ (M.drop (64 * (M.length / 64)) ++ data.take (64 - M.length % 64)) := by
            rw [← List.append_assoc, List.take_append_drop]
          rw [hsplit, chunks_snoc 64 _ (M.length / 64) _ _ Sha256.iv (by rw [List.length_take]; omega) hbl]
          dsimp only
          rw [hh]
          congr 1
          rw [← chunks_append 64 Sha256.processBlock (M.length / 64) (M.take (64 * (M.length / 64))) (M.drop (64 * (M.length / 64))) Sha256.iv
            (by rw [List.length_take]; omega), List.take_append_drop]
        · rw [hml, show 64 * (M.length / 64 + 1) % 64 = 0 by omega, show 64 * (M.length / 64 + 1) / 64 = M.length / 64 + 1 by omega,
            List.take_zero, List.drop_of_length_le (by rw [hml])]
      obtain ⟨c', h3, h4, h5⟩ := ih _ _ (data.drop (64 - M.length % 64)) h2 (by rw [List.length_drop]; omega)
      rw [hml, show 64 * (M.length / 64 + 1) % 64 = 0 by omega] at h3
      exact ⟨c', h3, h4, by rw [hM]; exact h5⟩
    · rw [if_neg h1]
      have hdiv : (M ++ data).length / 64 = M.length / 64 := by rw [List.length_append]; omega
      have hmod : (M ++ data).length % 64 = M.length % 64 + data.length := by rw [List.length_append]; omega
      by_cases h2 : data.length ≠ 0
      · rw [if_pos h2, memcpy_ok (by omega)]
        refine ⟨_, rfl, rfl, ?_, ?_, ?_⟩
        · exact Sha256.memcpy_length (memcpy_ok (by omega : M.length % 64 + data.length ≤ c.buf.length)) |>.trans hs
        · rw [hdiv, chunks_append 64 _ _ M data Sha256.iv (by omega)]; exact hh
        · rw [hdiv, hmod, hr]
          rw [List.drop_append_of_le_length (by omega)]
          rw [show M.length % 64 + data.length = (List.drop (64 * (M.length / 64)) M ++ data).length by rw [List.length_append, hrl]]
          rw [List.take_left]
      · rw [if_neg h2]
        have : data = [] := List.eq_nil_of_length_eq_zero (by omega)
        subst this
        exact ⟨c, rfl, rfl, by rw [List.append_nil]; exact ⟨hs, hh, hr⟩⟩

theorem write_spec (c : Ctx) (M data : Bytes) (h : Inv M c) : ∃ c', sha256Write c data = .ok c' ∧ Inv (M ++ data) c' := by
  obtain ⟨hh, hl⟩ := h
  have hi : c.bytes % 64 = M.length % 64 := by rw [hl]; omega
  obtain ⟨c', h1, h2, h3⟩ := loop_spec (data.length + 1) { c with bytes := (c.bytes + data.length) % 2 ^ 64 } M data
    ⟨hh.size, hh.hash, hh.rest⟩ (by omega)
  refine ⟨c', ?_, h3, ?_⟩
  · rw [sha256Write, hi]; exact h1
  · rw [h2, List.length_append]
    dsimp only
    rw [hl]; omega

theorem writes_spec (l : List Bytes) (c : Ctx) (M : Bytes) (h : Inv M c) : ∃ c', writes l c = .ok c' ∧ Inv (M ++ l.flatten) c' := by
  induction l generalizing c M with
  | nil => exact ⟨c, rfl, by simpa using h⟩
  | cons x l ih =>
    obtain ⟨c1, e1, h1⟩ := write_spec c M x h
    obtain ⟨c2, e2, h2⟩ := ih c1 _ h1
    refine ⟨c2, ?_, by simpa using h2⟩
    rw [writes, e1]
    exact e2

attribute [local irreducible] be32 Sha256.processBlock Sha256.bswap

theorem final_spec (c : Ctx) (M : Bytes) (h : Inv M c) : sha256Final c = .ok (Spec.Sha256.sha256 M) := by
  have hl := h.len
  have hi : c.bytes % 64 = M.length % 64 := by rw [hl]; omega
  rw [sha256Final]
  have hp : pad.length = 64 := by decide
  rw [if_pos (by rw [hp, hi]; omega)]
  obtain ⟨c1, e1, h1⟩ := write_spec c M (pad.take (1 + (119 - c.bytes % 64) % 64)) h
  rw [e1]
  dsimp only [Out.bind]
  obtain ⟨c2, e2, h2⟩ := write_spec c1 _
    (st32 (be32 (UInt32.ofNat (c.bytes / 2 ^ 29))) ++ st32 (be32 (UInt32.ofNat (c.bytes * 2 ^ 3)))) h1
  rw [e2]
  dsimp only
  have hpad : M ++ pad.take (1 + (119 - c.bytes % 64) % 64) ++
      (st32 (be32 (UInt32.ofNat (c.bytes / 2 ^ 29))) ++ st32 (be32 (UInt32.ofNat (c.bytes * 2 ^ 3)))) = Spec.Sha256.pad M := by
    rw [be32_eq, be32_eq, hl, show (2 : Nat) ^ 3 = 8 from rfl, Sha256.lenWords, Spec.Sha256.pad, pad, Nat.add_comm 1, List.take_succ_cons,
      List.take_replicate, Nat.min_eq_left (by omega), show M.length % 2 ^ 64 % 64 = M.length % 64 by omega, List.append_assoc M [0x80]]
    rfl
  rw [hpad] at h2
  have hmul : (Spec.Sha256.pad M).length / 64 * 64 ≤ (Spec.Sha256.pad M).length := Nat.div_mul_le_self _ _
  have hs : c2.s.flatMap (fun w => st32 (be32 w)) = c2.s.flatMap fun w => beBytes 4 w.toNat := by
    congr 1
    funext w
    rw [be32_eq, Sha256.st32_bswap]
  rw [hs, h2.hash, Sha256.iv_eq, ← chunks_map 64 Spec.Sha256.compress Sha256.processBlock Sha256.toL
    (fun s b hb => (Sha256.processBlock_eq s b hb).symm) _ _ _ hmul, ← Sha256.split_foldl]
  rfl

theorem sha256_eq {mem : Bytes} (h : mem.length = 64) (l : List Bytes) : sha256 mem l = .ok (Spec.Sha256.sha256 l.flatten) := by
  obtain ⟨c, e, hc⟩ := writes_spec l _ _ (inv_init mem h)
  rw [sha256, e]
  exact final_spec c _ hc

/-! ### HMAC and the generator -/

theorem hmac_eq {mem : Nat → Bytes} (h : ∀ i, (mem i).length = 64) (key : Bytes) (l : List Bytes) :
    hmac mem key l = .ok (Spec.Hmac.hmac key l.flatten) := by
  have hk : (if key.length ≤ 64 then Out.ok (key ++ List.replicate (64 - key.length) 0)
      else (sha256 (mem 0) [key]).bind fun d => .ok (d ++ List.replicate 32 0)) = (.ok (Spec.Hmac.blockKey key) : Out Unit Bytes) := by
    rw [Spec.Hmac.blockKey]
    by_cases hl : key.length ≤ 64
    · rw [if_pos hl, if_neg (by omega)]
    · rw [if_neg hl, if_pos (by omega), sha256_eq (h 0)]
      dsimp only [Out.bind]
      rw [Hash.sha256_length]
      simp
  obtain ⟨o1, e1, h1⟩ := write_spec _ _ ((Spec.Hmac.blockKey key).map (· ^^^ 0x5c)) (inv_init (mem 1) (h 1))
  obtain ⟨i1, e2, h2⟩ := write_spec _ _ (((Spec.Hmac.blockKey key).map (· ^^^ 0x5c)).map (· ^^^ (0x5c ^^^ 0x36))) (inv_init (mem 2) (h 2))
  obtain ⟨i2, e3, h3⟩ := writes_spec l i1 _ h2
  obtain ⟨o2, e4, h4⟩ := write_spec o1 _ (Spec.Sha256.sha256 ([] ++ (((Spec.Hmac.blockKey key).map (· ^^^ 0x5c)).map (· ^^^ (0x5c ^^^ 0x36))) ++ l.flatten)) h1
  rw [hmac, hmacInit, hk]
  dsimp only [Out.bind]
  rw [e1]
  dsimp only
  rw [e2]
  dsimp only
  rw [hmacWrites, e3]
  dsimp only [Out.bind]
  rw [hmacFinal, final_spec _ _ h3]
  dsimp only [Out.bind]
  rw [e4]
  dsimp only
  rw [final_spec _ _ h4, Spec.Hmac.hmac, Spec.Hmac.xorWith, Spec.Hmac.xorWith, List.nil_append, List.nil_append, List.map_map]
  have : ((fun x : UInt8 => x ^^^ (0x5c ^^^ 0x36)) ∘ fun x : UInt8 => x ^^^ 0x5c) = fun c => c ^^^ 0x36 := by
    funext c
    show c ^^^ 0x5c ^^^ (0x5c ^^^ 0x36) = c ^^^ 0x36
    rw [← UInt8.xor_assoc, UInt8.xor_assoc c, UInt8.xor_self, UInt8.xor_zero]
  rw [this]

/-- The generator of Model/Ecdsa, as a state of the library's. -/
def rng (g : Ecdsa.Rng) : Rng := ⟨g.v, g.k, g.retry⟩

theorem rngInit_eq {mem : Nat → Bytes} (h : ∀ i, (mem i).length = 64) (key : Bytes) :
    rngInit mem key = .ok (rng (Ecdsa.rngInit key)) := by
  rw [rngInit, Ecdsa.rngInit]
  simp only [hmac_eq h, Out.bind, List.flatten_cons, List.flatten_nil, List.append_nil, rng, List.append_assoc]

theorem genLoop_eq {mem : Nat → Bytes} (h : ∀ i, (mem i).length = 64) (k : Bytes) (f : Nat) (v : Bytes) (n : Nat) :
    genLoop mem k f v n = .ok (Ecdsa.rngLoop k f v n) := by
  induction f generalizing v n with
  | zero => rfl
  | succ f ih =>
    rw [genLoop, Ecdsa.rngLoop]
    by_cases hn : n > 0
    · rw [if_pos hn, if_pos hn, hmac_eq h]
      simp only [Out.bind, ih, List.flatten_cons, List.flatten_nil, List.append_nil]
    · rw [if_neg hn, if_neg hn]

theorem rngGenerate_eq {mem : Nat → Bytes} (h : ∀ i, (mem i).length = 64) (g : Ecdsa.Rng) (n : Nat) :
    rngGenerate mem (rng g) n = .ok (rng (Ecdsa.rngGenerate g n).1, (Ecdsa.rngGenerate g n).2) := by
  obtain ⟨v, k, r⟩ := g
  rw [rngGenerate, Ecdsa.rngGenerate]
  cases r <;> simp [hmac_eq h, genLoop_eq h, Out.bind, rng]

theorem nonceLoop_eq {mem : Nat → Bytes} (h : ∀ i, (mem i).length = 64) (g : Ecdsa.Rng) (i : Nat) :
    nonceLoop mem (rng g) i = .ok (Ecdsa.nonceLoop g i) := by
  induction i generalizing g with
  | zero => rw [nonceLoop, rngGenerate_eq h, Ecdsa.nonceLoop]; rfl
  | succ i ih => rw [nonceLoop, rngGenerate_eq h, Ecdsa.nonceLoop, ← ih]; rfl

theorem nonce_eq {mem : Nat → Bytes} (h : ∀ i, (mem i).length = 64) (msg key : Bytes) (i : Nat) :
    nonce mem msg key i = .ok (Ecdsa.nonce msg key i) := by
  rw [nonce, rngInit_eq h, Ecdsa.nonce, ← nonceLoop_eq h]; rfl

theorem state_length (key h : Bytes) (i : Nat) : (Spec.Secdsa.state key h i).2.length = 32 := by
  cases i with
  | zero => rw [Spec.Secdsa.state]; exact Hash.hmac_length _ _
  | succ i => rw [Spec.Secdsa.state]; exact Hash.hmac_length _ _

end Verif.SecpHash
