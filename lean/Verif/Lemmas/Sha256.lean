import Verif.Model.Sha256
import Verif.Spec.Sha256
import Verif.Lemmas.Words
import Verif.Lemmas.Chunks
namespace Verif.Sha256
open Verif.Words Verif.Chunks

theorem rotr_eq (x n : UInt32) (h0 : 0 < n.toNat) (h : n.toNat < 32) : rotr x n = Spec.Sha256.rotr n.toNat x := by
  have hs : (32 - n).toNat = 32 - n.toNat := by
    rw [UInt32.toNat_sub_of_le]; rfl
    show n.toNat ≤ 32; omega
  apply UInt32.eq_of_toBitVec_eq
  unfold rotr Spec.Sha256.rotr
  rw [UInt32.toBitVec_xor, UInt32.toBitVec_shiftRight, UInt32.toBitVec_shiftLeft]
  apply BitVec.eq_of_getLsbD_eq
  intro i hi
  have e1 : (n.toBitVec % 32).toNat = n.toNat := by
    rw [BitVec.toNat_umod]; show n.toNat % 32 = _; omega
  have e2 : ((32 - n).toBitVec % 32).toNat = 32 - n.toNat := by
    rw [BitVec.toNat_umod]; show (32 - n).toNat % 32 = _; omega
  rw [BitVec.getLsbD_xor, BitVec.ushiftRight_eq', BitVec.shiftLeft_eq', e1, e2, BitVec.getLsbD_ushiftRight, BitVec.getLsbD_shiftLeft,
    BitVec.getLsbD_rotateRight]
  rw [Nat.mod_eq_of_lt h]
  by_cases hc : i < 32 - n.toNat
  · simp [hc]
  · simp [hc, hi]
    rw [BitVec.getLsbD_of_ge x.toBitVec (n.toNat + i) (by omega), Bool.false_xor]

theorem shr_eq (x n : UInt32) (h : n.toNat < 32) : x >>> n = Spec.Sha256.shr n.toNat x := by
  apply UInt32.eq_of_toBitVec_eq
  rw [UInt32.toBitVec_shiftRight]
  have e1 : (n.toBitVec % 32).toNat = n.toNat := by
    rw [BitVec.toNat_umod]; show n.toNat % 32 = _; omega
  rw [BitVec.ushiftRight_eq', e1]
  rfl

theorem bigSigma0_eq (x : UInt32) : bigSigma0 x = Spec.Sha256.bigSigma0 x := by
  unfold bigSigma0
  rw [rotr_eq x 2 (by decide) (by decide), rotr_eq x 13 (by decide) (by decide), rotr_eq x 22 (by decide) (by decide)]; rfl

theorem bigSigma1_eq (x : UInt32) : bigSigma1 x = Spec.Sha256.bigSigma1 x := by
  unfold bigSigma1
  rw [rotr_eq x 6 (by decide) (by decide), rotr_eq x 11 (by decide) (by decide), rotr_eq x 25 (by decide) (by decide)]; rfl

theorem sigma0_eq (x : UInt32) : sigma0 x = Spec.Sha256.sigma0 x := by
  unfold sigma0
  rw [rotr_eq x 7 (by decide) (by decide), rotr_eq x 18 (by decide) (by decide), shr_eq x 3 (by decide)]; rfl

theorem sigma1_eq (x : UInt32) : sigma1 x = Spec.Sha256.sigma1 x := by
  unfold sigma1
  rw [rotr_eq x 17 (by decide) (by decide), rotr_eq x 19 (by decide) (by decide), shr_eq x 10 (by decide)]; rfl

theorem ch_eq (x y z : UInt32) : ch x y z = Spec.Sha256.Ch x y z := by
  apply UInt32.eq_of_toBitVec_eq
  unfold ch Spec.Sha256.Ch
  simp only [UInt32.toBitVec_xor, UInt32.toBitVec_and, UInt32.toBitVec_not]
  apply BitVec.eq_of_getLsbD_eq
  intro i hi
  simp only [BitVec.getLsbD_xor, BitVec.getLsbD_and, BitVec.getLsbD_not, hi, decide_true, Bool.true_and]
  cases x.toBitVec.getLsbD i <;> cases y.toBitVec.getLsbD i <;> cases z.toBitVec.getLsbD i <;> rfl

theorem maj_eq (x y z : UInt32) : maj x y z = Spec.Sha256.Maj x y z := by
  apply UInt32.eq_of_toBitVec_eq
  unfold maj Spec.Sha256.Maj
  simp only [UInt32.toBitVec_xor, UInt32.toBitVec_and]
  apply BitVec.eq_of_getLsbD_eq
  intro i hi
  simp only [BitVec.getLsbD_xor, BitVec.getLsbD_and]
  cases x.toBitVec.getLsbD i <;> cases y.toBitVec.getLsbD i <;> cases z.toBitVec.getLsbD i <;> rfl

theorem k256_eq (t : Nat) (h : t < 64) : k256.getD t 0 = Spec.Sha256.K t := by
  have : ∀ t < 64, k256.getD t 0 = Spec.Sha256.K t := by decide +kernel
  exact this t h

theorem bswap_bv32 (a b c d : UInt8) : bswap ⟨bv32 a b c d⟩ = ⟨bv32 d c b a⟩ := by
  apply UInt32.eq_of_toBitVec_eq
  show ((((bv32 a b c d <<< (8#32)) &&& 0xff00ff00#32) ||| ((bv32 a b c d >>> (8#32)) &&& 0x00ff00ff#32)) >>> 16#32 |||
    (((bv32 a b c d <<< (8#32)) &&& 0xff00ff00#32) ||| ((bv32 a b c d >>> (8#32)) &&& 0x00ff00ff#32)) <<< 16#32) = bv32 d c b a
  apply BitVec.eq_of_getElem_eq
  intro i hi
  interval_cases i <;> simp [bv32_getElem]

theorem bswap_ld32 (m : Bytes) (h : 4 ≤ m.length) : bswap (ld32 m) = UInt32.ofNat (beNat (m.take 4)) := by
  obtain ⟨a, b, c, d, r, rfl⟩ := four h
  rw [ld32_four, bswap_bv32, ← ld32_four d c b a []]
  rfl

theorem st32_bswap (w : UInt32) : st32 (bswap w) = beBytes 4 w.toNat := by
  obtain ⟨a, b, c, d, rfl⟩ := exists_bv32 w
  rw [bswap_bv32, st32_bv32]
  show _ = (st32 ⟨bv32 a b c d⟩).reverse
  rw [st32_bv32]; rfl

/-! ## The rounds -/

def toL (x : Spec.Sha256.Vars) : List UInt32 := [x.a, x.b, x.c, x.d, x.e, x.f, x.g, x.h]

/-- The variables hold `x`, seen from the `n`-th call. -/
def Rep (n : Nat) (v : List UInt32) (x : Spec.Sha256.Vars) : Prop :=
  v.length = 8 ∧ ∀ j < 8, v.getD (arg n j) 0 = (toL x).getD j 0

theorem Rep.round {n : Nat} {v : List UInt32} {x : Spec.Sha256.Vars} (h : Rep n v x) (k d : UInt32) :
    Rep (n + 1) (Sha256.round n v k d) (Spec.Sha256.round k d x) := by
  obtain ⟨hl, h⟩ := h
  refine ⟨by simp [Sha256.round, hl], ?_⟩
  have e := fun j hj => h j hj
  have e0 := h 0 (by omega)
  have e1 := h 1 (by omega)
  have e2 := h 2 (by omega)
  have e3 := h 3 (by omega)
  have e4 := h 4 (by omega)
  have e5 := h 5 (by omega)
  have e6 := h 6 (by omega)
  have e7 := h 7 (by omega)
  have inj : ∀ i j : Nat, i < 8 → j < 8 → arg n i = arg n j → i = j := by
    intro i j hi hj hh
    unfold arg at hh; omega
  have lt : ∀ j, arg n j < 8 := fun j => Nat.mod_lt _ (by omega)
  have sh : ∀ j, j < 7 → arg (n + 1) (j + 1) = arg n j := by
    intro j hj; unfold arg; omega
  have sh0 : arg (n + 1) 0 = arg n 7 := by unfold arg; omega
  have gs : ∀ (l : List UInt32) i j w, l.length = 8 → i < 8 → (l.set i w).getD j 0 = if i = j then w else l.getD j 0 := by
    intro l i j w hl hi
    rw [List.getD_eq_getElem?_getD, List.getElem?_set]
    by_cases hij : i = j
    · subst hij; simp [hl, hi]
    · simp [hij, List.getD_eq_getElem?_getD]
  intro j hj
  unfold Sha256.round
  dsimp only
  rw [e0, e1, e2, e3, e4, e5, e6, e7]
  simp only [toL, List.getD_cons_zero, List.getD_cons_succ]
  match j, hj with
  | 0, _ =>
    rw [sh0, gs _ _ _ _ (by simp [hl]) (lt _), if_pos rfl]
    simp only [Spec.Sha256.round, List.getD_cons_zero, bigSigma0_eq, bigSigma1_eq, ch_eq, maj_eq, UInt32.add_assoc]
  | j + 1, hj =>
    rw [sh j (by omega), gs _ _ _ _ (by simp [hl]) (lt _), if_neg (fun hh => by have := inj 7 j (by omega) (by omega) hh; omega),
      gs _ _ _ _ hl (lt _)]
    match j, hj with
    | 0, _ => rw [if_neg (fun hh => by have := inj 3 0 (by omega) (by omega) hh; omega), e0]; rfl
    | 1, _ => rw [if_neg (fun hh => by have := inj 3 1 (by omega) (by omega) hh; omega), e1]; rfl
    | 2, _ => rw [if_neg (fun hh => by have := inj 3 2 (by omega) (by omega) hh; omega), e2]; rfl
    | 3, _ =>
      rw [if_pos rfl]
      simp only [Spec.Sha256.round, List.getD_cons_zero, List.getD_cons_succ, bigSigma1_eq, ch_eq, UInt32.add_assoc]
    | 4, _ => rw [if_neg (fun hh => by have := inj 3 4 (by omega) (by omega) hh; omega), e4]; rfl
    | 5, _ => rw [if_neg (fun hh => by have := inj 3 5 (by omega) (by omega) hh; omega), e5]; rfl
    | 6, _ => rw [if_neg (fun hh => by have := inj 3 6 (by omega) (by omega) hh; omega), e6]; rfl

theorem Rep.congr {n m : Nat} {v : List UInt32} {x : Spec.Sha256.Vars} (h : Rep n v x) (e : n % 8 = m % 8) : Rep m v x := by
  refine ⟨h.1, fun j hj => ?_⟩
  rw [← h.2 j hj]; unfold arg; rw [e]

theorem rep_zero (x : Spec.Sha256.Vars) : Rep 0 (toL x) x := by
  refine ⟨rfl, fun j hj => ?_⟩
  rw [show arg 0 j = j by unfold arg; omega]

theorem Rep.eq {v : List UInt32} {x : Spec.Sha256.Vars} (h : Rep 0 v x) : v = toL x := by
  obtain ⟨hl, h⟩ := h
  apply List.ext_getElem hl
  intro i h1 h2
  have := h i (by omega)
  rw [show arg 0 i = i by unfold arg; omega] at this
  simpa [List.getD_eq_getElem?_getD, h1, h2] using this

/-! ## The schedule -/

theorem schedule_length (b : Bytes) (n : Nat) : (Spec.Sha256.schedule b n).length = 16 + n := by
  induction n with
  | zero => simp [Spec.Sha256.schedule, Spec.Sha256.words]
  | succ n ih => simp [Spec.Sha256.schedule, Spec.Sha256.extend, ih]; omega

theorem schedule_getD (b : Bytes) (n k t : Nat) (h : t < 16 + n) :
    (Spec.Sha256.schedule b (n + k)).getD t 0 = (Spec.Sha256.schedule b n).getD t 0 := by
  induction k with
  | zero => rfl
  | succ k ih =>
    rw [← ih, ← Nat.add_assoc, Spec.Sha256.schedule, Spec.Sha256.extend]
    have := schedule_length b (n + k)
    simp only [List.getD_eq_getElem?_getD]
    rw [List.getElem?_append_left (by omega)]

/-- The words of the schedule. -/
def S (b : Bytes) (t : Nat) : UInt32 := (Spec.Sha256.schedule b 48).getD t 0

theorem S_word (b : Bytes) (t : Nat) (h : t < 16) (hb : b.length = 64) : S b t = bswap (ld32 (b.drop (4 * t))) := by
  rw [bswap_ld32 _ (by rw [List.length_drop]; omega)]
  unfold S
  rw [show (48 : Nat) = 0 + 48 from rfl, schedule_getD b 0 48 t (by omega)]
  simp [Spec.Sha256.schedule, Spec.Sha256.words, List.getD_eq_getElem?_getD, h]

theorem S_step (b : Bytes) (t : Nat) (h : 16 ≤ t) (ht : t < 64) :
    S b t = Spec.Sha256.sigma1 (S b (t - 2)) + S b (t - 7) + Spec.Sha256.sigma0 (S b (t - 15)) + S b (t - 16) := by
  have g : ∀ s, s < t → S b s = (Spec.Sha256.schedule b (t - 16)).getD s 0 := by
    intro s hs
    unfold S
    rw [show (48 : Nat) = (t - 16) + (64 - t) by omega, schedule_getD b (t - 16) _ s (by omega)]
  have g' : S b t = (Spec.Sha256.schedule b (t - 16 + 1)).getD t 0 := by
    unfold S
    rw [show (48 : Nat) = (t - 16 + 1) + (63 - t) by omega, schedule_getD b (t - 16 + 1) _ t (by omega)]
  rw [g', g _ (by omega), g _ (by omega), g _ (by omega), g _ (by omega), Spec.Sha256.schedule, Spec.Sha256.extend]
  have := schedule_length b (t - 16)
  rw [show 16 + (t - 16) = t by omega] at this
  rw [this]
  simp only [List.getD_eq_getElem?_getD]
  rw [List.getElem?_append_right (by omega), this]
  simp

/-- `W` holds the last sixteen words before the `t`-th. -/
def Win (b : Bytes) (t : Nat) (w : List UInt32) : Prop :=
  w.length = 16 ∧ ∀ s, s < t → t < s + 17 → w.getD (s % 16) 0 = S b s

theorem getD_set (l : List UInt32) (i j : Nat) (w : UInt32) (h : i < l.length) :
    (l.set i w).getD j 0 = if i = j then w else l.getD j 0 := by
  rw [List.getD_eq_getElem?_getD, List.getElem?_set]
  by_cases hij : i = j
  · subst hij; simp [h]
  · simp [hij, List.getD_eq_getElem?_getD]

theorem Win.recalc {b : Bytes} {t : Nat} {w : List UInt32} (h : Win b t w) (h16 : 16 ≤ t) (ht : t < 64) {n : Nat} (hn : n = t % 16) :
    Win b (t + 1) (Sha256.recalc w n) ∧ (Sha256.recalc w n).getD n 0 = S b t := by
  obtain ⟨hl, hw⟩ := h
  have e0 := hw (t - 16) (by omega) (by omega)
  have e1 := hw (t - 15) (by omega) (by omega)
  have e2 := hw (t - 7) (by omega) (by omega)
  have e3 := hw (t - 2) (by omega) (by omega)
  rw [show (t - 16) % 16 = n by omega] at e0
  rw [show (t - 15) % 16 = (n + 1) % 16 by omega] at e1
  rw [show (t - 7) % 16 = (n + 9) % 16 by omega] at e2
  rw [show (t - 2) % 16 = (n + 14) % 16 by omega] at e3
  have hv : (Sha256.recalc w n).getD n 0 = S b t := by
    unfold Sha256.recalc
    rw [getD_set _ _ _ _ (by omega), if_pos rfl, e0, e1, e2, e3, S_step b t h16 ht, sigma0_eq, sigma1_eq]
    exact UInt32.add_comm _ _
  refine ⟨⟨by simp [Sha256.recalc, hl], fun s h1 h2 => ?_⟩, hv⟩
  by_cases hs : s = t
  · subst hs; rw [← hn]; exact hv
  · unfold Sha256.recalc
    rw [getD_set _ _ _ _ (by omega), if_neg (by omega)]
    exact hw s (by omega) (by omega)

theorem rounds1_spec (b : Bytes) (hb : b.length = 64) (x : Spec.Sha256.Vars) (n : Nat) (hn : n ≤ 16) (w0 : List UInt32) (hw0 : w0.length = 16) :
    Rep n (rounds1 b n (toL x, w0)).1 (Spec.Sha256.rounds (Spec.Sha256.schedule b 48) n x) ∧ Win b n (rounds1 b n (toL x, w0)).2 := by
  induction n with
  | zero => exact ⟨rep_zero x, hw0, fun s h => absurd h (by omega)⟩
  | succ n ih =>
    obtain ⟨hr, hl, hw⟩ := ih (by omega)
    unfold rounds1
    dsimp only
    have hg : ((rounds1 b n (toL x, w0)).2.set n (bswap (ld32 (b.drop (4 * n))))).getD n 0 = S b n := by
      rw [getD_set _ _ _ _ (by omega), if_pos rfl, S_word b n (by omega) hb]
    refine ⟨?_, by simp [hl], fun s h1 h2 => ?_⟩
    · rw [hg, k256_eq n (by omega)]
      exact hr.round _ _
    · by_cases hs : s = n
      · subst hs; rw [Nat.mod_eq_of_lt (by omega)]; exact hg
      · rw [getD_set _ _ _ _ (by omega), if_neg (by omega)]
        exact hw s (by omega) (by omega)

theorem rounds2_spec (b : Bytes) (base : Nat) (hbase : base % 16 = 0) (h16 : 16 ≤ base) (h64 : base ≤ 48) (x : Spec.Sha256.Vars)
    (n : Nat) (hn : n ≤ 16) (s : List UInt32 × List UInt32)
    (h : Rep base s.1 (Spec.Sha256.rounds (Spec.Sha256.schedule b 48) base x) ∧ Win b base s.2) :
    Rep (base + n) (rounds2 base n s).1 (Spec.Sha256.rounds (Spec.Sha256.schedule b 48) (base + n) x) ∧ Win b (base + n) (rounds2 base n s).2 := by
  induction n with
  | zero => exact h
  | succ n ih =>
    obtain ⟨hr, hw⟩ := ih (by omega)
    unfold rounds2
    dsimp only
    obtain ⟨h1, h2⟩ := hw.recalc (by omega) (by omega) (n := n) (by omega)
    refine ⟨?_, h1⟩
    rw [h2, k256_eq (base + n) (by omega)]
    exact ((hr.congr (m := n) (by omega)).round _ _).congr (by omega)

theorem processBlock_eq (x : Spec.Sha256.Vars) (b : Bytes) (hb : b.length = 64) :
    processBlock (toL x) b = toL (Spec.Sha256.compress x b) := by
  unfold processBlock
  dsimp only
  have h1 := rounds1_spec b hb x 16 (by omega) (List.replicate 16 0) (by simp)
  have h2 := rounds2_spec b 16 (by omega) (by omega) (by omega) x 16 (by omega) _ h1
  have h3 := rounds2_spec b 32 (by omega) (by omega) (by omega) x 16 (by omega) _ h2
  have h4 := rounds2_spec b 48 (by omega) (by omega) (by omega) x 16 (by omega) _ h3
  rw [(h4.1.congr (m := 0) (by omega)).eq]
  rfl

end Verif.Sha256
