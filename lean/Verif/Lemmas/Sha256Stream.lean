import Verif.Lemmas.Sha256
/-
Updates and the end of the message.
-/
namespace Verif.Sha256
open Verif.Words Verif.Chunks

abbrev iv : List UInt32 := [0x6a09e667, 0xbb67ae85, 0x3c6ef372, 0xa54ff53a, 0x510e527f, 0x9b05688c, 0x1f83d9ab, 0x5be0cd19]

/-- The context stands for the message `M`. -/
structure Inv (M : Bytes) (c : Ctx) : Prop where
  size : c.message.length = 64
  len : c.length = M.length % 2 ^ 64
  hash : c.hash = chunks 64 processBlock (M.length / 64) M iv
  rest : c.message.take (M.length % 64) = M.drop (64 * (M.length / 64))

theorem inv_init (mem : Bytes) (h : mem.length = 64) : Inv [] (init mem) := ⟨h, rfl, rfl, by simp⟩

theorem memcpy_length {mem b m : Bytes} {i : Nat} (h : memcpy mem i b = .ok m) : m.length = mem.length := by
  unfold memcpy at h
  split at h
  · cases Out.ok.inj h
    rw [List.length_append, List.length_append, List.length_take, List.length_drop]; omega
  · cases h

theorem blocks_spec (al : Bool) (fuel : Nat) (c : Ctx) (M msg : Bytes) (q : Nat) (hq : M.length = 64 * q) (hs : c.message.length = 64)
    (hl : c.length = (M.length + msg.length) % 2 ^ 64) (hh : c.hash = chunks 64 processBlock q M iv) (hf : msg.length < fuel) :
    ∃ c', blocks al fuel c msg = .ok c' ∧ Inv (M ++ msg) c' := by
  induction fuel generalizing c M msg q with
  | zero => omega
  | succ fuel ih =>
    unfold blocks
    by_cases h1 : msg.length ≥ 64
    · rw [if_pos h1]
      have hM : M ++ msg = (M ++ msg.take 64) ++ msg.drop 64 := by rw [List.append_assoc, List.take_append_drop]
      have htl : (msg.take 64).length = 64 := by rw [List.length_take]; omega
      have hsn : chunks 64 processBlock (q + 1) (M ++ msg.take 64) iv = processBlock c.hash (msg.take 64) := by
        rw [chunks_snoc 64 _ q M _ iv (by omega) htl, hh]
      have hlen : ((M ++ msg.take 64).length + (msg.drop 64).length) = M.length + msg.length := by
        rw [List.length_append, htl, List.length_drop]; omega
      cases al with
      | true =>
        rw [if_pos rfl, hM]
        exact ih _ _ _ (q + 1) (by rw [List.length_append, htl]; omega) hs (by rw [hlen]; exact hl) hsn.symm (by rw [List.length_drop]; omega)
      | false =>
        rw [if_neg (by decide), memcpy_ok (by rw [htl]; omega)]
        dsimp only [Out.bind]
        have e : c.message.take 0 ++ msg.take 64 ++ c.message.drop (0 + (msg.take 64).length) = msg.take 64 := by
          rw [htl, List.drop_of_length_le (by omega)]; simp
        rw [e, hM]
        exact ih _ _ _ (q + 1) (by rw [List.length_append, htl]; omega) htl (by rw [hlen]; exact hl) hsn.symm (by rw [List.length_drop]; omega)
    · rw [if_neg h1]
      have hdiv : (M ++ msg).length / 64 = q := by rw [List.length_append]; omega
      have hmod : (M ++ msg).length % 64 = msg.length := by rw [List.length_append]; omega
      have hdrop : (M ++ msg).drop (64 * q) = msg := by rw [← hq, List.drop_left]
      have hch : c.hash = chunks 64 processBlock q (M ++ msg) iv := by rw [chunks_append 64 _ q M msg iv (by omega)]; exact hh
      by_cases h2 : msg.length > 0
      · rw [if_pos h2, memcpy_ok (by omega)]
        refine ⟨_, rfl, ?_, ?_, ?_, ?_⟩
        · exact memcpy_length (memcpy_ok (by omega : 0 + msg.length ≤ c.message.length)) |>.trans hs
        · rw [List.length_append]; exact hl
        · rw [hdiv]; exact hch
        · rw [hdiv, hmod, hdrop]
          simp
      · rw [if_neg h2]
        refine ⟨c, rfl, hs, by rw [List.length_append]; exact hl, by rw [hdiv]; exact hch, ?_⟩
        rw [hdiv, hmod, hdrop]
        rw [List.eq_nil_of_length_eq_zero (by omega : msg.length = 0)]
        simp

theorem update_spec (al : Bool) (c : Ctx) (M msg : Bytes) (h : Inv M c) :
    ∃ c', update al c msg = .ok c' ∧ Inv (M ++ msg) c' := by
  obtain ⟨hs, hl, hh, hr⟩ := h
  have hi : c.length % 64 = M.length % 64 := by rw [hl]; omega
  have hlen : (c.length + msg.length) % 2 ^ 64 = (M.length + msg.length) % 2 ^ 64 := by rw [hl]; omega
  unfold update
  dsimp only
  rw [hi]
  by_cases h0 : M.length % 64 > 0
  · rw [if_pos h0]
    have hrl : (M.drop (64 * (M.length / 64))).length = M.length % 64 := by rw [List.length_drop]; omega
    by_cases h1 : msg.length < 64 - M.length % 64
    · have ht : msg.take (64 - M.length % 64) = msg := List.take_of_length_le (by omega)
      rw [ht, memcpy_ok (by omega)]
      dsimp only [Out.bind]
      rw [if_pos h1]
      have hdiv : (M ++ msg).length / 64 = M.length / 64 := by rw [List.length_append]; omega
      have hmod : (M ++ msg).length % 64 = M.length % 64 + msg.length := by rw [List.length_append]; omega
      refine ⟨_, rfl, ?_, ?_, ?_, ?_⟩
      · exact memcpy_length (memcpy_ok (by omega : M.length % 64 + msg.length ≤ c.message.length)) |>.trans hs
      · rw [List.length_append]; exact hlen
      · rw [hdiv, chunks_append 64 _ _ M msg iv (by omega)]; exact hh
      · rw [hdiv, hmod, hr]
        rw [List.drop_append_of_le_length (by omega)]
        rw [show M.length % 64 + msg.length = (List.drop (64 * (M.length / 64)) M ++ msg).length by rw [List.length_append, hrl]]
        rw [List.take_left]
    · have htl : (msg.take (64 - M.length % 64)).length = 64 - M.length % 64 := by rw [List.length_take]; omega
      rw [memcpy_ok (by omega)]
      dsimp only [Out.bind]
      rw [if_neg h1]
      have e : c.message.take (M.length % 64) ++ msg.take (64 - M.length % 64) ++ c.message.drop (M.length % 64 + (msg.take (64 - M.length % 64)).length)
          = M.drop (64 * (M.length / 64)) ++ msg.take (64 - M.length % 64) := by
        have e' : c.message.drop (M.length % 64 + (64 - M.length % 64)) = [] := List.drop_of_length_le (by omega)
        rw [hr, htl, e', List.append_nil]
      rw [e]
      have hM : M ++ msg = (M ++ msg.take (64 - M.length % 64)) ++ msg.drop (64 - M.length % 64) := by
        rw [List.append_assoc, List.take_append_drop]
      rw [hM]
      have hbl : (M.drop (64 * (M.length / 64)) ++ msg.take (64 - M.length % 64)).length = 64 := by rw [List.length_append, hrl, htl]; omega
      refine blocks_spec al _ _ (M ++ msg.take (64 - M.length % 64)) _ (M.length / 64 + 1) ?_ hbl ?_ ?_ ?_
      · rw [List.length_append, htl]; omega
      · rw [List.length_append, htl, List.length_drop]
        refine Eq.trans hlen ?_
        congr 1; omega
      · have hsplit : M ++ msg.take (64 - M.length % 64)
            = M.take (64 * (M.length / 64)) ++ (M.drop (64 * (M.length / 64)) ++ msg.take (64 - M.length % 64)) := by
          rw [← List.append_assoc, List.take_append_drop]
        rw [hsplit, chunks_snoc 64 _ (M.length / 64) _ _ iv (by rw [List.length_take]; omega) hbl]
        show processBlock c.hash _ = _
        rw [hh]
        congr 1
        rw [← chunks_append 64 processBlock (M.length / 64) (M.take (64 * (M.length / 64))) (M.drop (64 * (M.length / 64))) iv
          (by rw [List.length_take]; omega), List.take_append_drop]
      · rw [List.length_drop]; omega
  · rw [if_neg h0]
    exact blocks_spec al _ _ M msg (M.length / 64) (by omega) hs hlen hh (by omega)

theorem updates_spec (l : List (Bool × Bytes)) (c : Ctx) (M : Bytes) (h : Inv M c) :
    ∃ c', updates l c = .ok c' ∧ Inv (M ++ (l.map (·.2)).flatten) c' := by
  induction l generalizing c M with
  | nil => exact ⟨c, rfl, by simpa using h⟩
  | cons x l ih =>
    obtain ⟨c1, e1, h1⟩ := update_spec x.1 c M x.2 h
    obtain ⟨c2, e2, h2⟩ := ih c1 _ h1
    refine ⟨c2, ?_, by simpa using h2⟩
    unfold updates
    rw [e1]
    exact e2

/-! ## The end -/

/-- Ending the message inside a word. -/
theorem endWord (a b c d : UInt8) (k : Nat) (hk : k < 4) :
    st32 ((⟨bv32 a b c d⟩ &&& ~~~(0xffffffff <<< UInt32.ofNat (k * 8))) ^^^ 0x80 <<< UInt32.ofNat (k * 8)) =
      ([a, b, c, d].take k ++ [0x80] ++ List.replicate (3 - k) 0) := by
  match k, hk with
  | 0, _ =>
    have : ((⟨bv32 a b c d⟩ : UInt32) &&& ~~~(0xffffffff <<< UInt32.ofNat (0 * 8))) ^^^ 0x80 <<< UInt32.ofNat (0 * 8) = ⟨bv32 0x80 0 0 0⟩ := by
      apply UInt32.eq_of_toBitVec_eq
      show (bv32 a b c d &&& ~~~(0xffffffff#32 <<< 0#32)) ^^^ 0x80#32 <<< 0#32 = _
      apply BitVec.eq_of_getElem_eq
      intro i hi
      interval_cases i <;> simp [bv32_getElem]
    rw [this, st32_bv32]; rfl
  | 1, _ =>
    have : ((⟨bv32 a b c d⟩ : UInt32) &&& ~~~(0xffffffff <<< UInt32.ofNat (1 * 8))) ^^^ 0x80 <<< UInt32.ofNat (1 * 8) = ⟨bv32 a 0x80 0 0⟩ := by
      apply UInt32.eq_of_toBitVec_eq
      show (bv32 a b c d &&& ~~~(0xffffffff#32 <<< 8#32)) ^^^ 0x80#32 <<< 8#32 = _
      apply BitVec.eq_of_getElem_eq
      intro i hi
      interval_cases i <;> simp [bv32_getElem]
    rw [this, st32_bv32]; rfl
  | 2, _ =>
    have : ((⟨bv32 a b c d⟩ : UInt32) &&& ~~~(0xffffffff <<< UInt32.ofNat (2 * 8))) ^^^ 0x80 <<< UInt32.ofNat (2 * 8) = ⟨bv32 a b 0x80 0⟩ := by
      apply UInt32.eq_of_toBitVec_eq
      show (bv32 a b c d &&& ~~~(0xffffffff#32 <<< 16#32)) ^^^ 0x80#32 <<< 16#32 = _
      apply BitVec.eq_of_getElem_eq
      intro i hi
      interval_cases i <;> simp [bv32_getElem]
    rw [this, st32_bv32]; rfl
  | 3, _ =>
    have : ((⟨bv32 a b c d⟩ : UInt32) &&& ~~~(0xffffffff <<< UInt32.ofNat (3 * 8))) ^^^ 0x80 <<< UInt32.ofNat (3 * 8) = ⟨bv32 a b c 0x80⟩ := by
      apply UInt32.eq_of_toBitVec_eq
      show (bv32 a b c d &&& ~~~(0xffffffff#32 <<< 24#32)) ^^^ 0x80#32 <<< 24#32 = _
      apply BitVec.eq_of_getElem_eq
      intro i hi
      interval_cases i <;> simp [bv32_getElem]
    rw [this, st32_bv32]; rfl

theorem getWord_ok {m : Bytes} {i : Nat} (h : 4 * i + 4 ≤ m.length) : getWord m i = .ok (ld32 (m.drop (4 * i))) := by
  rw [getWord, if_pos h]

theorem setWord_ok {m : Bytes} {i : Nat} (w : UInt32) (h : 4 * i + 4 ≤ m.length) :
    setWord m i w = .ok (m.take (4 * i) ++ st32 w ++ m.drop (4 * i + 4)) := by
  rw [setWord, memcpy_ok (by rw [st32_length]; exact h), st32_length]

theorem zeroTo_ok (k j : Nat) (m : Bytes) (h : 4 * (j + k) ≤ m.length) :
    zeroTo k j m = .ok (m.take (4 * j) ++ List.replicate (4 * k) 0 ++ m.drop (4 * (j + k))) := by
  induction k generalizing j m with
  | zero => simp [zeroTo]
  | succ k ih =>
    unfold zeroTo
    rw [setWord_ok _ (by omega)]
    dsimp only [Out.bind]
    have hst : st32 0 = List.replicate 4 0 := by decide
    rw [hst]
    have hl1 : (m.take (4 * j)).length = 4 * j := by rw [List.length_take]; omega
    have hl : (m.take (4 * j) ++ List.replicate 4 (0 : UInt8)).length = 4 * (j + 1) := by rw [List.length_append, hl1, List.length_replicate]; omega
    rw [ih (j + 1) _ (by simp only [List.length_append, hl1, List.length_replicate, List.length_drop]; omega)]
    rw [← hl, List.take_left]
    rw [List.drop_append, hl, List.drop_of_length_le (by rw [hl]; omega), List.nil_append, List.drop_drop]
    congr 2
    · rw [List.append_assoc, List.replicate_append_replicate]
      congr 2; omega
    · congr 1; omega

theorem leBytes_add (a b n : Nat) : leBytes (a + b) n = leBytes a n ++ leBytes b (n / 256 ^ a) := by
  induction a generalizing n with
  | zero => simp [leBytes]
  | succ a ih =>
    rw [show a + 1 + b = (a + b) + 1 by omega, leBytes, leBytes, ih, List.cons_append, Nat.div_div_eq_div_mul, Nat.pow_succ, Nat.mul_comm 256]

theorem leBytes_mod (k n : Nat) : leBytes k (n % 256 ^ k) = leBytes k n := by
  apply leNat_inj (by simp)
  rw [leNat_leBytes, leNat_leBytes, Nat.mod_mod]

theorem beBytes_mod (k n : Nat) : beBytes k (n % 256 ^ k) = beBytes k n := by rw [beBytes, leBytes_mod, beBytes]

theorem beBytes_congr {k a b : Nat} (h : a % 256 ^ k = b % 256 ^ k) : beBytes k a = beBytes k b := by
  rw [← beBytes_mod k a, h, beBytes_mod k b]

theorem lenWords (L : Nat) : st32 (bswap (UInt32.ofNat (L % 2 ^ 64 / 2 ^ 29))) ++ st32 (bswap (UInt32.ofNat (L % 2 ^ 64 * 8))) = beBytes 8 (8 * L) := by
  rw [st32_bswap, st32_bswap, UInt32.toNat_ofNat', UInt32.toNat_ofNat']
  have e1 : beBytes 4 (L % 2 ^ 64 / 2 ^ 29 % 2 ^ 32) = beBytes 4 (8 * L / 256 ^ 4) := beBytes_congr (by omega)
  have e2 : beBytes 4 (L % 2 ^ 64 * 8 % 2 ^ 32) = beBytes 4 (8 * L) := beBytes_congr (by omega)
  rw [e1, e2]
  have h3 : leBytes (4 + 4) (8 * L) = leBytes 4 (8 * L) ++ leBytes 4 (8 * L / 256 ^ 4) := leBytes_add 4 4 _
  show _ = (leBytes (4 + 4) (8 * L)).reverse
  rw [h3, List.reverse_append]
  rfl

theorem output_eq (al : Bool) (v : Spec.Sha256.Vars) : output al (toL v) = (toL v).flatMap fun w => beBytes 4 w.toNat := by
  unfold output
  cases al with
  | true =>
    rw [if_pos rfl]
    congr 1
    funext w
    exact st32_bswap w
  | false =>
    rw [if_neg (by decide)]
    have : ∀ w : UInt32, beBytes 4 w.toNat = (st32 w).reverse := fun w => rfl
    simp only [this]
    obtain ⟨a, b, c, d, e, f, g, h⟩ := v
    obtain ⟨a0, a1, a2, a3, rfl⟩ := exists_bv32 a
    obtain ⟨b0, b1, b2, b3, rfl⟩ := exists_bv32 b
    obtain ⟨c0, c1, c2, c3, rfl⟩ := exists_bv32 c
    obtain ⟨d0, d1, d2, d3, rfl⟩ := exists_bv32 d
    obtain ⟨e0, e1, e2, e3, rfl⟩ := exists_bv32 e
    obtain ⟨f0, f1, f2, f3, rfl⟩ := exists_bv32 f
    obtain ⟨g0, g1, g2, g3, rfl⟩ := exists_bv32 g
    obtain ⟨h0, h1, h2, h3, rfl⟩ := exists_bv32 h
    have hr : List.range 32 = [0, 1, 2, 3, 4, 5, 6, 7, 8, 9, 10, 11, 12, 13, 14, 15, 16, 17, 18, 19, 20, 21, 22, 23, 24, 25, 26, 27, 28, 29, 30, 31] := by
      decide
    simp [toL, st32_bv32, hr]

theorem split_foldl {σ : Type} (f : σ → Bytes → σ) (n : Nat) (m : Bytes) (s : σ) : (Spec.Sha256.split n m).foldl f s = chunks 64 f n m s := by
  induction n generalizing m s with
  | zero => rfl
  | succ n ih => rw [Spec.Sha256.split, List.foldl_cons, ih, chunks]

theorem iv_eq : iv = toL Spec.Sha256.start := by decide +kernel

attribute [local irreducible] processBlock beBytes setWord bswap

theorem lenTail (m z J : Bytes) (u v : UInt32) (hm : m.length = 64) (hz : z.length = 56) (e : m = z ++ J) :
    ((setWord m 14 u).bind fun m => setWord m 15 v) = .ok (z ++ (st32 u ++ st32 v)) := by
  have ht : m.take (4 * 14) = z := by rw [e]; exact List.take_left' (by omega)
  have hzl : (z ++ st32 u).length = 4 * 15 := by rw [List.length_append, hz, st32_length]
  have hJ : (m.drop (4 * 14 + 4)).length = 4 := by rw [List.length_drop]; omega
  rw [setWord_ok _ (by omega)]
  dsimp only [Out.bind]
  rw [ht, setWord_ok _ (by rw [List.length_append, hzl, hJ])]
  rw [List.take_left' hzl, List.drop_of_length_le (by rw [List.length_append, hzl, hJ]), List.append_nil, List.append_assoc]

/-- The last one or two blocks. -/
theorem lastBlocks_spec (c : Ctx) (idx L : Nat) (hi : idx ≤ 16) (P J : Bytes) (hm : c.message = P ++ J) (hP : P.length = 4 * idx) (hs : c.message.length = 64)
    (hl : c.length = L % 2 ^ 64) :
    ∃ c', lastBlocks c idx = .ok c' ∧ c'.hash =
      if idx > 14 then processBlock (processBlock c.hash (P ++ List.replicate (64 - 4 * idx) 0)) (List.replicate 56 0 ++ beBytes 8 (8 * L))
      else processBlock c.hash (P ++ List.replicate (56 - 4 * idx) 0 ++ beBytes 8 (8 * L)) := by
  -- writing the two words of the length
  have tail : ∀ (m z : Bytes), m.length = 64 → z.length = 56 → ∀ J', m = z ++ J' →
      ((setWord m 14 (bswap (UInt32.ofNat (c.length / 2 ^ 29)))).bind fun m => setWord m 15 (bswap (UInt32.ofNat (c.length * 8)))) = .ok (z ++ beBytes 8 (8 * L)) := by
    intro m z hm hz J' e
    have := lenTail m z J' (bswap (UInt32.ofNat (c.length / 2 ^ 29))) (bswap (UInt32.ofNat (c.length * 8))) hm hz e
    rw [hl] at this ⊢
    rw [lenWords] at this
    exact this
  have hPt : c.message.take (4 * idx) = P := by rw [hm, ← hP, List.take_left]
  unfold lastBlocks
  by_cases h : idx > 14
  · rw [if_pos h, if_pos h, zeroTo_ok _ _ _ (by omega)]
    dsimp only [Out.bind]
    have e1 : c.message.take (4 * idx) ++ List.replicate (4 * (16 - idx)) 0 ++ c.message.drop (4 * (idx + (16 - idx))) = P ++ List.replicate (64 - 4 * idx) 0 := by
      rw [hPt, List.drop_of_length_le (l := c.message) (by omega), List.append_nil]
      congr 2; omega
    rw [e1]
    have hl1 : (P ++ List.replicate (64 - 4 * idx) (0 : UInt8)).length = 64 := by rw [List.length_append, List.length_replicate]; omega
    rw [zeroTo_ok _ _ _ (by omega)]
    dsimp only [Out.bind]
    have t := tail ((P ++ List.replicate (64 - 4 * idx) (0 : UInt8)).take (4 * 0) ++ List.replicate (4 * (14 - 0)) 0 ++ (P ++ List.replicate (64 - 4 * idx) (0 : UInt8)).drop (4 * (0 + (14 - 0))))
      (List.replicate 56 0) (by simp only [List.length_append, List.length_take, List.length_drop, List.length_replicate] at hl1 ⊢; omega) (by simp) _ (by simp; rfl)
    revert t
    generalize (setWord _ 14 _ : Out Unit Bytes) = o
    cases o with
    | ok a =>
      intro t
      dsimp only [Out.bind] at t ⊢
      rw [t]
      exact ⟨_, rfl, rfl⟩
    | err e => intro t; cases t
    | ub => intro t; cases t
  · rw [if_neg h, if_neg h]
    dsimp only [Out.bind]
    rw [zeroTo_ok _ _ _ (by omega)]
    dsimp only [Out.bind]
    have t := tail (c.message.take (4 * idx) ++ List.replicate (4 * (14 - idx)) 0 ++ c.message.drop (4 * (idx + (14 - idx))))
      (P ++ List.replicate (56 - 4 * idx) 0) (by simp only [List.length_append, List.length_take, List.length_drop, List.length_replicate]; omega)
      (by rw [List.length_append, List.length_replicate]; omega) _ (by rw [hPt, show 4 * (14 - idx) = 56 - 4 * idx by omega])
    revert t
    generalize (setWord _ 14 _ : Out Unit Bytes) = o
    cases o with
    | ok a =>
      intro t
      dsimp only [Out.bind] at t ⊢
      rw [t]
      exact ⟨_, rfl, rfl⟩
    | err e => intro t; cases t
    | ub => intro t; cases t

theorem final_spec (al : Bool) (c : Ctx) (M : Bytes) (h : Inv M c) : final al c = .ok (Spec.Sha256.sha256 M) := by
  obtain ⟨hs, hl, hh, hr⟩ := h
  have hw : c.length % 64 / 4 = M.length % 64 / 4 := by rw [hl]; omega
  have hk : c.length % 4 = M.length % 4 := by rw [hl]; omega
  have hrl : (M.drop (64 * (M.length / 64))).length = M.length % 64 := by rw [List.length_drop]; omega
  unfold final
  dsimp only
  rw [hw, hk, getWord_ok (by omega)]
  dsimp only [Out.bind]
  rw [setWord_ok _ (by omega)]
  dsimp only [Out.bind]
  have ht : (c.message.take (4 * (M.length % 64 / 4))).length = 4 * (M.length % 64 / 4) := by rw [List.length_take]; omega
  have h64 : ∀ w, (c.message.take (4 * (M.length % 64 / 4)) ++ st32 w ++ c.message.drop (4 * (M.length % 64 / 4) + 4)).length = 64 := by
    intro w; simp only [List.length_append, ht, st32_length, List.length_drop]; omega
  rw [getWord_ok (by rw [h64]; omega)]
  dsimp only [Out.bind]
  rw [setWord_ok _ (by rw [h64]; omega)]
  dsimp only [Out.bind]
  obtain ⟨a, b, x, d, r, hd⟩ := four (m := c.message.drop (4 * (M.length % 64 / 4))) (by rw [List.length_drop]; omega)
  have e1 : ∀ w, (c.message.take (4 * (M.length % 64 / 4)) ++ st32 w ++ c.message.drop (4 * (M.length % 64 / 4) + 4)).drop (4 * (M.length % 64 / 4))
      = st32 w ++ c.message.drop (4 * (M.length % 64 / 4) + 4) := by
    intro w; rw [List.append_assoc, List.drop_append, ht, List.drop_of_length_le (by omega)]; simp
  have e2 : ∀ w, (c.message.take (4 * (M.length % 64 / 4)) ++ st32 w ++ c.message.drop (4 * (M.length % 64 / 4) + 4)).take (4 * (M.length % 64 / 4))
      = c.message.take (4 * (M.length % 64 / 4)) := by
    intro w; rw [List.append_assoc, List.take_append, ht, List.take_of_length_le (by omega)]; simp
  have e3 : ∀ w, (c.message.take (4 * (M.length % 64 / 4)) ++ st32 w ++ c.message.drop (4 * (M.length % 64 / 4) + 4)).drop (4 * (M.length % 64 / 4) + 4)
      = c.message.drop (4 * (M.length % 64 / 4) + 4) := by
    intro w; rw [List.drop_append, List.drop_of_length_le (by simp only [List.length_append, ht, st32_length]; omega)]
    simp only [List.length_append, ht, st32_length]; simp
  rw [e1, e2, e3, ld32_st32, hd, ld32_four, endWord a b x d (M.length % 4) (by omega)]
  -- the message with its end
  have hP : c.message.take (4 * (M.length % 64 / 4)) ++ ([a, b, x, d].take (M.length % 4) ++ [0x80] ++ List.replicate (3 - M.length % 4) 0)
      = M.drop (64 * (M.length / 64)) ++ [0x80] ++ List.replicate (3 - M.length % 4) 0 := by
    rw [← List.append_assoc, ← List.append_assoc, ← hr]
    congr 2
    have : [a, b, x, d].take (M.length % 4) = (c.message.drop (4 * (M.length % 64 / 4))).take (M.length % 4) := by
      rw [hd]
      rw [show a :: b :: x :: d :: r = [a, b, x, d] ++ r from rfl, List.take_append_of_le_length (by simp; omega)]
    rw [this, ← List.take_add]
    congr 1; omega
  rw [hP]
  have hPl : (M.drop (64 * (M.length / 64)) ++ [0x80] ++ List.replicate (3 - M.length % 4) (0 : UInt8)).length = 4 * (M.length % 64 / 4 + 1) := by
    simp only [List.length_append, hrl, List.length_cons, List.length_nil, List.length_replicate]; omega
  obtain ⟨c', e, hc'⟩ := lastBlocks_spec { c with message := M.drop (64 * (M.length / 64)) ++ [0x80] ++ List.replicate (3 - M.length % 4) 0 ++ c.message.drop (4 * (M.length % 64 / 4) + 4) }
    (M.length % 64 / 4 + 1) M.length (by omega) _ _ rfl hPl (by rw [List.length_append, hPl, List.length_drop]; omega) hl
  rw [e]
  show Out.ok (output al c'.hash) = _
  congr 1
  -- the padded message
  have hMs : M = M.take (64 * (M.length / 64)) ++ M.drop (64 * (M.length / 64)) := (List.take_append_drop _ _).symm
  have hTl : (M.take (64 * (M.length / 64))).length = M.length / 64 * 64 := by rw [List.length_take]; omega
  have hT : chunks 64 processBlock (M.length / 64) (M.take (64 * (M.length / 64))) iv = c.hash := by
    rw [hh, ← chunks_append 64 processBlock (M.length / 64) (M.take (64 * (M.length / 64))) (M.drop (64 * (M.length / 64))) iv (by omega), List.take_append_drop]
  have key : c'.hash = chunks 64 processBlock ((Spec.Sha256.pad M).length / 64) (Spec.Sha256.pad M) iv := by
    rw [hc']
    by_cases h14 : M.length % 64 / 4 + 1 > 14
    · rw [if_pos h14]
      have hpad : Spec.Sha256.pad M = (M.take (64 * (M.length / 64)) ++ (M.drop (64 * (M.length / 64)) ++ [0x80] ++ List.replicate (3 - M.length % 4) 0 ++ List.replicate (64 - 4 * (M.length % 64 / 4 + 1)) 0))
          ++ (List.replicate 56 0 ++ beBytes 8 (8 * M.length)) := by
        unfold Spec.Sha256.pad
        rw [← List.append_assoc, ← List.append_assoc, ← List.append_assoc, ← List.append_assoc, List.take_append_drop]
        congr 1
        rw [List.append_assoc _ (List.replicate _ _) (List.replicate _ _), List.replicate_append_replicate, List.append_assoc _ (List.replicate _ _) (List.replicate _ _),
          List.replicate_append_replicate]
        congr 2; omega
      have hb1 : (M.drop (64 * (M.length / 64)) ++ [0x80] ++ List.replicate (3 - M.length % 4) 0 ++ List.replicate (64 - 4 * (M.length % 64 / 4 + 1)) (0 : UInt8)).length = 64 := by
        rw [List.length_append, hPl, List.length_replicate]; omega
      have hb2 : (List.replicate 56 (0 : UInt8) ++ beBytes 8 (8 * M.length)).length = 64 := by simp
      have hpl : (Spec.Sha256.pad M).length / 64 = M.length / 64 + 1 + 1 := by
        rw [hpad, List.length_append, List.length_append, hTl, hb1, hb2]; omega
      rw [hpl, hpad, chunks_snoc 64 _ _ _ _ iv (by rw [List.length_append, hTl, hb1]; omega) hb2, chunks_snoc 64 _ _ _ _ iv hTl hb1, hT]
    · rw [if_neg h14]
      have hpad : Spec.Sha256.pad M = M.take (64 * (M.length / 64)) ++ (M.drop (64 * (M.length / 64)) ++ [0x80] ++ List.replicate (3 - M.length % 4) 0 ++ List.replicate (56 - 4 * (M.length % 64 / 4 + 1)) 0
          ++ beBytes 8 (8 * M.length)) := by
        unfold Spec.Sha256.pad
        rw [← List.append_assoc, ← List.append_assoc, ← List.append_assoc, ← List.append_assoc, List.take_append_drop]
        congr 1
        rw [List.append_assoc _ (List.replicate _ _) (List.replicate _ _), List.replicate_append_replicate]
        congr 2; omega
      have hb1 : (M.drop (64 * (M.length / 64)) ++ [0x80] ++ List.replicate (3 - M.length % 4) 0 ++ List.replicate (56 - 4 * (M.length % 64 / 4 + 1)) (0 : UInt8)
          ++ beBytes 8 (8 * M.length)).length = 64 := by
        rw [List.length_append, List.length_append, hPl, List.length_replicate, beBytes_length]; omega
      have hpl : (Spec.Sha256.pad M).length / 64 = M.length / 64 + 1 := by
        rw [hpad, List.length_append, hTl, hb1]; omega
      rw [hpl, hpad, chunks_snoc 64 _ _ _ _ iv hTl hb1, hT]
  have hmul : (Spec.Sha256.pad M).length / 64 * 64 ≤ (Spec.Sha256.pad M).length := Nat.div_mul_le_self _ _
  rw [key, iv_eq, ← chunks_map 64 Spec.Sha256.compress processBlock toL (fun s b hb => (processBlock_eq s b hb).symm) _ _ _ hmul, output_eq, ← split_foldl]
  rfl

end Verif.Sha256
