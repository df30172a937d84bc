import Verif.Model.ChaCha
import Verif.Spec.ChaCha
import Verif.Lemmas.Words
namespace Verif.ChaCha
open Verif.Words

theorem rotl_eq (x n : UInt32) (h0 : 0 < n.toNat) (h : n.toNat < 32) : rotl x n = Spec.ChaCha.rotl x n.toNat := by
  have hs : (32 - n).toNat = 32 - n.toNat := by
    rw [UInt32.toNat_sub_of_le]; rfl
    show n.toNat ≤ 32; omega
  apply UInt32.eq_of_toBitVec_eq
  unfold rotl Spec.ChaCha.rotl
  rw [UInt32.toBitVec_or, UInt32.toBitVec_shiftRight, UInt32.toBitVec_shiftLeft]
  apply BitVec.eq_of_getLsbD_eq
  intro i hi
  have e1 : (n.toBitVec % 32).toNat = n.toNat := by
    rw [BitVec.toNat_umod]; show n.toNat % 32 = _; omega
  have e2 : ((32 - n).toBitVec % 32).toNat = 32 - n.toNat := by
    rw [BitVec.toNat_umod]; show (32 - n).toNat % 32 = _; omega
  rw [BitVec.getLsbD_or, BitVec.ushiftRight_eq', BitVec.shiftLeft_eq', e1, e2, BitVec.getLsbD_ushiftRight, BitVec.getLsbD_shiftLeft,
    BitVec.getLsbD_rotateLeft]
  rw [Nat.mod_eq_of_lt h]
  by_cases hc : i < n.toNat
  · simp [hc]
  · simp [hc, hi]
    intro hh
    rw [BitVec.getLsbD_of_ge _ _ (by omega)] at hh
    cases hh

theorem getD_set (l : List UInt32) (i j : Nat) (w : UInt32) (h : i < l.length) :
    (l.set i w).getD j 0 = if i = j then w else l.getD j 0 := by
  rw [List.getD_eq_getElem?_getD, List.getElem?_set]
  by_cases hij : i = j
  · subst hij; simp [h]
  · simp [hij, List.getD_eq_getElem?_getD]

theorem ext_getD {a b : List UInt32} (hl : a.length = b.length) (h : ∀ i, a.getD i 0 = b.getD i 0) : a = b := by
  apply List.ext_getElem hl
  intro i h1 h2
  have := h i
  simpa [List.getD_eq_getElem?_getD, h1, h2] using this

@[simp] theorem line_length (x : List UInt32) (a b d : Nat) (n : UInt32) : (line x a b d n).length = x.length := by simp [line]

theorem line_getD (x : List UInt32) (a b d : Nat) (n : UInt32) (j : Nat) (ha : a < x.length) (hd : d < x.length) (had : a ≠ d) :
    (line x a b d n).getD j 0 = if j = d then rotl (x.getD d 0 ^^^ (x.getD a 0 + x.getD b 0)) n else if j = a then x.getD a 0 + x.getD b 0 else x.getD j 0 := by
  unfold line
  rw [getD_set _ _ _ _ (by simpa using hd), getD_set _ _ _ _ ha, getD_set _ _ _ _ ha, getD_set _ _ _ _ ha]
  grind

theorem quarter_eq (x : List UInt32) (a b c d : Nat) (hx : x.length = 16) (h : a < 16 ∧ b < 16 ∧ c < 16 ∧ d < 16)
    (hn : a ≠ b ∧ a ≠ c ∧ a ≠ d ∧ b ≠ c ∧ b ≠ d ∧ c ≠ d) : quarter x a b c d = Spec.ChaCha.quarterAt x a b c d := by
  obtain ⟨h1, h2, h3, h4⟩ := h
  obtain ⟨n1, n2, n3, n4, n5, n6⟩ := hn
  have r16 : ∀ x, rotl x 16 = Spec.ChaCha.rotl x 16 := fun x => rotl_eq x 16 (by decide) (by decide)
  have r12 : ∀ x, rotl x 12 = Spec.ChaCha.rotl x 12 := fun x => rotl_eq x 12 (by decide) (by decide)
  have r8 : ∀ x, rotl x 8 = Spec.ChaCha.rotl x 8 := fun x => rotl_eq x 8 (by decide) (by decide)
  have r7 : ∀ x, rotl x 7 = Spec.ChaCha.rotl x 7 := fun x => rotl_eq x 7 (by decide) (by decide)
  unfold quarter Spec.ChaCha.quarterAt Spec.ChaCha.quarter
  dsimp only
  generalize eA : x.getD a 0 = A
  generalize eB : x.getD b 0 = B
  generalize eC : x.getD c 0 = C
  generalize eD : x.getD d 0 = D
  have g1 := fun j => line_getD x a b d 16 j (by omega) (by omega) n3
  generalize hx1 : line x a b d 16 = x1 at g1 ⊢
  have l1 : x1.length = 16 := by rw [← hx1, line_length, hx]
  have g2 := fun j => line_getD x1 c d b 12 j (by omega) (by omega) n4.symm
  generalize hx2 : line x1 c d b 12 = x2 at g2 ⊢
  have l2 : x2.length = 16 := by rw [← hx2, line_length, l1]
  have g3 := fun j => line_getD x2 a b d 8 j (by omega) (by omega) n3
  generalize hx3 : line x2 a b d 8 = x3 at g3 ⊢
  have l3 : x3.length = 16 := by rw [← hx3, line_length, l2]
  have g4 := fun j => line_getD x3 c d b 7 j (by omega) (by omega) n4.symm
  generalize hx4 : line x3 c d b 7 = x4 at g4 ⊢
  have l4 : x4.length = 16 := by rw [← hx4, line_length, l3]
  simp only [r16, r12, r8, r7, eA, eB, eC, eD] at g1 g2 g3 g4
  have a1 := g1 a
  have b1 := g1 b
  have c1 := g1 c
  have d1 := g1 d
  simp only [if_true, n3, if_false, n1.symm, n5, n2.symm, n6, n3.symm, n4.symm, eA, eB, eC, eD] at a1 b1 c1 d1
  have a2 := g2 a
  have b2 := g2 b
  have c2 := g2 c
  have d2 := g2 d
  simp only [if_true, if_false, n1, n2, n4, n4.symm, n5.symm, n6.symm, a1, b1, c1, d1] at a2 b2 c2 d2
  have a3 := g3 a
  have b3 := g3 b
  have c3 := g3 c
  have d3 := g3 d
  simp only [if_true, n3, if_false, n1.symm, n5, n2.symm, n6, n3.symm, a2, b2, c2, d2] at a3 b3 c3 d3
  have a4 := g4 a
  have b4 := g4 b
  have c4 := g4 c
  have d4 := g4 d
  simp only [if_true, if_false, n1, n2, n4, n4.symm, n5.symm, n6.symm, a3, b3, c3, d3] at a4 b4 c4 d4
  apply ext_getD
  · simp [l4, hx]
  intro j
  rw [getD_set _ _ _ _ (by simp [hx, h4]), getD_set _ _ _ _ (by simp [hx, h3]), getD_set _ _ _ _ (by simp [hx, h2]), getD_set _ _ _ _ (by simp [hx, h1])]
  by_cases e4 : d = j
  · subst e4; rw [if_pos rfl, d4]
  by_cases e3 : c = j
  · subst e3; rw [if_neg e4, if_pos rfl, c4]
  by_cases e2 : b = j
  · subst e2; rw [if_neg e4, if_neg e3, if_pos rfl, b4]
  by_cases e1 : a = j
  · subst e1; rw [if_neg e4, if_neg e3, if_neg e2, if_pos rfl, a4]
  rw [if_neg e4, if_neg e3, if_neg e2, if_neg e1, g4, if_neg (Ne.symm e2), if_neg (Ne.symm e3), g3, if_neg (Ne.symm e4), if_neg (Ne.symm e1),
    g2, if_neg (Ne.symm e2), if_neg (Ne.symm e3), g1, if_neg (Ne.symm e4), if_neg (Ne.symm e1)]

@[simp] theorem quarterAt_length (x : List UInt32) (a b c d : Nat) : (Spec.ChaCha.quarterAt x a b c d).length = x.length := by
  simp [Spec.ChaCha.quarterAt]

theorem doubleRound_eq (x : List UInt32) (hx : x.length = 16) : doubleRound x = Spec.ChaCha.innerBlock x := by
  unfold doubleRound Spec.ChaCha.innerBlock
  simp only [List.foldl_cons, List.foldl_nil, Spec.ChaCha.column, Spec.ChaCha.diagonal, Nat.reduceAdd, Nat.reduceMod]
  rw [quarter_eq x 0 4 8 12 hx (by decide) (by decide)]
  rw [quarter_eq _ 1 5 9 13 (by simpa using hx) (by decide) (by decide)]
  rw [quarter_eq _ 2 6 10 14 (by simpa using hx) (by decide) (by decide)]
  rw [quarter_eq _ 3 7 11 15 (by simpa using hx) (by decide) (by decide)]
  rw [quarter_eq _ 0 5 10 15 (by simpa using hx) (by decide) (by decide)]
  rw [quarter_eq _ 1 6 11 12 (by simpa using hx) (by decide) (by decide)]
  rw [quarter_eq _ 2 7 8 13 (by simpa using hx) (by decide) (by decide)]
  rw [quarter_eq _ 3 4 9 14 (by simpa using hx) (by decide) (by decide)]

theorem innerBlock_length (x : List UInt32) : (Spec.ChaCha.innerBlock x).length = x.length := by
  simp [Spec.ChaCha.innerBlock, Spec.ChaCha.column, Spec.ChaCha.diagonal]

theorem times_length (n : Nat) (x : List UInt32) : (Spec.ChaCha.times Spec.ChaCha.innerBlock n x).length = x.length := by
  induction n with
  | zero => rfl
  | succ n ih => rw [Spec.ChaCha.times, innerBlock_length, ih]

theorem times_comm (f : List UInt32 → List UInt32) (n : Nat) (x : List UInt32) : Spec.ChaCha.times f n (f x) = Spec.ChaCha.times f (n + 1) x := by
  induction n with
  | zero => rfl
  | succ n ih => rw [Spec.ChaCha.times, ih]; rfl

theorem rounds_eq (n : Nat) (x : List UInt32) (hx : x.length = 16) : rounds n x = Spec.ChaCha.times Spec.ChaCha.innerBlock n x := by
  induction n generalizing x with
  | zero => rfl
  | succ n ih =>
    rw [rounds, doubleRound_eq x hx, ih _ (by rw [innerBlock_length, hx]), times_comm]

/-! ## The state -/

theorem words_length (n : Nat) (b : Bytes) : (Spec.ChaCha.words n b).length = n := by simp [Spec.ChaCha.words]

theorem state_length (key : Bytes) (n : Nat) (nonce : Bytes) : (Spec.ChaCha.state key n nonce).length = 16 := by
  simp [Spec.ChaCha.state, words_length]

theorem block_length (key : Bytes) (n : Nat) (nonce : Bytes) : (Spec.ChaCha.block key n nonce).length = 64 := by
  unfold Spec.ChaCha.block
  rw [List.length_flatMap]
  simp only [leBytes_length, List.map_const', List.length_zipWith, times_length, state_length]
  decide

theorem reads_words (p : Bytes) (l : List Nat) (h : ∀ i ∈ l, i + 4 ≤ p.length) :
    reads p l = .ok (l.map fun i => UInt32.ofNat (leNat ((p.drop i).take 4))) := by
  induction l with
  | nil => rfl
  | cons i l ih =>
    unfold reads
    rw [readle, if_pos (h i (by simp)), ih (fun j hj => h j (by simp [hj]))]
    rfl

theorem ofNat_mod (n : Nat) : UInt32.ofNat (n % 2 ^ 32) = UInt32.ofNat n := by
  apply UInt32.toNat_inj.1; simp

theorem setup_eq (c : Ctx) (key nonce : Bytes) (counter : UInt64) (hk : key.length = 32) (hn : nonce.length = 12) :
    ∃ c', setup c key 32 nonce 12 counter = .ok c' ∧ c'.schedule = Spec.ChaCha.state key counter.toNat nonce ∧ c'.available = 0 ∧
      c'.nonceSize = 12 ∧ c'.keystream = c.keystream := by
  unfold setup keysetup
  dsimp only
  have hconst : (if 32 = 32 then "expand 32-byte k" else "expand 16-byte k").toUTF8.toList =
      [101, 120, 112, 97, 110, 100, 32, 51, 50, 45, 98, 121, 116, 101, 32, 107] := by decide +kernel
  rw [hconst, reads_words _ _ (by decide), reads_words key _ (by simp [hk])]
  dsimp only [Out.bind]
  unfold ivsetup
  rw [if_neg (by decide), reads_words nonce _ (by simp [hn])]
  refine ⟨_, rfl, ?_, rfl, rfl, rfl⟩
  unfold counterSet
  dsimp only
  rw [if_neg (by decide)]
  have hw8 : Spec.ChaCha.words 8 key = [0, 4, 8, 12, 16, 20, 24, 28].map fun i => UInt32.ofNat (leNat ((key.drop i).take 4)) := rfl
  have hw3 : Spec.ChaCha.words 3 nonce = [0, 4, 8].map fun i => UInt32.ofNat (leNat ((nonce.drop i).take 4)) := rfl
  have hc4 : ([0, 4, 8, 12].map fun i => UInt32.ofNat (leNat ((([101, 120, 112, 97, 110, 100, 32, 51, 50, 45, 98, 121, 116, 101, 32, 107] : Bytes).drop i).take 4))) =
      [0x61707865, 0x3320646e, 0x79622d32, 0x6b206574] := by decide +kernel
  rw [hc4]
  unfold Spec.ChaCha.state
  rw [hw8, hw3]
  simp

theorem state_set (key nonce : Bytes) (n m : Nat) :
    (Spec.ChaCha.state key n nonce).set 12 (UInt32.ofNat m) = Spec.ChaCha.state key m nonce := by
  unfold Spec.ChaCha.state
  have : ([0x61707865, 0x3320646e, 0x79622d32, 0x6b206574] ++ Spec.ChaCha.words 8 key).length = 12 := by simp [words_length]
  rw [List.append_assoc _ [UInt32.ofNat n], List.append_assoc _ [UInt32.ofNat m], List.set_append_right _ _ (by omega), this]
  rfl

theorem state_getD (key nonce : Bytes) (n : Nat) : (Spec.ChaCha.state key n nonce).getD 12 0 = UInt32.ofNat n := by
  unfold Spec.ChaCha.state
  have : ([0x61707865, 0x3320646e, 0x79622d32, 0x6b206574] ++ Spec.ChaCha.words 8 key).length = 12 := by simp [words_length]
  rw [List.getD_eq_getElem?_getD, List.append_assoc _ [UInt32.ofNat n], List.getElem?_append_right (by omega), this]
  rfl

attribute [local irreducible] Spec.ChaCha.state Spec.ChaCha.times rounds

/-- The context with the counter `n`. -/
def At (key nonce : Bytes) (n : Nat) (c : Ctx) : Prop := c.schedule = Spec.ChaCha.state key n nonce ∧ c.nonceSize = 12

theorem block_at {key nonce : Bytes} {n : Nat} {c : Ctx} (h : At key nonce n c) :
    At key nonce (n + 1) (block c) ∧ (block c).keystream = Spec.ChaCha.block key n nonce ∧ (block c).available = c.available := by
  obtain ⟨h1, h2⟩ := h
  refine ⟨⟨?_, h2⟩, ?_, rfl⟩
  · unfold block
    dsimp only
    rw [if_neg (by rw [h2]; rintro ⟨_, hh⟩; cases hh), h1, state_getD]
    have : UInt32.ofNat n + 1 = UInt32.ofNat (n + 1) := by rw [UInt32.ofNat_add]; rfl
    rw [this, state_set]
  · unfold block Spec.ChaCha.block
    dsimp only
    rw [h1, rounds_eq _ _ (state_length _ _ _)]
    generalize Spec.ChaCha.times Spec.ChaCha.innerBlock 10 (Spec.ChaCha.state key n nonce) = z
    congr 1

attribute [local irreducible] Spec.ChaCha.block block

/-- The context at the place `p` of the key stream. -/
structure Place (key nonce : Bytes) (p : Nat) (c : Ctx) : Prop where
  ctr : At key nonce ((p + 63) / 64) c
  avail : c.available = (64 - p % 64) % 64
  ks : c.available ≠ 0 → c.keystream = Spec.ChaCha.block key (p / 64) nonce

theorem crypt_append (key nonce : Bytes) (p : Nat) (a b : Bytes) :
    Spec.ChaCha.crypt key nonce p (a ++ b) = Spec.ChaCha.crypt key nonce p a ++ Spec.ChaCha.crypt key nonce (p + a.length) b := by
  unfold Spec.ChaCha.crypt
  rw [List.mapIdx_append]
  congr 1
  apply List.ext_getElem (by simp)
  intro i h1 h2
  simp only [List.getElem_mapIdx]
  rw [Nat.add_assoc, Nat.add_comm i]

/-- One piece of a block. -/
theorem xor_eq {key nonce : Bytes} {p i n : Nat} {input : Bytes} (hi : i = p % 64) (hn : 0 < n) (hf : i + n ≤ 64) (hin : n ≤ input.length) :
    xor (Spec.ChaCha.block key (p / 64) nonce) i input n = .ok (Spec.ChaCha.crypt key nonce p (input.take n)) := by
  have hm : max n 1 = n := by omega
  unfold xor
  dsimp only
  rw [hm, if_pos ⟨by rw [block_length]; exact hf, hin⟩]
  congr 1
  apply List.ext_getElem
  · simp only [List.length_zipWith, List.length_take, List.length_drop, block_length, Spec.ChaCha.crypt, List.length_mapIdx]; omega
  intro j h1 h2
  have hj : j < n := by
    simp only [List.length_zipWith, List.length_take] at h1; omega
  simp only [List.getElem_zipWith, Spec.ChaCha.crypt, List.getElem_mapIdx, List.getElem_take, List.getElem_drop]
  congr 1
  unfold Spec.ChaCha.keyByte
  rw [show (p + j) / 64 = p / 64 by omega, show (p + j) % 64 = i + j by omega, List.getD_eq_getElem?_getD, List.getElem?_eq_getElem (by rw [block_length]; omega)]
  rfl

theorem encLoop_spec (key nonce : Bytes) (fuel : Nat) (c : Ctx) (p : Nat) (input : Bytes) (hf : input.length < fuel)
    (h : Place key nonce p c) (h0 : input.length = 0 ∨ p % 64 = 0) :
    ∃ c', encLoop fuel c input = .ok (c', Spec.ChaCha.crypt key nonce p input) ∧ Place key nonce (p + input.length) c' := by
  induction fuel generalizing c p input with
  | zero => omega
  | succ fuel ih =>
    unfold encLoop
    by_cases hl : input.length = 0
    · rw [if_pos hl]
      have : input = [] := List.eq_nil_of_length_eq_zero hl
      subst this
      exact ⟨c, rfl, h⟩
    · rw [if_neg hl]
      dsimp only
      have hp : p % 64 = 0 := by omega
      obtain ⟨ha, hk, _⟩ := block_at h.ctr
      rw [show (p + 63) / 64 = p / 64 by omega] at ha hk
      have hx := xor_eq (key := key) (nonce := nonce) (p := p) (i := 0) (n := min input.length 64) (input := input) (by omega) (by omega) (by omega) (by omega)
      rw [← hk] at hx
      rw [hx]
      simp only [Out.bind]
      have hpl : Place key nonce (p + min input.length 64) { block c with available := 64 - min input.length 64 } := by
        refine Place.mk (And.intro ?_ ha.2) ?_ (fun hne => ?_)
        · rw [show (p + min input.length 64 + 63) / 64 = p / 64 + 1 by omega]; exact ha.1
        · show 64 - min input.length 64 = _; omega
        · have : 64 - min input.length 64 ≠ 0 := hne
          rw [show (p + min input.length 64) / 64 = p / 64 by omega]; exact hk
      obtain ⟨c', e, hc'⟩ := ih { block c with available := 64 - min input.length 64 } (p + min input.length 64) (input.drop (min input.length 64))
        (by rw [List.length_drop]; omega) hpl (by rw [List.length_drop]; omega)
      rw [e]
      refine ⟨c', ?_, ?_⟩
      · show Out.ok _ = _
        congr 2
        have ht : (input.take (min input.length 64)).length = min input.length 64 := by rw [List.length_take]; omega
        conv_rhs => rw [← List.take_append_drop (min input.length 64) input]
        rw [crypt_append, ht]
      · rw [List.length_drop, show p + min input.length 64 + (input.length - min input.length 64) = p + input.length by omega] at hc'
        exact hc'

theorem encrypt_spec (key nonce : Bytes) (c : Ctx) (p : Nat) (input : Bytes) (h : Place key nonce p c) :
    ∃ c', encrypt c input = .ok (c', Spec.ChaCha.crypt key nonce p input) ∧ Place key nonce (p + input.length) c' := by
  unfold encrypt
  by_cases hl : input.length = 0
  · rw [if_pos hl]
    have : input = [] := List.eq_nil_of_length_eq_zero hl
    subst this
    exact ⟨c, rfl, h⟩
  rw [if_neg hl]
  by_cases ha : c.available = 0
  · rw [if_neg (by simpa using ha)]
    have := h.avail
    exact encLoop_spec key nonce _ c p input (by omega) h (by omega)
  · rw [if_pos ha]
    dsimp only
    have hav := h.avail
    have hx := xor_eq (key := key) (nonce := nonce) (p := p) (i := 64 - c.available) (n := min input.length c.available) (input := input) (by omega) (by omega) (by omega) (by omega)
    rw [← h.ks ha] at hx
    rw [hx]
    simp only [Out.bind]
    have hpl : Place key nonce (p + min input.length c.available) { c with available := c.available - min input.length c.available } := by
      refine ⟨⟨?_, h.ctr.2⟩, ?_, fun hne => ?_⟩
      · rw [show (p + min input.length c.available + 63) / 64 = (p + 63) / 64 by omega]; exact h.ctr.1
      · show c.available - min input.length c.available = _; omega
      · have : c.available - min input.length c.available ≠ 0 := hne
        rw [show (p + min input.length c.available) / 64 = p / 64 by omega]; exact h.ks ha
    obtain ⟨c', e, hc'⟩ := encLoop_spec key nonce (input.length + 1) { c with available := c.available - min input.length c.available }
      (p + min input.length c.available) (input.drop (min input.length c.available)) (by rw [List.length_drop]; omega) hpl (by rw [List.length_drop]; omega)
    rw [e]
    refine ⟨c', ?_, ?_⟩
    · show Out.ok _ = _
      congr 2
      have ht : (input.take (min input.length c.available)).length = min input.length c.available := by rw [List.length_take]; omega
      conv_rhs => rw [← List.take_append_drop (min input.length c.available) input]
      rw [crypt_append, ht]
    · rw [List.length_drop, show p + min input.length c.available + (input.length - min input.length c.available) = p + input.length by omega] at hc'
      exact hc'

theorem encrypts_spec (key nonce : Bytes) (l : List Bytes) (c : Ctx) (p : Nat) (h : Place key nonce p c) :
    ∃ c' out, encrypts l c = .ok (c', out) ∧ out.flatten = Spec.ChaCha.crypt key nonce p l.flatten ∧ out.map (·.length) = l.map (·.length) ∧
      Place key nonce (p + l.flatten.length) c' := by
  induction l generalizing c p with
  | nil => exact ⟨c, [], rfl, rfl, rfl, h⟩
  | cons m l ih =>
    obtain ⟨c1, e1, h1⟩ := encrypt_spec key nonce c p m h
    obtain ⟨c2, out, e2, f2, g2, h2⟩ := ih c1 _ h1
    refine ⟨c2, Spec.ChaCha.crypt key nonce p m :: out, ?_, ?_, ?_, ?_⟩
    · unfold encrypts; rw [e1]; dsimp only [Out.bind]; rw [e2]
    · rw [List.flatten_cons, List.flatten_cons, f2, crypt_append]
    · rw [List.map_cons, List.map_cons, g2]; simp [Spec.ChaCha.crypt]
    · rw [List.flatten_cons, List.length_append, ← Nat.add_assoc]; exact h2

theorem crypt_crypt (key nonce : Bytes) (p : Nat) (m : Bytes) : Spec.ChaCha.crypt key nonce p (Spec.ChaCha.crypt key nonce p m) = m := by
  unfold Spec.ChaCha.crypt
  apply List.ext_getElem (by simp)
  intro i h1 h2
  simp only [List.getElem_mapIdx]
  rw [UInt8.xor_assoc, UInt8.xor_self, UInt8.xor_zero]

end Verif.ChaCha
