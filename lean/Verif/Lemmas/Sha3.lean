import Verif.Model.Sha3
import Verif.Spec.Sha3
import Verif.Lemmas.Words
import Verif.Lemmas.Chunks
namespace Verif.Sha3
open Verif.Words Verif.Chunks

theorem rotl_eq (x n : UInt64) (h0 : 0 < n.toNat) (h : n.toNat < 64) : rotl x n = Spec.Sha3.rotl x n.toNat := by
  have hs : (64 - n).toNat = 64 - n.toNat := by
    rw [UInt64.toNat_sub_of_le]; rfl
    show n.toNat ≤ 64; omega
  apply UInt64.eq_of_toBitVec_eq
  unfold rotl Spec.Sha3.rotl
  rw [UInt64.toBitVec_xor, UInt64.toBitVec_shiftRight, UInt64.toBitVec_shiftLeft]
  apply BitVec.eq_of_getLsbD_eq
  intro i hi
  have e1 : (n.toBitVec % 64).toNat = n.toNat := by
    rw [BitVec.toNat_umod]; show n.toNat % 64 = _; omega
  have e2 : ((64 - n).toBitVec % 64).toNat = 64 - n.toNat := by
    rw [BitVec.toNat_umod]; show (64 - n).toNat % 64 = _; omega
  rw [BitVec.getLsbD_xor, BitVec.ushiftRight_eq', BitVec.shiftLeft_eq', e1, e2, BitVec.getLsbD_ushiftRight, BitVec.getLsbD_shiftLeft,
    BitVec.getLsbD_rotateLeft]
  rw [Nat.mod_eq_of_lt h]
  by_cases hc : i < n.toNat
  · simp [hc]
  · simp only [hc, hi, if_false]
    rw [BitVec.getLsbD_of_ge _ (64 - n.toNat + i) (by omega)]
    simp

theorem rotl_1 (x : UInt64) : rotl x 1 = Spec.Sha3.rotl x 1 := rotl_eq x 1 (by decide) (by decide)
theorem rotl_2 (x : UInt64) : rotl x 2 = Spec.Sha3.rotl x 2 := rotl_eq x 2 (by decide) (by decide)
theorem rotl_3 (x : UInt64) : rotl x 3 = Spec.Sha3.rotl x 3 := rotl_eq x 3 (by decide) (by decide)
theorem rotl_6 (x : UInt64) : rotl x 6 = Spec.Sha3.rotl x 6 := rotl_eq x 6 (by decide) (by decide)
theorem rotl_8 (x : UInt64) : rotl x 8 = Spec.Sha3.rotl x 8 := rotl_eq x 8 (by decide) (by decide)
theorem rotl_10 (x : UInt64) : rotl x 10 = Spec.Sha3.rotl x 10 := rotl_eq x 10 (by decide) (by decide)
theorem rotl_14 (x : UInt64) : rotl x 14 = Spec.Sha3.rotl x 14 := rotl_eq x 14 (by decide) (by decide)
theorem rotl_15 (x : UInt64) : rotl x 15 = Spec.Sha3.rotl x 15 := rotl_eq x 15 (by decide) (by decide)
theorem rotl_18 (x : UInt64) : rotl x 18 = Spec.Sha3.rotl x 18 := rotl_eq x 18 (by decide) (by decide)
theorem rotl_20 (x : UInt64) : rotl x 20 = Spec.Sha3.rotl x 20 := rotl_eq x 20 (by decide) (by decide)
theorem rotl_21 (x : UInt64) : rotl x 21 = Spec.Sha3.rotl x 21 := rotl_eq x 21 (by decide) (by decide)
theorem rotl_25 (x : UInt64) : rotl x 25 = Spec.Sha3.rotl x 25 := rotl_eq x 25 (by decide) (by decide)
theorem rotl_27 (x : UInt64) : rotl x 27 = Spec.Sha3.rotl x 27 := rotl_eq x 27 (by decide) (by decide)
theorem rotl_28 (x : UInt64) : rotl x 28 = Spec.Sha3.rotl x 28 := rotl_eq x 28 (by decide) (by decide)
theorem rotl_36 (x : UInt64) : rotl x 36 = Spec.Sha3.rotl x 36 := rotl_eq x 36 (by decide) (by decide)
theorem rotl_39 (x : UInt64) : rotl x 39 = Spec.Sha3.rotl x 39 := rotl_eq x 39 (by decide) (by decide)
theorem rotl_41 (x : UInt64) : rotl x 41 = Spec.Sha3.rotl x 41 := rotl_eq x 41 (by decide) (by decide)
theorem rotl_43 (x : UInt64) : rotl x 43 = Spec.Sha3.rotl x 43 := rotl_eq x 43 (by decide) (by decide)
theorem rotl_44 (x : UInt64) : rotl x 44 = Spec.Sha3.rotl x 44 := rotl_eq x 44 (by decide) (by decide)
theorem rotl_45 (x : UInt64) : rotl x 45 = Spec.Sha3.rotl x 45 := rotl_eq x 45 (by decide) (by decide)
theorem rotl_55 (x : UInt64) : rotl x 55 = Spec.Sha3.rotl x 55 := rotl_eq x 55 (by decide) (by decide)
theorem rotl_56 (x : UInt64) : rotl x 56 = Spec.Sha3.rotl x 56 := rotl_eq x 56 (by decide) (by decide)
theorem rotl_61 (x : UInt64) : rotl x 61 = Spec.Sha3.rotl x 61 := rotl_eq x 61 (by decide) (by decide)
theorem rotl_62 (x : UInt64) : rotl x 62 = Spec.Sha3.rotl x 62 := rotl_eq x 62 (by decide) (by decide)

/-- Lists of 25. -/
theorem lanes {A : List UInt64} (h : A.length = 25) : ∃ a0 a1 a2 a3 a4 a5 a6 a7 a8 a9 a10 a11 a12 a13 a14 a15 a16 a17 a18 a19 a20 a21 a22 a23 a24, A = [a0, a1, a2, a3, a4, a5, a6, a7, a8, a9, a10, a11, a12, a13, a14, a15, a16, a17, a18, a19, a20, a21, a22, a23, a24] := by
  match A, h with
  | [a0, a1, a2, a3, a4, a5, a6, a7, a8, a9, a10, a11, a12, a13, a14, a15, a16, a17, a18, a19, a20, a21, a22, a23, a24], _ => exact ⟨_, _, _, _, _, _, _, _, _, _, _, _, _, _, _, _, _, _, _, _, _, _, _, _, _, rfl⟩

theorem range25 : List.range 25 = [0, 1, 2, 3, 4, 5, 6, 7, 8, 9, 10, 11, 12, 13, 14, 15, 16, 17, 18, 19, 20, 21, 22, 23, 24] := by decide
theorem range24 : List.range 24 = [0, 1, 2, 3, 4, 5, 6, 7, 8, 9, 10, 11, 12, 13, 14, 15, 16, 17, 18, 19, 20, 21, 22, 23] := by decide

theorem theta_eq {A : List UInt64} (h : A.length = 25) : theta A = Spec.Sha3.theta A := by
  obtain ⟨a0, a1, a2, a3, a4, a5, a6, a7, a8, a9, a10, a11, a12, a13, a14, a15, a16, a17, a18, a19, a20, a21, a22, a23, a24, rfl⟩ := lanes h
  have comm : ∀ x y : UInt64, Spec.Sha3.rotl x 1 ^^^ y = y ^^^ Spec.Sha3.rotl x 1 := fun x y => UInt64.xor_comm _ _
  unfold theta xorAt Spec.Sha3.theta Spec.Sha3.state Spec.Sha3.lane
  rw [range25]
  simp only [List.foldl_cons, List.foldl_nil, List.set_cons_succ, List.set_cons_zero, List.getD_cons_succ, List.getD_cons_zero, List.map_cons, List.map_nil,
    Nat.reduceMod, Nat.reduceMul, Nat.reduceAdd, Nat.reduceDiv, Nat.zero_add, Nat.add_zero, Nat.mul_zero, Nat.zero_mod, Nat.zero_div, rotl_1, comm]

/-- The places and distances of `rho`. -/
theorem path_eq : (List.range 24).map (fun t => ((Spec.Sha3.path t).1 + 5 * (Spec.Sha3.path t).2,
    (Spec.Sha3.path t).1 % 5 + 5 * ((Spec.Sha3.path t).2 % 5), (t + 1) * (t + 2) / 2 % 64)) =
    [(1, 1, 1), (10, 10, 3), (7, 7, 6), (11, 11, 10), (17, 17, 15), (18, 18, 21), (3, 3, 28), (5, 5, 36), (16, 16, 45), (8, 8, 55), (21, 21, 2), (24, 24, 14), (4, 4, 27), (15, 15, 41), (23, 23, 56), (19, 19, 8), (13, 13, 25), (12, 12, 43), (2, 2, 62), (20, 20, 18), (14, 14, 39), (22, 22, 61), (9, 9, 20), (6, 6, 44)] := by
  decide +kernel

theorem rho_spec (A : List UInt64) : Spec.Sha3.rho A =
    ((List.range 24).map (fun t => ((Spec.Sha3.path t).1 + 5 * (Spec.Sha3.path t).2,
      (Spec.Sha3.path t).1 % 5 + 5 * ((Spec.Sha3.path t).2 % 5), (t + 1) * (t + 2) / 2 % 64))).foldl
      (fun A' p => A'.set p.1 (Spec.Sha3.rotl (A.getD p.2.1 0) p.2.2)) A := by
  rw [List.foldl_map]
  rfl

theorem rho_eq {A : List UInt64} (h : A.length = 25) : rho A = Spec.Sha3.rho A := by
  obtain ⟨a0, a1, a2, a3, a4, a5, a6, a7, a8, a9, a10, a11, a12, a13, a14, a15, a16, a17, a18, a19, a20, a21, a22, a23, a24, rfl⟩ := lanes h
  rw [rho_spec, path_eq]
  unfold rho rotations
  simp only [List.foldl_cons, List.foldl_nil, List.set_cons_succ, List.set_cons_zero, List.getD_cons_succ, List.getD_cons_zero, List.map_cons, List.map_nil,
    Nat.reduceMod, Nat.reduceMul, Nat.reduceAdd, Nat.reduceDiv, Nat.zero_add, Nat.add_zero, Nat.mul_zero, Nat.zero_mod, Nat.zero_div,
    rotl_1, rotl_2, rotl_3, rotl_6, rotl_8, rotl_10, rotl_14, rotl_15, rotl_18, rotl_20, rotl_21, rotl_25, rotl_27, rotl_28, rotl_36, rotl_39, rotl_41, rotl_43, rotl_44, rotl_45, rotl_55, rotl_56, rotl_61, rotl_62]

theorem pi_eq {A : List UInt64} (h : A.length = 25) : pi A = Spec.Sha3.pi A := by
  obtain ⟨a0, a1, a2, a3, a4, a5, a6, a7, a8, a9, a10, a11, a12, a13, a14, a15, a16, a17, a18, a19, a20, a21, a22, a23, a24, rfl⟩ := lanes h
  unfold pi moves Spec.Sha3.pi Spec.Sha3.state Spec.Sha3.lane
  rw [range25]
  simp only [List.foldl_cons, List.foldl_nil, List.set_cons_succ, List.set_cons_zero, List.getD_cons_succ, List.getD_cons_zero, List.map_cons, List.map_nil,
    Nat.reduceMod, Nat.reduceMul, Nat.reduceAdd, Nat.reduceDiv, Nat.zero_add, Nat.add_zero, Nat.mul_zero, Nat.zero_mod, Nat.zero_div]

theorem chi_eq {A : List UInt64} (h : A.length = 25) : chi A = Spec.Sha3.chi A := by
  obtain ⟨a0, a1, a2, a3, a4, a5, a6, a7, a8, a9, a10, a11, a12, a13, a14, a15, a16, a17, a18, a19, a20, a21, a22, a23, a24, rfl⟩ := lanes h
  unfold chi chiRow xorAt Spec.Sha3.chi Spec.Sha3.state Spec.Sha3.lane
  rw [range25]
  simp only [List.foldl_cons, List.foldl_nil, List.set_cons_succ, List.set_cons_zero, List.getD_cons_succ, List.getD_cons_zero, List.map_cons, List.map_nil,
    Nat.reduceMod, Nat.reduceMul, Nat.reduceAdd, Nat.reduceDiv, Nat.zero_add, Nat.add_zero, Nat.mul_zero, Nat.zero_mod, Nat.zero_div]

theorem constants_eq : ∀ r < 24, roundConstants.getD r 0 = Spec.Sha3.RC r := by decide +kernel

theorem theta_length (A : List UInt64) : (Spec.Sha3.theta A).length = 25 := by simp [Spec.Sha3.theta, Spec.Sha3.state]
theorem pi_length (A : List UInt64) : (Spec.Sha3.pi A).length = 25 := by simp [Spec.Sha3.pi, Spec.Sha3.state]
theorem chi_length (A : List UInt64) : (Spec.Sha3.chi A).length = 25 := by simp [Spec.Sha3.chi, Spec.Sha3.state]
theorem rho_length (A : List UInt64) : (Spec.Sha3.rho A).length = A.length := by
  unfold Spec.Sha3.rho
  have : ∀ (l : List Nat) (A' : List UInt64) (f : Nat → Nat) (g : Nat → UInt64), (l.foldl (fun A' t => A'.set (f t) (g t)) A').length = A'.length := by
    intro l
    induction l with
    | nil => intro A' f g; rfl
    | cons t l ih => intro A' f g; rw [List.foldl_cons, ih, List.length_set]
  exact this _ _ _ _

theorem round_eq {A : List UInt64} (h : A.length = 25) (r : Nat) (hr : r < 24) :
    round A r = Spec.Sha3.iota (Spec.Sha3.chi (Spec.Sha3.pi (Spec.Sha3.rho (Spec.Sha3.theta A)))) r := by
  unfold round
  rw [theta_eq h, rho_eq (theta_length A), pi_eq (by rw [rho_length, theta_length]), chi_eq (pi_length _), constants_eq r hr]
  rfl

theorem foldl_eq (f g : List UInt64 → Nat → List UInt64) (hfg : ∀ A r, A.length = 25 → r < 24 → f A r = g A r) (hg : ∀ A r, (g A r).length = 25)
    (l : List Nat) : ∀ A : List UInt64, (∀ r ∈ l, r < 24) → A.length = 25 → l.foldl f A = l.foldl g A ∧ (l.foldl g A).length = 25 := by
  induction l with
  | nil => intro A _ h; exact ⟨rfl, h⟩
  | cons r l ih =>
    intro A hr h
    rw [List.foldl_cons, List.foldl_cons, hfg A r h (hr r (by simp))]
    exact ih _ (fun x hx => hr x (by simp [hx])) (hg A r)

theorem permutation_eq {A : List UInt64} (h : A.length = 25) : permutation A = Spec.Sha3.keccak A ∧ (Spec.Sha3.keccak A).length = 25 :=
  foldl_eq round (fun A i => Spec.Sha3.iota (Spec.Sha3.chi (Spec.Sha3.pi (Spec.Sha3.rho (Spec.Sha3.theta A)))) i)
    (fun A r hA hr => round_eq hA r hr) (fun A r => by unfold Spec.Sha3.iota; rw [List.length_set, chi_length]) (List.range 24) A
    (fun r hr => List.mem_range.1 hr) h

/-! ## Blocks -/

/-- The words of a block on the first lanes. -/
theorem xors_eq (A : List UInt64) (w : Nat → UInt64) (n : Nat) :
    (List.range n).foldl (fun A i => xorAt A i (w i)) A = A.mapIdx fun i a => if i < n then a ^^^ w i else a := by
  induction n with
  | zero =>
    apply List.ext_getElem <;> simp
  | succ n ih =>
    rw [List.range_succ, List.foldl_append, ih, List.foldl_cons, List.foldl_nil]
    unfold xorAt
    apply List.ext_getElem
    · simp
    intro i h1 h2
    simp only [List.length_set, List.length_mapIdx] at h1
    rw [List.getElem_set, List.getElem_mapIdx, List.getElem_mapIdx]
    by_cases hi : n = i
    · subst hi
      simp [List.getD_eq_getElem?_getD, h1]
    · rw [if_neg hi]
      by_cases h3 : i < n
      · rw [if_pos h3, if_pos (by omega)]
      · rw [if_neg h3, if_neg (by omega)]

/-- The block sizes there are. -/
def Size (bs : Nat) : Prop := bs = 144 ∨ bs = 136 ∨ bs = 104 ∨ bs = 72

theorem size_words {bs : Nat} (h : Size bs) : 8 * wordCount bs = bs := by
  rcases h with rfl | rfl | rfl | rfl <;> rfl

attribute [local irreducible] Spec.Sha3.keccak permutation

theorem process_eq {A : List UInt64} {b : Bytes} {bs : Nat} (hs : Size bs) (hA : A.length = 25) (hb : bs ≤ b.length) :
    processBlock A b bs = .ok (Spec.Sha3.absorb A (b.take bs)) ∧ (Spec.Sha3.absorb A (b.take bs)).length = 25 := by
  have hw := size_words hs
  have hl : ∀ f : Nat → UInt64 → UInt64, (A.mapIdx f).length = 25 := fun f => by simp [hA]
  unfold processBlock Spec.Sha3.absorb
  dsimp only
  rw [if_pos (by omega), xors_eq, (permutation_eq (hl _)).1]
  refine ⟨?_, (permutation_eq (hl _)).2⟩
  congr 2
  apply List.ext_getElem
  · simp
  intro i h1 h2
  rw [List.getElem_mapIdx, List.getElem_mapIdx]
  by_cases hi : i < wordCount bs
  · rw [if_pos hi]
    unfold ld64
    rw [List.drop_take, List.take_take, Nat.min_eq_left (by omega)]
  · rw [if_neg hi, List.drop_eq_nil_of_le (by rw [List.length_take]; omega)]
    simp [leNat]

/-! ## Updates -/

/-- The context after a message. -/
structure Inv (bs : Nat) (m : Bytes) (c : Ctx) : Prop where
  size : c.blockSize = bs
  rest : c.rest = m.length % bs
  mem : c.message.length = 192
  hash : c.hash = chunks bs Spec.Sha3.absorb (m.length / bs) m (List.replicate 25 0)
  lanes : c.hash.length = 25
  buf : c.message.take c.rest = m.drop (bs * (m.length / bs))

theorem size_bounds {bs : Nat} (h : Size bs) : 72 ≤ bs ∧ bs ≤ 144 := by
  rcases h with rfl | rfl | rfl | rfl <;> decide

theorem blocks_spec {bs : Nat} (hs : Size bs) (al : Bool) (m : Bytes) : ∀ (fuel k : Nat) (c : Ctx), c.blockSize = bs → c.rest = m.length % bs →
    c.message.length = 192 → c.hash = chunks bs Spec.Sha3.absorb k m (List.replicate 25 0) → c.hash.length = 25 → bs * k ≤ m.length →
    m.length - bs * k < fuel → ∃ c', blocks al fuel c (m.drop (bs * k)) = .ok c' ∧ Inv bs m c'
  | 0, _, _, _, _, _, _, _, _, h => absurd h (by omega)
  | fuel + 1, k, c, h1, h2, h3, h4, h5, h6, h7 => by
    have hb := size_bounds hs
    have hmul : bs * (k + 1) = bs * k + bs := Nat.mul_succ bs k
    rw [blocks, h1]
    by_cases hl : (m.drop (bs * k)).length ≥ bs
    · rw [if_pos hl]
      rw [List.length_drop] at hl
      have hstep : Spec.Sha3.absorb c.hash ((m.drop (bs * k)).take bs) = chunks bs Spec.Sha3.absorb (k + 1) m (List.replicate 25 0) := by
        rw [chunks_add, chunks, chunks, h4, Nat.mul_comm k bs]
      have htl : ((m.drop (bs * k)).take bs).length = bs := by rw [List.length_take, List.length_drop]; omega
      cases al with
      | true =>
        rw [if_pos rfl]
        obtain ⟨p1, p2⟩ := process_eq hs h5 (b := (m.drop (bs * k)).take bs) (by omega)
        rw [List.take_take, Nat.min_self] at p1 p2
        rw [p1]
        dsimp only [Out.bind]
        rw [List.drop_drop, ← hmul]
        exact blocks_spec hs true m fuel (k + 1) _ rfl h2 h3 hstep p2 (by omega) (by omega)
      | false =>
        rw [if_neg (by decide), memcpy_ok (by omega)]
        dsimp only [Out.bind]
        rw [List.take_zero, List.nil_append]
        obtain ⟨p1, p2⟩ := process_eq hs h5 (b := (m.drop (bs * k)).take bs ++ c.message.drop (0 + ((m.drop (bs * k)).take bs).length)) (by rw [List.length_append]; omega)
        have htake : ((m.drop (bs * k)).take bs ++ c.message.drop (0 + ((m.drop (bs * k)).take bs).length)).take bs = (m.drop (bs * k)).take bs := by
          rw [List.take_left' htl]
        rw [htake] at p1 p2
        rw [p1]
        dsimp only
        rw [List.drop_drop, ← hmul]
        exact blocks_spec hs false m fuel (k + 1) _ rfl h2 (by show List.length (_ ++ _) = _; rw [List.length_append, List.length_drop, h3]; omega) hstep p2 (by omega) (by omega)
    · rw [if_neg hl]
      rw [List.length_drop] at hl
      have hk : m.length / bs = k := by
        apply Nat.div_eq_of_lt_le
        · rw [Nat.mul_comm]; exact h6
        · rw [Nat.mul_comm, hmul]; omega
      have hmod : m.length % bs = m.length - bs * k := by
        have := Nat.div_add_mod m.length bs
        rw [hk] at this
        omega
      by_cases h0 : (m.drop (bs * k)).length > 0
      · rw [if_pos h0, memcpy_ok (by rw [List.length_drop]; omega)]
        refine ⟨_, rfl, ⟨rfl, h2, ?_, by rw [hk]; exact h4, h5, ?_⟩⟩
        · show List.length (_ ++ _ ++ _) = _
          simp only [List.take_zero, List.nil_append, List.length_append, List.length_drop, h3]
          omega
        · show List.take c.rest (_ ++ _ ++ _) = _
          rw [hk, List.take_zero, List.nil_append, List.take_left' (by rw [List.length_drop]; omega)]
      · rw [if_neg h0]
        rw [List.length_drop] at h0
        refine ⟨c, rfl, ⟨h1, h2, h3, by rw [hk]; exact h4, h5, ?_⟩⟩
        rw [hk, List.drop_eq_nil_of_le (as := m) (by omega), h2, hmod, show m.length - bs * k = 0 by omega, List.take_zero]

theorem update_spec {bs : Nat} (hs : Size bs) (al : Bool) (m x : Bytes) (c : Ctx) (hi : Inv bs m c) :
    ∃ c', update al c x = .ok c' ∧ Inv bs (m ++ x) c' := by
  have hb := size_bounds hs
  have hr : c.rest < bs := by rw [hi.rest]; exact Nat.mod_lt _ (by omega)
  have hdm := Nat.div_add_mod m.length bs
  have hlen : c.rest = m.length - bs * (m.length / bs) := by rw [hi.rest]; omega
  have hkl : bs * (m.length / bs) ≤ m.length := by omega
  have hch : c.hash = chunks bs Spec.Sha3.absorb (m.length / bs) (m ++ x) (List.replicate 25 0) := by
    rw [hi.hash, chunks_append _ _ _ _ _ _ (by rw [Nat.mul_comm]; exact hkl)]
  unfold update finalized
  dsimp only
  rw [if_neg (by simp only [decide_eq_true_eq]; omega), hi.size, if_neg (by omega)]
  have hrest : (c.rest + x.length) % bs = (m ++ x).length % bs := by
    rw [hi.rest, List.length_append]
    exact Nat.mod_add_mod _ _ _
  by_cases h0 : c.rest > 0
  · rw [if_pos h0]
    by_cases hl : x.length < bs - c.rest
    · rw [if_pos hl, List.take_length, memcpy_ok (by rw [hi.mem]; omega)]
      dsimp only [Out.bind]
      rw [if_pos hl]
      have hdiv : (m ++ x).length / bs = m.length / bs := by
        rw [List.length_append]
        apply Nat.div_eq_of_lt_le
        · rw [Nat.mul_comm]; omega
        · rw [Nat.mul_comm, Nat.mul_succ]; omega
      refine ⟨_, rfl, ⟨rfl, hrest, ?_, by rw [hdiv]; exact hch, hi.lanes, ?_⟩⟩
      · show List.length (_ ++ _ ++ _) = _
        simp only [List.length_append, List.length_take, List.length_drop, hi.mem]
        omega
      · show List.take ((c.rest + x.length) % bs) (_ ++ _ ++ _) = _
        rw [hdiv, List.drop_append_of_le_length hkl, Nat.mod_eq_of_lt (by omega), hi.buf,
          List.take_left' (by rw [List.length_append, List.length_drop]; omega)]
    · have htl : (x.take (bs - c.rest)).length = bs - c.rest := by rw [List.length_take]; omega
      rw [if_neg hl, memcpy_ok (by rw [hi.mem]; omega)]
      dsimp only [Out.bind]
      rw [if_neg hl, hi.buf, htl]
      have hbl : (m.drop (bs * (m.length / bs)) ++ x.take (bs - c.rest)).length = bs := by
        rw [List.length_append, List.length_drop]; omega
      obtain ⟨p1, p2⟩ := process_eq hs hi.lanes (b := m.drop (bs * (m.length / bs)) ++ x.take (bs - c.rest) ++ c.message.drop (c.rest + (bs - c.rest)))
        (by rw [List.length_append]; omega)
      rw [List.take_left' hbl] at p1 p2
      rw [p1]
      dsimp only
      have hdrop : x.drop (bs - c.rest) = (m ++ x).drop (bs * (m.length / bs + 1)) := by
        rw [Nat.mul_succ, List.drop_append, List.drop_eq_nil_of_le (as := m) (by omega), List.nil_append]
        congr 1
        omega
      have hblock : m.drop (bs * (m.length / bs)) ++ x.take (bs - c.rest) = ((m ++ x).drop (bs * (m.length / bs))).take bs := by
        rw [List.drop_append_of_le_length hkl, List.take_append, List.take_of_length_le (l := m.drop (bs * (m.length / bs))) (by rw [List.length_drop]; omega),
          List.length_drop]
        congr 2
        omega
      rw [hdrop]
      refine blocks_spec hs al (m ++ x) _ (m.length / bs + 1) _ rfl hrest ?_ ?_ p2 ?_ ?_
      · show List.length (_ ++ _ ++ _) = _
        simp only [List.length_append, List.length_take, List.length_drop, hi.mem]
        omega
      · show Spec.Sha3.absorb c.hash _ = _
        rw [chunks_add, chunks, chunks, ← hch, hblock, Nat.mul_comm (m.length / bs) bs]
      · rw [Nat.mul_succ, List.length_append]; omega
      · rw [Nat.mul_succ, List.length_append]; omega
  · rw [if_neg h0]
    have hdrop : x = (m ++ x).drop (bs * (m.length / bs)) := by
      rw [List.drop_append, List.drop_eq_nil_of_le (as := m) (by omega), List.nil_append, show bs * (m.length / bs) - m.length = 0 by omega, List.drop_zero]
    have key := blocks_spec hs al (m ++ x) (x.length + 1) (m.length / bs) { c with rest := (c.rest + x.length) % bs, blockSize := bs } rfl hrest hi.mem hch hi.lanes
      (by rw [List.length_append]; omega) (by rw [List.length_append]; omega)
    rw [← hdrop] at key
    exact key

theorem updates_spec {bs : Nat} (hs : Size bs) (l : List (Bool × Bytes)) : ∀ (m : Bytes) (c : Ctx), Inv bs m c →
    ∃ c', updates l c = .ok c' ∧ Inv bs (m ++ (l.map (·.2)).flatten) c' := by
  induction l with
  | nil => intro m c hi; exact ⟨c, rfl, by simpa using hi⟩
  | cons x l ih =>
    intro m c hi
    obtain ⟨c1, e1, i1⟩ := update_spec hs x.1 m x.2 c hi
    obtain ⟨c2, e2, i2⟩ := ih _ _ i1
    refine ⟨c2, ?_, ?_⟩
    · rw [updates, e1]; exact e2
    · rw [List.map_cons, List.flatten_cons, ← List.append_assoc]; exact i2

/-! ## Beginning and end -/

theorem set_mid (P R : Bytes) (x y : UInt8) (n : Nat) (hn : n = P.length) : (P ++ x :: R).set n y = P ++ y :: R := by
  subst hn
  rw [List.set_append_right _ _ (Nat.le_refl _), Nat.sub_self, List.set_cons_zero]

theorem get_mid (P R : Bytes) (x : UInt8) (n : Nat) (hn : n = P.length) : (P ++ x :: R).getD n 0 = x := by
  subst hn
  simp [List.getD_eq_getElem?_getD]

theorem orAt_mid (P R : Bytes) (x b : UInt8) (n : Nat) (hn : n = P.length) : orAt (P ++ x :: R) n b = .ok (P ++ (x ||| b) :: R) := by
  unfold orAt
  rw [if_pos (by simp; omega), set_mid P R x _ n hn, get_mid P R x n hn]

/-- The last block's padding. -/
def tail (q : Nat) : Bytes := if q = 1 then [0x86] else [0x06] ++ List.replicate (q - 2) 0 ++ [0x80]

theorem tail_length (q : Nat) (h : 0 < q) : (tail q).length = q := by
  unfold tail
  by_cases h1 : q = 1
  · rw [if_pos h1, h1]; rfl
  · rw [if_neg h1]; simp; omega

theorem padding_eq (P R : Bytes) (q : Nat) (hq : 0 < q) :
    ((orAt (P ++ List.replicate q 0 ++ R) P.length 0x06).bind fun m => orAt m (P.length + q - 1) 0x80) = .ok (P ++ tail q ++ R) := by
  obtain ⟨n, rfl⟩ : ∃ n, q = n + 1 := ⟨q - 1, by omega⟩
  rw [List.replicate_succ, List.append_assoc, List.cons_append, orAt_mid _ _ _ _ _ rfl]
  dsimp only [Out.bind]
  by_cases h : n = 0
  · subst h
    rw [List.replicate_zero, List.nil_append, orAt_mid _ _ _ _ _ (by omega)]
    unfold tail
    rw [if_pos rfl, List.append_assoc]
    rfl
  · obtain ⟨k, rfl⟩ : ∃ k, n = k + 1 := ⟨n - 1, by omega⟩
    have e : P ++ (0 ||| 0x06) :: (List.replicate (k + 1) 0 ++ R) = (P ++ (0 ||| 0x06) :: List.replicate k 0) ++ 0 :: R := by
      rw [List.replicate_succ']; simp
    rw [e, orAt_mid _ _ _ _ _ (by simp)]
    unfold tail
    rw [if_neg (by omega)]
    simp

theorem foldl_split {r : Nat} (f : List UInt64 → Bytes → List UInt64) : ∀ (n : Nat) (m : Bytes) (A : List UInt64), (Spec.Sha3.split r n m).foldl f A = chunks r f n m A
  | 0, _, _ => rfl
  | n + 1, m, A => by rw [Spec.Sha3.split, List.foldl_cons, foldl_split f n, chunks]

attribute [local irreducible] Spec.Sha3.absorb

theorem sha3_eq {bs : Nat} (hs : Size bs) (m : Bytes) (d : Nat) (hd : (1600 - 2 * d) / 8 = bs) :
    Spec.Sha3.sha3 d m = ((Spec.Sha3.absorb (chunks bs Spec.Sha3.absorb (m.length / bs) m (List.replicate 25 0))
      (m.drop (bs * (m.length / bs)) ++ tail (bs - m.length % bs))).flatMap fun w => leBytes 8 w.toNat).take (d / 8) := by
  have hb := size_bounds hs
  have hdm := Nat.div_add_mod m.length bs
  have hlt := Nat.mod_lt m.length (show 0 < bs by omega)
  unfold Spec.Sha3.sha3
  rw [hd]
  dsimp only
  have hp : Spec.Sha3.pad bs m = m ++ tail (bs - m.length % bs) := rfl
  have hl : (m ++ tail (bs - m.length % bs)).length = bs * (m.length / bs + 1) := by
    rw [List.length_append, tail_length _ (by omega), Nat.mul_succ]; omega
  rw [hp, hl, Nat.mul_div_cancel_left _ (by omega), foldl_split, chunks_add, chunks, chunks,
    chunks_append _ _ _ _ _ _ (by rw [Nat.mul_comm]; omega), Nat.mul_comm (m.length / bs) bs, List.drop_append_of_le_length (by omega),
    List.take_of_length_le (i := bs)]
  rw [List.length_append, tail_length _ (by omega), List.length_drop]
  omega

theorem final_spec {bs : Nat} (hs : Size bs) (m : Bytes) (c : Ctx) (hi : Inv bs m c) (d : Nat) (hd : (1600 - 2 * d) / 8 = bs) (h8 : d / 8 = 100 - bs / 2) :
    final c = .ok (Spec.Sha3.sha3 d m) := by
  have hb := size_bounds hs
  have hdm := Nat.div_add_mod m.length bs
  have hlt := Nat.mod_lt m.length (show 0 < bs by omega)
  have hr := hi.rest
  have hpl : (m.drop (bs * (m.length / bs))).length = c.rest := by rw [List.length_drop]; omega
  unfold final finalized
  dsimp only
  rw [if_neg (by simp only [decide_eq_true_eq]; omega), hi.size, memcpy_ok (by rw [hi.mem, List.length_replicate]; omega), hi.buf]
  dsimp only [Out.bind]
  have key := padding_eq (m.drop (bs * (m.length / bs))) (c.message.drop (c.rest + (List.replicate (bs - c.rest) (0 : UInt8)).length)) (bs - c.rest) (by omega)
  rw [hpl, show c.rest + (bs - c.rest) - 1 = bs - 1 by omega] at key
  generalize hM : m.drop (bs * (m.length / bs)) ++ List.replicate (bs - c.rest) 0 ++ c.message.drop (c.rest + (List.replicate (bs - c.rest) (0 : UInt8)).length) = M at key ⊢
  cases h1 : orAt M c.rest 0x06 with
  | ub => rw [h1] at key; cases key
  | err e => rw [h1] at key; cases key
  | ok M1 =>
    rw [h1] at key
    dsimp only [Out.bind] at key ⊢
    rw [key]
    dsimp only
    have htl : (m.drop (bs * (m.length / bs)) ++ tail (bs - c.rest)).length = bs := by
      rw [List.length_append, tail_length _ (by omega)]; omega
    obtain ⟨p1, p2⟩ := process_eq hs hi.lanes (b := m.drop (bs * (m.length / bs)) ++ tail (bs - c.rest) ++
      c.message.drop (c.rest + (List.replicate (bs - c.rest) (0 : UInt8)).length)) (by rw [List.length_append]; omega)
    rw [List.take_left' htl] at p1
    rw [p1]
    dsimp only
    rw [if_pos (by omega), sha3_eq hs m d hd, hi.hash, h8, hr]
    rfl

theorem init_spec (d : Nat) (hd : d = 224 ∨ d = 256 ∨ d = 384 ∨ d = 512) : ∃ c, init d = .ok c ∧ Inv ((1600 - 2 * d) / 8) [] c := by
  rcases hd with rfl | rfl | rfl | rfl <;> exact ⟨_, rfl, ⟨rfl, rfl, rfl, rfl, rfl, rfl⟩⟩

theorem hashOf_spec (d : Nat) (hd : d = 224 ∨ d = 256 ∨ d = 384 ∨ d = 512) (l : List (Bool × Bytes)) :
    hashOf d l = .ok (Spec.Sha3.sha3 d (l.map (·.2)).flatten) := by
  have hs : Size ((1600 - 2 * d) / 8) := by
    rcases hd with rfl | rfl | rfl | rfl <;> unfold Size <;> decide
  have h8 : d / 8 = 100 - (1600 - 2 * d) / 8 / 2 := by
    rcases hd with rfl | rfl | rfl | rfl <;> rfl
  obtain ⟨c0, e0, i0⟩ := init_spec d hd
  obtain ⟨c1, e1, i1⟩ := updates_spec hs l [] c0 i0
  unfold hashOf
  rw [e0]
  dsimp only [Out.bind]
  rw [e1]
  dsimp only
  rw [final_spec hs _ c1 i1 d rfl h8, List.nil_append]

theorem sha3_length (m : Bytes) : (Spec.Sha3.sha3 256 m).length = 32 := by
  obtain ⟨p, p2⟩ := process_eq (A := chunks 136 Spec.Sha3.absorb (m.length / 136) m (List.replicate 25 0))
    (b := m.drop (136 * (m.length / 136)) ++ tail (136 - m.length % 136)) (bs := 136) (.inr (.inl rfl)) (by
      have : ∀ (n : Nat) (m : Bytes) (A : List UInt64), n * 136 ≤ m.length → A.length = 25 → (chunks 136 Spec.Sha3.absorb n m A).length = 25 := by
        intro n
        induction n with
        | zero => intro m A _ h; exact h
        | succ n ih =>
          intro m A hl h
          rw [chunks]
          refine ih _ _ (by rw [List.length_drop]; omega) ?_
          have := (process_eq (bs := 136) (.inr (.inl rfl)) h (b := m.take 136) (by rw [List.length_take]; omega)).2
          rwa [List.take_take, Nat.min_self] at this
      exact this _ _ _ (by omega) rfl)
    (by rw [List.length_append, tail_length _ (by omega), List.length_drop]; omega)
  rw [List.take_of_length_le (by rw [List.length_append, tail_length _ (by omega), List.length_drop]; omega)] at p2
  rw [sha3_eq (bs := 136) (.inr (.inl rfl)) m 256 rfl, List.length_take, List.length_flatMap]
  simp only [leBytes_length, List.map_const', p2]
  decide

end Verif.Sha3
