import Verif.Model.Siphash
import Verif.Spec.Siphash
import Verif.Lemmas.Words
/-
Lemmas for C92.
-/
namespace Verif.Lemmas.Siphash
open Verif Verif.Siphash Verif.Words
open Verif.Spec.Siphash (Word word padded words compress initial final hashWords sip keyState)

/-- The variables as words. -/
def st (v : V) : Word × Word × Word × Word := (v.v0.toBitVec, v.v1.toBitVec, v.v2.toBitVec, v.v3.toBitVec)

theorem rotl13 (x : UInt64) : (rotl x 13).toBitVec = x.toBitVec.rotateLeft 13 := by
  simp only [rotl, UInt64.toBitVec_or, UInt64.toBitVec_shiftLeft, UInt64.toBitVec_shiftRight]; rfl

theorem rotl32 (x : UInt64) : (rotl x 32).toBitVec = x.toBitVec.rotateLeft 32 := by
  simp only [rotl, UInt64.toBitVec_or, UInt64.toBitVec_shiftLeft, UInt64.toBitVec_shiftRight]; rfl

theorem rotl16 (x : UInt64) : (rotl x 16).toBitVec = x.toBitVec.rotateLeft 16 := by
  simp only [rotl, UInt64.toBitVec_or, UInt64.toBitVec_shiftLeft, UInt64.toBitVec_shiftRight]; rfl

theorem rotl21 (x : UInt64) : (rotl x 21).toBitVec = x.toBitVec.rotateLeft 21 := by
  simp only [rotl, UInt64.toBitVec_or, UInt64.toBitVec_shiftLeft, UInt64.toBitVec_shiftRight]; rfl

theorem rotl17 (x : UInt64) : (rotl x 17).toBitVec = x.toBitVec.rotateLeft 17 := by
  simp only [rotl, UInt64.toBitVec_or, UInt64.toBitVec_shiftLeft, UInt64.toBitVec_shiftRight]; rfl

theorem st_round (v : V) : st (sipround v) = Spec.Siphash.round (st v) := by
  simp only [st, sipround, Spec.Siphash.round, UInt64.toBitVec_xor, UInt64.toBitVec_add, rotl13, rotl16, rotl17, rotl21, rotl32]

theorem st_compress (v : V) (d : UInt64) (w : V)
    (h : w = sipround (sipround { v with v3 := v.v3 ^^^ d })) : st { w with v0 := w.v0 ^^^ d } = compress (st v) d.toBitVec := by
  have e : st w = Spec.Siphash.round (Spec.Siphash.round (v.v0.toBitVec, v.v1.toBitVec, v.v2.toBitVec, v.v3.toBitVec ^^^ d.toBitVec)) := by
    rw [h, st_round, st_round]; simp only [st, UInt64.toBitVec_xor]
  unfold compress
  simp only [st] at e ⊢
  rw [← e]
  simp only [UInt64.toBitVec_xor]

theorem finish_eq (v : V) (f : UInt64) : (finish v f).toBitVec = final (compress (st v) f.toBitVec) := by
  unfold finish
  dsimp only
  generalize h : sipround (sipround { v with v3 := v.v3 ^^^ f }) = w
  have e := st_compress v f w h.symm
  rw [← e]
  have e2 : st (sipround (sipround (sipround (sipround { w with v0 := w.v0 ^^^ f, v2 := w.v2 ^^^ 0xff })))) =
      Spec.Siphash.round (Spec.Siphash.round (Spec.Siphash.round (Spec.Siphash.round
        (w.v0.toBitVec ^^^ f.toBitVec, w.v1.toBitVec, w.v2.toBitVec ^^^ 0xff, w.v3.toBitVec)))) := by
    rw [st_round, st_round, st_round, st_round]; simp only [st, UInt64.toBitVec_xor]; rfl
  generalize sipround (sipround (sipround (sipround { w with v0 := w.v0 ^^^ f, v2 := w.v2 ^^^ 0xff }))) = x at e2 ⊢
  unfold final
  simp only [st, UInt64.toBitVec_xor] at e2 ⊢
  rw [← e2]

theorem ld64_word (b : Bytes) : (ld64 b).toBitVec = word (b.take 8) := by
  unfold ld64 word; rfl

theorem start_eq {key : Bytes} (h : 16 ≤ key.length) :
    ∃ v, start key = .ok v ∧ st v = initial (word (key.take 8)) (word ((key.drop 8).take 8)) := by
  unfold start read64
  rw [if_pos (by omega), if_pos (by omega)]
  refine ⟨_, rfl, ?_⟩
  simp only [st, initial, UInt64.toBitVec_xor, ld64_word, List.drop_zero]
  rfl

theorem blocks_eq (mem : Bytes) : ∀ n p v, p + 8 * n ≤ mem.length →
    ∃ w, blocksLoop mem n p v = .ok (p + 8 * n, w) ∧
      st w = ((List.range n).map fun i => word ((mem.drop (p + 8 * i)).take 8)).foldl compress (st v)
  | 0, p, v, _ => ⟨v, rfl, rfl⟩
  | n + 1, p, v, h => by
    unfold blocksLoop read64
    rw [if_pos (by omega)]
    dsimp only [Out.bind]
    obtain ⟨w, e, hw⟩ := blocks_eq mem n (p + 8)
      { sipround (sipround { v with v3 := v.v3 ^^^ ld64 (mem.drop p) }) with
        v0 := (sipround (sipround { v with v3 := v.v3 ^^^ ld64 (mem.drop p) })).v0 ^^^ ld64 (mem.drop p) } (by omega)
    refine ⟨w, e.trans (by congr 2; omega), ?_⟩
    rw [hw, st_compress v _ _ rfl, ld64_word, List.range_succ_eq_map, List.map_cons, List.foldl_cons, List.map_map]
    congr 1
    apply List.map_congr_left
    intro i _
    simp only [Function.comp]
    rw [show p + 8 * (i + 1) = p + 8 + 8 * i by omega]

/-- The bytes from `p` on, as a number. -/
theorem or_add (x y j : Nat) (hx : x % 2 ^ j = 0) (hy : y < 2 ^ j) : x ||| y = x + y := by
  obtain ⟨a, rfl⟩ : ∃ a, x = 2 ^ j * a := ⟨x / 2 ^ j, by have := Nat.div_add_mod x (2 ^ j); omega⟩
  exact (Nat.two_pow_add_eq_or_of_lt hy a).symm

theorem shl_byte (b : UInt8) (j : Nat) (h : j < 7) : (b.toUInt64 <<< UInt64.ofNat (8 * j)).toNat = b.toNat * 2 ^ (8 * j) := by
  have hb := b.toNat_lt
  rw [UInt64.toNat_shiftLeft, Nat.shiftLeft_eq]
  simp only [UInt8.toNat_toUInt64, UInt64.toNat_ofNat']
  rw [show 8 * j % 2 ^ 64 % 64 = 8 * j by omega]
  apply Nat.mod_eq_of_lt
  calc b.toNat * 2 ^ (8 * j) < 2 ^ 8 * 2 ^ (8 * j) := Nat.mul_lt_mul_of_pos_right hb (Nat.two_pow_pos _)
    _ = 2 ^ (8 + 8 * j) := by rw [Nat.pow_add]
    _ ≤ 2 ^ 64 := Nat.pow_le_pow_right (by omega) (by omega)

theorem leNat_snoc (l : Bytes) (b : UInt8) : leNat (l ++ [b]) = leNat l + b.toNat * 2 ^ (8 * l.length) := by
  induction l with
  | nil => simp [leNat]
  | cons a l ih =>
    simp only [List.cons_append, leNat, ih, List.length_cons]
    rw [show 8 * (l.length + 1) = 8 + 8 * l.length by omega, Nat.pow_add]
    rw [Nat.mul_add, ← Nat.add_assoc, Nat.mul_left_comm b.toNat]

theorem tail_eq (mem : Bytes) (p : Nat) : ∀ j (f : UInt64), j ≤ 7 → p + j ≤ mem.length → f.toNat % 2 ^ (8 * j) = 0 →
    ∃ g, tail mem p j f = .ok g ∧ g.toNat = leNat ((mem.drop p).take j) + f.toNat
  | 0, f, _, _, _ => ⟨f, rfl, by simp [leNat]⟩
  | j + 1, f, hj, hp, hf => by
    have hl : p + j < mem.length := by omega
    have hb : byte mem (p + j) = .ok (mem[p + j]).toUInt64 := by unfold byte; rw [List.getElem?_eq_getElem hl]
    have e1 := shl_byte mem[p + j] j (by omega)
    have e2 : (f ||| mem[p + j].toUInt64 <<< UInt64.ofNat (8 * j)).toNat = f.toNat + mem[p + j].toNat * 2 ^ (8 * j) := by
      rw [UInt64.toNat_or, e1]
      apply or_add _ _ _ hf
      have := mem[p + j].toNat_lt
      calc _ < 2 ^ 8 * 2 ^ (8 * j) := Nat.mul_lt_mul_of_pos_right this (Nat.two_pow_pos _)
        _ = 2 ^ (8 * (j + 1)) := by rw [← Nat.pow_add]; congr 1; omega
    obtain ⟨g, h, hg⟩ := tail_eq mem p j (f ||| mem[p + j].toUInt64 <<< UInt64.ofNat (8 * j)) (by omega) (by omega) (by
      rw [e2, Nat.add_mul_mod_self_right]
      have : 2 ^ (8 * j) ∣ f.toNat := Nat.dvd_trans (Nat.pow_dvd_pow 2 (by omega)) (Nat.dvd_of_mod_eq_zero hf)
      exact Nat.mod_eq_zero_of_dvd this)
    refine ⟨g, ?_, ?_⟩
    · unfold tail; rw [hb]; exact h
    · rw [hg, e2, List.take_add_one, List.getElem?_drop, List.getElem?_eq_getElem hl]
      simp only [Option.toList_some]
      rw [leNat_snoc]
      simp only [List.length_take, List.length_drop]
      rw [show min j (mem.length - p) = j by omega]
      omega

theorem leNat_zeros (l : Bytes) (n : Nat) : leNat (l ++ List.replicate n 0) = leNat l := by
  induction n with
  | zero => simp
  | succ n ih => rw [List.replicate_succ', ← List.append_assoc, leNat_snoc, ih]; simp

theorem words_init {mem : Bytes} {len i : Nat} (h : len ≤ mem.length) (hi : i < len / 8) :
    ((padded (mem.take len)).drop (8 * i)).take 8 = (mem.drop (8 * i)).take 8 := by
  have hl : (mem.take len).length = len := by rw [List.length_take]; omega
  unfold padded
  rw [List.append_assoc, List.drop_append_of_le_length (by omega), List.take_append_of_le_length (by rw [List.length_drop]; omega),
    List.drop_take, List.take_take]
  congr 1
  omega

theorem words_last {mem : Bytes} {len : Nat} (h : len ≤ mem.length) :
    ((padded (mem.take len)).drop (8 * (len / 8))).take 8 =
      (mem.drop (8 * (len / 8))).take (len % 8) ++ List.replicate (7 - len % 8) 0 ++ [UInt8.ofNat len] := by
  have hl : (mem.take len).length = len := by rw [List.length_take]; omega
  unfold padded
  rw [List.append_assoc, List.drop_append_of_le_length (by omega), hl, List.drop_take,
    show len - 8 * (len / 8) = len % 8 by omega, ← List.append_assoc]
  apply List.take_of_length_le
  simp only [List.length_append, List.length_take, List.length_drop, List.length_replicate, List.length_cons, List.length_nil]
  omega

theorem words_eq {mem : Bytes} {len : Nat} (h : len ≤ mem.length) :
    words (mem.take len) = ((List.range (len / 8)).map fun i => word ((mem.drop (0 + 8 * i)).take 8)) ++
      [word ((mem.drop (8 * (len / 8))).take (len % 8) ++ List.replicate (7 - len % 8) 0 ++ [UInt8.ofNat len])] := by
  have hl : (mem.take len).length = len := by rw [List.length_take]; omega
  unfold words
  rw [hl, List.range_succ, List.map_append, List.map_cons, List.map_nil, words_last h]
  congr 1
  apply List.map_congr_left
  intro i hi
  rw [words_init h (List.mem_range.mp hi), Nat.zero_add]

theorem f0_toNat (len : Nat) : (UInt64.ofNat len <<< 56).toNat = len % 256 * 2 ^ 56 := by
  rw [UInt64.toNat_shiftLeft, Nat.shiftLeft_eq]
  simp only [UInt64.toNat_ofNat']
  rw [show (56 : UInt64).toNat % 64 = 56 from rfl]
  omega

theorem sip_eq {mem key : Bytes} {len : Nat} (h : len ≤ mem.length) (hk : 16 ≤ key.length) (hs : len < 2 ^ 35) :
    ∃ x, siphash mem len key = .ok x ∧ x.toBitVec = sip key (mem.take len) := by
  obtain ⟨v, e, hv⟩ := start_eq hk
  obtain ⟨w, e1, hw⟩ := blocks_eq mem (len / 8) 0 v (by omega)
  obtain ⟨g, e2, hg⟩ := tail_eq mem (0 + 8 * (len / 8)) (len % 8) (UInt64.ofNat len <<< 56) (by omega) (by omega) (by
    rw [f0_toNat]
    apply Nat.mod_eq_zero_of_dvd
    exact Nat.dvd_trans (Nat.pow_dvd_pow 2 (by omega)) (Nat.dvd_mul_left _ _))
  refine ⟨finish w g, ?_, ?_⟩
  · unfold siphash
    dsimp only
    rw [Nat.mod_eq_of_lt (show len / 8 < 2 ^ 32 by omega), e]
    dsimp only [Out.bind]
    rw [e1]
    dsimp only
    rw [e2]
  · rw [finish_eq, hw, hv]
    unfold sip hashWords
    rw [words_eq h, List.foldl_append, List.foldl_cons, List.foldl_nil]
    congr 2
    apply BitVec.eq_of_toNat_eq
    unfold word
    have hlt := g.toNat_lt
    rw [f0_toNat, Nat.zero_add] at hg
    rw [UInt64.toNat_toBitVec, BitVec.toNat_ofNat, leNat_snoc, leNat_zeros]
    simp only [List.length_append, List.length_take, List.length_drop, List.length_replicate]
    rw [show 8 * (min (len % 8) (mem.length - 8 * (len / 8)) + (7 - len % 8)) = 56 by omega, UInt8.toNat_ofNat']
    rw [show 2 ^ 8 = 256 from rfl, ← hg]
    exact (Nat.mod_eq_of_lt hlt).symm

theorem long_eq (mem : Bytes) (len : Nat) (key : Bytes) : siphash mem len key = siphash mem (len % 2 ^ 35) key := by
  have e1 : len / 8 % 2 ^ 32 = len % 2 ^ 35 / 8 % 2 ^ 32 := by omega
  have e2 : len % 8 = len % 2 ^ 35 % 8 := by omega
  have e3 : UInt64.ofNat len <<< 56 = UInt64.ofNat (len % 2 ^ 35) <<< 56 := by
    apply UInt64.toNat_inj.mp
    rw [f0_toNat, f0_toNat]
    omega
  unfold siphash
  rw [e1, e2, e3]

theorem wide_eq {key : Bytes} (h : 32 ≤ key.length) :
    ∃ v, (∀ n, siphash64k256 n key = .ok (finish v n)) ∧ st v = keyState key := by
  refine ⟨⟨ld64 (key.drop 0), ld64 (key.drop 8), ld64 (key.drop 16), ld64 (key.drop 24)⟩, fun n => ?_, ?_⟩
  · unfold siphash64k256 read64
    rw [if_pos (by omega), if_pos (by omega), if_pos (by omega), if_pos (by omega)]
    rfl
  · simp only [st, keyState, ld64_word, List.drop_zero]

theorem texts : ∀ n < 32, ∃ s, strerror (n : Nat) = .ok s ∧ s ≠ "EUNKNOWN" := by
  intro n h
  rcases n with _ | _ | _ | _ | _ | _ | _ | _ | _ | _ | _ | _ | _ | _ | _ | _ | _ | _ | _ | _ | _ | _ | _ | _ | _ | _ | _ | _ | _ | _ | _ | _ | n
  all_goals first | omega | exact ⟨_, rfl, by decide⟩

theorem distinct : ∀ n < 32, ∀ m < 32, strerror (n : Nat) = strerror (m : Nat) → n = m := by decide +kernel

theorem named : ∀ n < 32, 0 < n → n ≠ 23 → n ≠ 25 → Spec.Siphash.names[n]?.map Out.ok = some (strerror (n : Nat)) := by
  intro n h _ _ _
  rcases n with _ | _ | _ | _ | _ | _ | _ | _ | _ | _ | _ | _ | _ | _ | _ | _ | _ | _ | _ | _ | _ | _ | _ | _ | _ | _ | _ | _ | _ | _ | _ | _ | n
  all_goals first | omega | rfl

end Verif.Lemmas.Siphash
