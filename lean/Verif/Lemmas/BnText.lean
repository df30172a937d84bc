import Verif.Model.BnText
import Verif.Spec.BnText
import Verif.Lemmas.Bn
import Verif.Lemmas.Words
namespace Verif.BnText
open Verif.Words Verif.Bn Verif.Spec.BnText

theorem number_from (t : Bytes) : ∀ a, t.foldl (fun a c => 16 * a + (worth c).getD 0) a = a * 16 ^ t.length + number t := by
  unfold number
  induction t with
  | nil => intro a; simp
  | cons c t ih =>
    intro a
    rw [List.foldl_cons, List.foldl_cons, ih, ih (16 * 0 + _), List.length_cons, Nat.pow_succ]
    generalize 16 ^ t.length = P
    rw [Nat.mul_zero, Nat.zero_add, Nat.add_mul, Nat.add_assoc, Nat.mul_comm 16 a, Nat.mul_assoc, Nat.mul_comm 16 P]

theorem number_append (s t : Bytes) : number (s ++ t) = number s * 16 ^ t.length + number t := by
  rw [← number_from t (number s)]
  unfold number
  rw [List.foldl_append]

theorem worth_lt (c : UInt8) : (worth c).getD 0 < 16 := by
  have : ∀ n < 256, (worth (UInt8.ofNat n)).getD 0 < 16 := by decide +kernel
  have := this c.toNat c.toNat_lt
  rwa [UInt8.ofNat_toNat] at this

theorem number_lt (t : Bytes) : number t < 16 ^ t.length := by
  induction t with
  | nil => decide
  | cons c t ih =>
    have h := number_append [c] t
    have h1 : number [c] = (worth c).getD 0 := by unfold number; simp
    have := worth_lt c
    rw [List.singleton_append, h1] at h
    rw [h, List.length_cons, Nat.pow_succ, Nat.mul_comm _ 16]
    generalize (worth c).getD 0 = w at *
    generalize 16 ^ t.length = P at *
    have : w * P ≤ 15 * P := Nat.mul_le_mul_right _ (by omega)
    omega

/-! ## Reading -/

theorem fromLoop_spec (scan : Bytes → Nat) (hs : Scans scan) (pre rest : Bytes) (hp : pre.length < 8) : ∀ (k : Nat) (D R : Bytes), D.length = 8 * k → Hex D →
    ∀ (L : Num) (fuel : Nat), L.length + k ≤ 16 → k < fuel →
    ∃ W, W.length = k ∧ Small W ∧ val W = number D ∧
      fromLoop scan (pre ++ (D ++ R)) fuel ((pre.length + D.length : Nat) - 8 : Int) L.length (L ++ List.replicate (16 - L.length) 0) =
        .ok (L ++ W ++ List.replicate (16 - L.length - k) 0)
  | 0, D, R, hD, _, L, fuel, _, hf => by
    obtain ⟨f, rfl⟩ : ∃ f, fuel = f + 1 := ⟨fuel - 1, by omega⟩
    have : D = [] := List.eq_nil_of_length_eq_zero (by omega)
    subst this
    refine ⟨[], rfl, by simp [Small], rfl, ?_⟩
    rw [fromLoop, if_neg (by simp; omega)]
    simp
  | k + 1, D, R, hD, hx, L, fuel, hL, hf => by
    obtain ⟨f, rfl⟩ : ∃ f, fuel = f + 1 := ⟨fuel - 1, by omega⟩
    obtain ⟨E, d, rfl, hE, hd⟩ : ∃ E d, D = E ++ d ∧ E.length = 8 * k ∧ d.length = 8 :=
      ⟨D.take (8 * k), D.drop (8 * k), (List.take_append_drop _ _).symm, by rw [List.length_take]; omega, by rw [List.length_drop]; omega⟩
    have hxE : Hex E := fun c hc => hx c (by simp [hc])
    have hxd : Hex d := fun c hc => hx c (by simp [hc])
    have hlt : number d < B := by
      have := number_lt d
      rw [hd] at this
      exact this
    obtain ⟨W, w1, w2, w3, w4⟩ := fromLoop_spec scan hs pre rest hp k E (d ++ R) hE hxE (L ++ [number d]) f (by simp; omega) (by omega)
    refine ⟨number d :: W, by simp [w1], by rw [small_cons]; exact ⟨hlt, w2⟩, ?_, ?_⟩
    · rw [val, w3, number_append, hd, show (16 : Nat) ^ 8 = B from rfl, Nat.mul_comm B]; omega
    · have e1 : pre ++ (E ++ d ++ R) = (pre ++ E) ++ (d ++ R) := by simp
      have e2 : (((pre.length + (E ++ d).length : Nat) : Int) - 8).toNat = (pre ++ E).length := by
        rw [List.length_append, List.length_append, hd]; omega
      rw [fromLoop, if_pos (by rw [List.length_append, hd]; omega), e2, if_pos (by simp [hd]; omega), e1, List.drop_left, hs d R hd hxd, Nat.mod_eq_of_lt hlt]
      have e3 : (L ++ List.replicate (16 - L.length) 0).set L.length (number d) = (L ++ [number d]) ++ List.replicate (16 - (L ++ [number d]).length) 0 := by
        obtain ⟨r, hr⟩ : ∃ r, 16 - L.length = r + 1 := ⟨15 - L.length, by omega⟩
        have : 16 - (L ++ [number d]).length = r := by simp; omega
        rw [hr, this, List.replicate_succ]
        simp
      have e4 : ((pre.length + (E ++ d).length : Nat) : Int) - 8 - 2 * 4 = ((pre.length + E.length : Nat) : Int) - 8 := by
        rw [List.length_append, hd]; omega
      have e5 : L.length + 1 = (L ++ [number d]).length := by simp
      have e6 : (pre ++ E) ++ (d ++ R) = pre ++ (E ++ (d ++ R)) := by simp
      rw [e3, e4, e5, e6, w4]
      have e7 : 16 - (L ++ [number d]).length - k = 16 - L.length - (k + 1) := by simp; omega
      rw [e7]
      simp

theorem fromString_spec (scan : Bytes → Nat) (hs : Scans scan) (pre D R : Bytes) (k : Nat) (hp : pre.length < 8) (hD : D.length = 8 * k) (hx : Hex D) (hk : k ≤ 16)
    (h0 : 0 < pre.length + D.length) (h2 : pre.length % 2 = 0) :
    ∃ n, fromString scan (pre ++ (D ++ R)) (pre.length + D.length : Nat) = .ok n ∧ WF n ∧ val n = number D := by
  obtain ⟨W, w1, w2, w3, w4⟩ := fromLoop_spec scan hs pre [] hp k D R hD hx [] (pre.length + D.length + 1) (by simpa using hk) (by omega)
  refine ⟨W ++ List.replicate (16 - k) 0, ?_, ⟨by simp [w1]; omega, ?_⟩, ?_⟩
  · unfold fromString
    rw [if_neg (by omega), if_neg (by omega)]
    rw [List.length_nil, List.nil_append, List.nil_append, Nat.sub_zero] at w4
    rw [Int.toNat_natCast]
    exact w4
  · intro x hx'
    rw [List.mem_append] at hx'
    rcases hx' with h | h
    · exact w2 x h
    · rw [(List.mem_replicate.1 h).2]; decide
  · rw [← w3]
    clear w1 w2 w3 w4
    induction W with
    | nil =>
      rw [List.nil_append]
      generalize 16 - k = m
      induction m with
      | zero => rfl
      | succ m ih => rw [List.replicate_succ]; show 0 + B * val (List.replicate m 0) = 0; rw [ih]; rfl
    | cons w W ih => rw [List.cons_append, val, val, ih]

/-! ## Writing -/

theorem digit_worth (d : Nat) (h : d < 16) : worth (digit d) = some d := by
  have : ∀ d < 16, worth (digit d) = some d := by decide
  exact this d h

theorem hex8_length (w : Nat) : (hex8 w).length = 8 := rfl

theorem hex8_hex (w : Nat) : Hex (hex8 w) := by
  intro c hc
  unfold hex8 at hc
  obtain ⟨s, -, rfl⟩ := List.mem_map.1 hc
  rw [digit_worth _ (Nat.mod_lt _ (by decide))]
  rfl

theorem hex8_number (w : Nat) (h : w < B) : number (hex8 w) = w := by
  unfold number hex8
  rw [B_eq] at h
  simp only [List.map_cons, List.map_nil, List.foldl_cons, List.foldl_nil, digit_worth _ (Nat.mod_lt _ (show 0 < 16 by decide)), Option.getD_some]
  omega

/-- All the digits of words, the first word first. -/
def digits (ws : List Nat) : Bytes := ws.flatMap hex8

theorem digits_length (ws : List Nat) : (digits ws).length = 8 * ws.length := by
  induction ws with
  | nil => rfl
  | cons w ws ih => unfold digits at *; rw [List.flatMap_cons, List.length_append, ih, hex8_length, List.length_cons]; omega

theorem digits_hex (ws : List Nat) : Hex (digits ws) := by
  intro c hc
  obtain ⟨w, -, h⟩ := List.mem_flatMap.1 hc
  exact hex8_hex w c h

theorem digits_number (n : Num) (h : Small n) : number (digits n.reverse) = val n := by
  induction n with
  | nil => rfl
  | cons w ws ih =>
    rw [small_cons] at h
    have e : digits (w :: ws).reverse = digits ws.reverse ++ hex8 w := by unfold digits; simp
    rw [e, number_append, ih h.2, hex8_number w h.1, hex8_length, val, show (16 : Nat) ^ 8 = B from rfl, Nat.mul_comm B]
    omega

theorem toLoop_spec (nbytes : Nat) : ∀ (ws : List Nat) (A X : Bytes), A.length + 8 * ws.length ≤ nbytes → 0 < ws.length → 8 * ws.length < X.length →
    toLoop nbytes ws A.length (A ++ X) = .ok (A ++ digits ws ++ 0 :: X.drop (8 * ws.length + 1))
  | [], _, _, _, h, _ => absurd h (by decide)
  | w :: ws, A, X, h1, _, h3 => by
    rw [List.length_cons] at h1 h3
    rw [toLoop, if_pos (by omega)]
    have e9 : (hex8 w ++ [0]).length = 9 := rfl
    rw [memcpy_ok (by rw [e9, List.length_append]; omega), Out.bind, List.take_left, e9, List.drop_append, List.drop_eq_nil_of_le (by omega), List.nil_append,
      show A.length + 9 - A.length = 9 by omega]
    rcases ws with _ | ⟨v, vs⟩
    · rw [toLoop]
      simp [digits]
    · have := toLoop_spec nbytes (v :: vs) (A ++ hex8 w) (0 :: X.drop 9) (by rw [List.length_append, hex8_length]; omega) (by simp) (by
        simp only [List.length_cons, List.length_drop] at h3 ⊢; omega)
      rw [List.length_append, hex8_length] at this
      have e : A ++ (hex8 w ++ [0]) ++ X.drop 9 = A ++ hex8 w ++ 0 :: X.drop 9 := by simp
      rw [e, this]
      rw [List.drop_succ_cons, List.drop_drop]
      have e2 : 9 + 8 * (v :: vs).length = 8 * (w :: v :: vs).length + 1 := by simp only [List.length_cons]; omega
      rw [e2]
      simp [digits]

theorem zeros_spec : ∀ (t R : Bytes), ∃ Z T : Bytes, t = Z ++ T ∧ (∀ c ∈ Z, c = 0x30) ∧ T.head? ≠ some 0x30 ∧ zeros (t ++ 0 :: R) = .ok Z.length
  | [], R => ⟨[], [], rfl, by simp, by simp, by simp [zeros]⟩
  | c :: t, R => by
    by_cases h : c = 0x30
    · obtain ⟨Z, T, h1, h2, h3, h4⟩ := zeros_spec t R
      refine ⟨c :: Z, T, by rw [h1]; rfl, by intro x hx; rcases List.mem_cons.1 hx with e | e; exact e.trans h; exact h2 x e, h3, ?_⟩
      rw [List.cons_append, zeros, if_pos h, h4]
      rfl
    · exact ⟨[], c :: t, rfl, by simp, by simpa using h, by rw [List.cons_append, zeros, if_neg h]; rfl⟩

theorem moveLoop_spec (j : Nat) : ∀ (T A X S : Bytes), X.length = j → ∃ Y : Bytes, Y.length = j ∧
    moveLoop j T.length A.length (A ++ X ++ T ++ S) = .ok (A ++ T ++ Y ++ S)
  | [], A, X, S, h => ⟨X, h, by simp [moveLoop]⟩
  | t :: T, A, X, S, h => by
    have hstep : ∃ X' : Bytes, X'.length = j ∧ (A ++ X ++ t :: T ++ S).set A.length t = (A ++ [t]) ++ X' ++ T ++ S := by
      rcases X with _ | ⟨x, X⟩
      · exact ⟨[], h, by simp⟩
      · exact ⟨X ++ [t], by simpa using h, by simp⟩
    have hget : (A ++ X ++ t :: T ++ S).getD (A.length + j) 0 = t := by
      have e : A ++ X ++ t :: T ++ S = (A ++ X) ++ (t :: (T ++ S)) := by simp
      rw [e, ← h, ← List.length_append, List.getD_eq_getElem?_getD, List.getElem?_append_right (Nat.le_refl _), Nat.sub_self]
      rfl
    obtain ⟨X', hX, hs⟩ := hstep
    obtain ⟨Y, hY, hm⟩ := moveLoop_spec j T (A ++ [t]) X' S hX
    refine ⟨Y, hY, ?_⟩
    rw [List.length_cons, moveLoop, if_pos (by simp; omega), hget, hs]
    rw [List.length_append] at hm
    rw [show A.length + 1 = A.length + [t].length from rfl, hm]
    simp

theorem number_zeros (Z T : Bytes) (h : ∀ c ∈ Z, c = 0x30) : number (Z ++ T) = number T := by
  rw [number_append]
  have : number Z = 0 := by
    induction Z with
    | nil => rfl
    | cons c Z ih =>
      have hc := h c (by simp)
      subst hc
      have e := number_append [0x30] Z
      rw [ih fun x hx => h x (by simp [hx])] at e
      exact e.trans (by rw [show number [0x30] = 0 from rfl]; simp)
  rw [this]
  omega

theorem toText_spec (n : Num) (str : Bytes) (hn : WF n) (hl : 129 ≤ str.length) : ∃ T R : Bytes,
    toText n str 128 = .ok (T ++ 0 :: R) ∧ Hex T ∧ T.head? ≠ some 0x30 ∧ number T = val n ∧ (T ++ 0 :: R).length = str.length := by
  have hr : n.reverse.length = 16 := by rw [List.length_reverse]; exact hn.1
  have h1 := toLoop_spec 128 n.reverse [] str (by rw [hr]; decide) (by rw [hr]; decide) (by rw [hr]; omega)
  rw [hr, List.nil_append, List.nil_append] at h1
  obtain ⟨Z, T, z1, z2, z3, z4⟩ := zeros_spec (digits n.reverse) (str.drop (8 * 16 + 1))
  have hlen : Z.length + T.length = 128 := by
    rw [← List.length_append, ← z1, digits_length, hr]
  obtain ⟨Y, y1, y2⟩ := moveLoop_spec Z.length T [] Z (0 :: str.drop (8 * 16 + 1)) rfl
  rw [List.nil_append, List.nil_append, ← z1] at y2
  have hx := digits_hex n.reverse
  have hnum := digits_number n hn.2
  rw [z1, number_zeros Z T z2] at hnum
  refine ⟨T, (Y ++ 0 :: str.drop (8 * 16 + 1)).drop 1, ?_, fun c hc => hx c (by rw [z1]; simp [hc]), z3, hnum, ?_⟩
  · unfold toText
    rw [if_neg (by decide), if_neg (by decide), show (128 : Int).toNat = 128 from rfl]
    rw [show ([] : Bytes).length = 0 from rfl] at h1 y2
    rw [h1, Out.bind, z4, Out.bind]
    dsimp only
    rw [show 128 - Z.length = T.length by omega, y2, Out.bind, memcpy_ok (by simp only [List.length_append, List.length_cons, List.length_nil]; omega)]
    rw [List.append_assoc T, List.take_left, List.drop_append, List.drop_eq_nil_of_le (by simp), List.nil_append]
    simp only [List.length_cons, List.length_nil, Nat.zero_add, Nat.add_sub_cancel_left]
    simp
  · simp only [List.length_append, List.length_cons, List.length_drop]; omega

end Verif.BnText
