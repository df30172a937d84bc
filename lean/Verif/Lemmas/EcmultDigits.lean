import Verif.Spec.Ecmult
import Verif.Lemmas.Scalar64Bits
import Mathlib.Tactic.Linarith
import Mathlib.Tactic.Ring
/-
The digits of ecmult_wnaf (Model/Ecmult).
-/
namespace Verif.Lemmas.EcmultDigits
open Verif Verif.Ecmult Verif.Scalar64 Verif.Spec.Scalar64 Verif.Lemmas.Scalar64 Verif.Spec.Secp Verif.Spec.Ecmult

theorem value_zeros (k : Nat) (l : List Int) : value (List.replicate k 0 ++ l) = 2 ^ k * value l := by
  induction k with
  | zero => simp
  | succ k ih => rw [List.replicate_succ, List.cons_append, value, ih, pow_succ]; ring

theorem loop_zero {w : Nat} {s : Sc} {sign : Int} {fuel bit carry last : Nat} {t : List Int × Nat} (h : bit < 256) (hb : getBits s bit 1 = carry)
    (e : t = wnafLoop w s sign fuel (bit + 1) carry last) : wnafLoop w s sign (fuel + 1) bit carry last = (0 :: t.1, t.2) := by
  rw [wnafLoop, if_pos h, if_pos hb, e]

theorem loop_word {w : Nat} {s : Sc} {sign : Int} {fuel bit carry last now word c : Nat} {t : List Int × Nat} (h : bit < 256) (hb : getBits s bit 1 ≠ carry)
    (e1 : now = if w > 256 - bit then 256 - bit else w) (e2 : word = getBitsVar s bit now + carry) (e3 : c = (word >>> (w - 1)) &&& 1)
    (e : t = wnafLoop w s sign fuel (bit + now) c (bit + 1)) :
    wnafLoop w s sign (fuel + 1) bit carry last = ((sign * ((word : Int) - (c <<< w : Nat))) :: (List.replicate (now - 1) 0 ++ t.1), t.2) := by
  subst e1 e2 e3 e
  rw [wnafLoop, if_pos h, if_neg hb]

theorem loop_end {w : Nat} {s : Sc} {sign : Int} {fuel bit carry last : Nat} (h : ¬ bit < 256) : wnafLoop w s sign fuel bit carry last = ([], last) := by
  cases fuel with
  | zero => rfl
  | succ fuel => rw [wnafLoop, if_neg h]

/-- What the digits from `bit` on are. -/
def Good (w : Nat) (bit last : Nat) (v : Int) (t : List Int × Nat) : Prop :=
  t.1.length = 256 - bit ∧ (∀ d ∈ t.1, Digit w d) ∧ value t.1 = v ∧ t.2 ≤ 256 ∧ last ≤ t.2 ∧ ∀ j d, t.1[j]? = some d → t.2 ≤ bit + j → d = 0

theorem loop_spec {w : Nat} (hw : 2 ≤ w) (hw' : w ≤ 31) {s : Sc} (hs : Words s) (h255 : val s < 2 ^ 255) {sign : Int} (hg : sign = 1 ∨ sign = -1) :
    ∀ (fuel bit carry last : Nat), 256 ≤ fuel + bit → bit ≤ 256 → carry ≤ 1 → (bit = 256 → carry = 0) → last ≤ bit →
    Good w bit last (sign * ((val s / 2 ^ bit + carry : Nat) : Int)) (wnafLoop w s sign fuel bit carry last) := by
  intro fuel
  induction fuel with
  | zero =>
    intro bit carry last h1 h2 h3 h4 h5
    have e : bit = 256 := by omega
    subst e
    rw [loop_end (by omega), h4 rfl, Nat.div_eq_of_lt (Nat.lt_trans h255 (by decide))]
    exact ⟨rfl, by simp, by simp [value], h5, Nat.le_refl _, by simp⟩
  | succ fuel ih =>
    intro bit carry last h1 h2 h3 h4 h5
    by_cases hb : bit < 256
    swap
    · have e : bit = 256 := by omega
      subst e
      rw [loop_end hb, h4 rfl, Nat.div_eq_of_lt (Nat.lt_trans h255 (by decide))]
      exact ⟨rfl, by simp, by simp [value], h5, Nat.le_refl _, by simp⟩
    have hbit := getBits_val hs (o := bit) (c := 1) (by decide) (by decide) (by omega) (by rw [Nat.add_sub_cancel])
    rw [pow_one] at hbit
    have hq : val s / 2 ^ bit = 2 * (val s / 2 ^ (bit + 1)) + val s / 2 ^ bit % 2 := by
      rw [pow_succ, ← Nat.div_div_eq_div_mul]; omega
    have htop : bit = 255 → val s / 2 ^ bit = 0 := by
      intro e; subst e; exact Nat.div_eq_of_lt h255
    by_cases hc : getBits s bit 1 = carry
    · obtain ⟨t, et⟩ : ∃ t, t = wnafLoop w s sign fuel (bit + 1) carry last := ⟨_, rfl⟩
      rw [loop_zero hb hc et]
      obtain ⟨a1, a2, a3, a4, a5, a6⟩ := ih (bit + 1) carry last (by omega) (by omega) h3 (by
        intro e; have := htop (by omega); rw [hbit, this] at hc; omega) (by omega)
      rw [← et] at a1 a2 a3 a4 a5 a6
      refine ⟨by rw [List.length_cons, a1]; omega, ?_, ?_, a4, a5, ?_⟩
      · intro d hd
        rcases List.mem_cons.1 hd with e | e
        · exact Or.inl e
        · exact a2 d e
      · show 0 + 2 * value t.1 = _
        rw [a3, hq, ← hbit, hc]; push_cast; ring
      · intro j d hj hl
        match j, hj with
        | 0, hj => exact (Option.some.inj hj).symm
        | j + 1, hj => exact a6 j d hj (by omega)
    · obtain ⟨now, e1⟩ : ∃ now, now = if w > 256 - bit then 256 - bit else w := ⟨_, rfl⟩
      have hn : 1 ≤ now ∧ now ≤ w ∧ bit + now ≤ 256 ∧ (now < w → bit + now = 256) := by split at e1 <;> omega
      obtain ⟨n1, n2, n3, n4⟩ := hn
      obtain ⟨word, e2⟩ : ∃ word, word = getBitsVar s bit now + carry := ⟨_, rfl⟩
      obtain ⟨c, e3⟩ : ∃ c, c = (word >>> (w - 1)) &&& 1 := ⟨_, rfl⟩
      obtain ⟨t, et⟩ : ∃ t, t = wnafLoop w s sign fuel (bit + now) c (bit + 1) := ⟨_, rfl⟩
      rw [loop_word hb hc e1 e2 e3 et]
      have hv := getBitsVar_val hs (o := bit) (c := now) n1 (by omega) n3
      rw [hv] at e2
      -- the word
      obtain ⟨q, hq'⟩ : ∃ q, q = val s / 2 ^ bit := ⟨_, rfl⟩
      rw [← hq'] at e2 hbit hq htop
      have hp0 : 0 < 2 ^ now := Nat.two_pow_pos now
      have hdm : q = 2 ^ now * (q / 2 ^ now) + q % 2 ^ now := (Nat.div_add_mod _ _).symm
      have hmod : q % 2 ^ now < 2 ^ now := Nat.mod_lt _ hp0
      have heven : ∃ m, 2 ^ now = 2 * m ∧ m = 2 ^ (now - 1) := ⟨2 ^ (now - 1), by rw [← pow_succ']; congr 1; omega, rfl⟩
      obtain ⟨m, hm, hm'⟩ := heven
      have hodd2 : q % 2 ^ now % 2 = q % 2 := by rw [hm, Nat.mod_mul_right_mod]
      have hwodd : word % 2 = 1 := by
        have : getBits s bit 1 < 2 := by rw [hbit]; exact Nat.mod_lt _ (by decide)
        rw [e2]; omega
      obtain ⟨W, hW⟩ : ∃ W, W = 2 ^ (w - 1) := ⟨_, rfl⟩
      have hWe : ∃ V, W = 2 * V ∧ 0 < V := ⟨2 ^ (w - 2), by rw [hW, ← pow_succ']; congr 1; omega, Nat.two_pow_pos _⟩
      obtain ⟨V, hV, hV0⟩ := hWe
      have h2W : 2 ^ w = 2 * W := by rw [hW, ← pow_succ']; congr 1; omega
      have hmW : m ≤ W := by rw [hm', hW]; exact Nat.pow_le_pow_right (by decide) (by omega)
      -- the last window
      have hlast : bit + now = 256 → q < m := by
        intro e
        rw [hq', hm', Nat.div_lt_iff_lt_mul (Nat.two_pow_pos _), ← pow_add, show now - 1 + bit = 255 by omega]
        exact h255
      have hwlt : word < 2 * W := by
        have : word ≤ 2 * m := by omega
        omega
      have hc' : c = word / W := by
        rw [e3, Nat.and_one_is_mod, Nat.shiftRight_eq_div_pow, ← hW, Nat.mod_eq_of_lt]
        rw [Nat.div_lt_iff_lt_mul (by omega)]; omega
      have hcase : (c = 0 ∧ word < W) ∨ (c = 1 ∧ W ≤ word) := by
        rcases Nat.lt_or_ge word W with h | h
        · left; exact ⟨by rw [hc']; exact Nat.div_eq_of_lt h, h⟩
        · right
          refine ⟨?_, h⟩
          rw [hc', Nat.div_eq_iff (by omega)]; omega
      have hfin : bit + now = 256 → c = 0 := by
        intro e
        have hqm := hlast e
        have : q % 2 ^ now = q := Nat.mod_eq_of_lt (by omega)
        rcases hcase with h | h
        · exact h.1
        · omega
      have hnw : c = 1 → now = w := by
        intro h
        by_cases hlt : now < w
        · have := hfin (n4 hlt); omega
        · omega
      obtain ⟨a1, a2, a3, a4, a5, a6⟩ := ih (bit + now) c (bit + 1) (by omega) n3 (by omega) hfin (by omega)
      rw [← et] at a1 a2 a3 a4 a5 a6
      have hsh : ((c <<< w : Nat) : Int) = (c : Int) * (2 * (W : Int)) := by
        rw [Nat.shiftLeft_eq, h2W]; push_cast; ring
      rw [hsh]
      refine ⟨?_, ?_, ?_, a4, by omega, ?_⟩
      · rw [List.length_cons, List.length_append, List.length_replicate, a1]; omega
      · intro d hd
        rcases List.mem_cons.1 hd with e | e
        · subst e
          right
          have hWi : (2 : Int) ^ (w - 1) = (W : Int) := by rw [hW]; push_cast; rfl
          rw [hWi]
          rcases hcase with ⟨h, h'⟩ | ⟨h, h'⟩ <;> rw [h] <;> rcases hg with e | e <;> rw [e] <;> omega
        · rcases List.mem_append.1 e with e | e
          · exact Or.inl (List.eq_of_mem_replicate e)
          · exact a2 d e
      · show _ + 2 * value (List.replicate (now - 1) 0 ++ t.1) = _
        have e5 : val s / 2 ^ (bit + now) = q / 2 ^ now := by rw [hq', Nat.div_div_eq_div_mul, ← pow_add]
        rw [value_zeros, a3, e5, ← hq']
        have hmi : (2 : Int) ^ (now - 1) = (m : Int) := by rw [hm']; push_cast; rfl
        rw [hmi, e2]
        have hqi : (q : Int) = 2 * (m : Int) * ((q / 2 ^ now : Nat) : Int) + ((q % 2 ^ now : Nat) : Int) := by
          have : ((q : Nat) : Int) = ((2 ^ now * (q / 2 ^ now) + q % 2 ^ now : Nat) : Int) := congrArg _ hdm
          rw [hm] at this ⊢
          push_cast at this ⊢
          linarith
        have hcm : (c : Int) * (2 * (W : Int)) = (c : Int) * (2 * (m : Int)) := by
          rcases hcase with ⟨h, -⟩ | ⟨h, -⟩
          · rw [h]; ring
          · have : m = W := by rw [hm', hW, hnw h]
            rw [this]
        generalize q / 2 ^ now = a at hqi ⊢
        generalize q % 2 ^ now = b at hqi ⊢
        push_cast
        rw [hqi, hcm]
        ring
      · intro j d hj hl
        match j, hj with
        | 0, hj => exact absurd hl (by omega)
        | j + 1, hj =>
          have hj : (List.replicate (now - 1) 0 ++ t.1)[j]? = some d := hj
          rcases Nat.lt_or_ge j (now - 1) with h | h
          · rw [List.getElem?_append_left (by rw [List.length_replicate]; exact h), List.getElem?_replicate, if_pos h] at hj
            exact (Option.some.inj hj).symm
          · rw [List.getElem?_append_right (by rw [List.length_replicate]; exact h), List.length_replicate] at hj
            exact a6 _ d hj (by omega)

/-- The digits of a residue write it, up to a multiple of the order. -/
theorem wnaf_spec {w : Nat} (hw : 2 ≤ w) (hw' : w ≤ 31) {a : Sc} {x : ZMod n} (ha : Holds a x) :
    (wnaf w a).1.length = 256 ∧ (∀ d ∈ (wnaf w a).1, Digit w d) ∧ (value (wnaf w a).1 = x.val ∨ value (wnaf w a).1 = x.val - n) ∧ (wnaf w a).2 ≤ 256 ∧
      ∀ j d, (wnaf w a).1[j]? = some d → (wnaf w a).2 ≤ j → d = 0 := by
  have hx : x.val < n := ZMod.val_lt x
  have hn : n < 2 ^ 256 := by decide
  have hb := getBits_val ha.1 (o := 255) (c := 1) (by decide) (by decide) (by decide) (by decide)
  rw [wnaf]
  by_cases h : getBits a 255 1 ≠ 0
  · rw [if_pos h]
    rw [hb, ha.2] at h
    have hx2 : 2 ^ 255 ≤ x.val := by
      rcases Nat.lt_or_ge x.val (2 ^ 255) with h' | h'
      · rw [Nat.div_eq_of_lt h'] at h; simp at h
      · exact h'
    have hne : x ≠ 0 := by intro e; rw [e, ZMod.val_zero] at hx2; exact absurd hx2 (by decide)
    have : NeZero x := ⟨hne⟩
    have hng := holds_negate ha
    have hv : val (negate a) = n - x.val := by rw [hng.2, ZMod.val_neg_of_ne_zero]
    obtain ⟨a1, a2, a3, a4, -, a6⟩ := loop_spec hw hw' hng.1 (by rw [hv]; have : n < 2 ^ 255 + 2 ^ 255 := by decide
                                                                 omega) (Or.inr rfl) 256 0 0 0 (by decide) (by decide) (by decide) (by decide) (by decide)
    refine ⟨a1, a2, Or.inr ?_, a4, fun j d hj hl => a6 j d hj (by omega)⟩
    rw [a3, hv, pow_zero, Nat.div_one]; omega
  · rw [if_neg h]
    rw [hb, ha.2] at h
    have hx2 : x.val < 2 ^ 255 := by
      rcases Nat.lt_or_ge x.val (2 ^ 255) with h' | h'
      · exact h'
      · exfalso
        apply h
        have : x.val / 2 ^ 255 = 1 := by
          rw [Nat.div_eq_iff (by decide)]
          have : n < 2 ^ 255 + 2 ^ 255 := by decide
          omega
        rw [this]; decide
    obtain ⟨a1, a2, a3, a4, -, a6⟩ := loop_spec hw hw' ha.1 (by rw [ha.2]; exact hx2) (Or.inl rfl) 256 0 0 0 (by decide) (by decide) (by decide) (by decide) (by decide)
    refine ⟨a1, a2, Or.inl ?_, a4, fun j d hj hl => a6 j d hj (by omega)⟩
    rw [a3, ha.2, pow_zero, Nat.div_one]; omega

end Verif.Lemmas.EcmultDigits
