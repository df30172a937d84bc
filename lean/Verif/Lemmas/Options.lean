import Verif.Spec.Options
/-
Helper lemmas about the command line.
-/
namespace Verif.Options
open Verif.Spec.Options
open Verif.Addr (Inet Sa)

/-! ### Hex -/

theorem nibble_iff (c : UInt8) (n : Nat) : Label.nibble c = some n ↔ Hex c n := by
  constructor
  · intro h
    unfold Label.nibble at h
    split at h
    · rename_i hc
      simp only [UInt8.le_iff_toNat_le, UInt8.reduceToNat] at hc
      injection h with h
      have : c = UInt8.ofNat (0x30 + n) := by
        rw [← h]; apply UInt8.toNat_inj.1; simp; omega
      rw [this]; exact .num n (by omega)
    · split at h
      · rename_i hc
        simp only [UInt8.le_iff_toNat_le, UInt8.reduceToNat] at hc
        injection h with h
        have : c = UInt8.ofNat (0x41 + (n - 10)) := by
          rw [← h]; apply UInt8.toNat_inj.1; simp; omega
        have e : n = 10 + (n - 10) := by omega
        rw [this]; conv => rhs; rw [e]
        exact .upper (n - 10) (by omega)
      · split at h
        · rename_i hc
          simp only [UInt8.le_iff_toNat_le, UInt8.reduceToNat] at hc
          injection h with h
          have : c = UInt8.ofNat (0x61 + (n - 10)) := by
            rw [← h]; apply UInt8.toNat_inj.1; simp; omega
          have e : n = 10 + (n - 10) := by omega
          rw [this]; conv => rhs; rw [e]
          exact .lower (n - 10) (by omega)
        · cases h
  · have e1 : ∀ d < 10, Label.nibble (UInt8.ofNat (0x30 + d)) = some d := by decide
    have e2 : ∀ d < 6, Label.nibble (UInt8.ofNat (0x41 + d)) = some (10 + d) := by decide
    have e3 : ∀ d < 6, Label.nibble (UInt8.ofNat (0x61 + d)) = some (10 + d) := by decide
    intro h
    cases h with
    | num d h => exact e1 _ h
    | upper d h => exact e2 _ h
    | lower d h => exact e3 _ h

theorem nibble_lt {c : UInt8} {n : Nat} (h : Label.nibble c = some n) : n < 16 := by
  cases (nibble_iff c n).1 h <;> omega

theorem hexDecode_iff (s r : Bytes) : Label.hexDecode s = some r ↔ HexText s r := by
  constructor
  · intro h
    induction s using Label.hexDecode.induct generalizing r with
    | case1 => simp only [Label.hexDecode, Option.some.injEq] at h; subst h; exact .nil
    | case2 => simp [Label.hexDecode] at h
    | case3 a b s x y hy hx ih =>
      simp only [Label.hexDecode, hx, hy] at h
      cases hd : Label.hexDecode s with
      | none => simp [hd] at h
      | some t =>
        simp only [hd, Option.map_some, Option.some.injEq] at h
        subst h
        rw [Nat.mul_comm x 16]
        exact .cons ((nibble_iff _ _).1 hx) ((nibble_iff _ _).1 hy) (ih t hd)
    | case4 a b s hn =>
      exfalso
      cases hx : Label.nibble a with
      | none => simp [Label.hexDecode, hx] at h
      | some x => cases hy : Label.nibble b with
        | none => simp [Label.hexDecode, hx, hy] at h
        | some y => exact hn x y hx hy
  · intro h
    induction h with
    | nil => rfl
    | cons ha hb _ ih =>
      simp only [Label.hexDecode, (nibble_iff _ _).2 ha, (nibble_iff _ _).2 hb, ih, Option.map_some, Nat.mul_comm]

theorem hexDecode_length {s r : Bytes} (h : Label.hexDecode s = some r) : s.length = 2 * r.length := by
  replace h := (hexDecode_iff s r).1 h
  induction h with
  | nil => rfl
  | cons _ _ _ ih => simp only [List.length_cons, ih]; omega

theorem join_nibbles : ∀ x < 16, ∀ y < 16, (UInt8.ofNat x <<< 4 ||| UInt8.ofNat y) = UInt8.ofNat (x * 16 + y) := by decide

theorem set_split (buf : Bytes) (p : Nat) (w : UInt8) (hp : p < buf.length) :
    (buf.set p w).take (p + 1) = buf.take p ++ [w] ∧ (buf.set p w).drop (p + 1) = buf.drop (p + 1) := by
  constructor
  · apply List.ext_getElem?
    intro i
    simp only [List.getElem?_take, List.getElem?_set, List.getElem?_append, List.length_take, List.getElem?_singleton]
    grind
  · rw [List.drop_set]; simp

theorem hexLoop_spec (s : Bytes) : ∀ (buf : Bytes) (p : Nat) (w : UInt8), p + s.length / 2 ≤ buf.length →
    hexLoop buf p w false s = match Label.hexDecode s with
      | some r => .ok (buf.take p ++ r ++ buf.drop (p + r.length))
      | none => .err () := by
  induction s using Label.hexDecode.induct with
  | case1 => intro buf p w _; simp [hexLoop, Label.hexDecode]
  | case2 c =>
    intro buf p w _
    simp only [hexLoop, Label.hexDecode]
    cases Label.nibble c <;> simp
  | case3 a b s x y hy hx ih =>
    intro buf p w hp
    simp only [List.length_cons] at hp
    have hp' : p < buf.length := by omega
    simp only [hexLoop, hx, hy, Label.hexDecode, Bool.false_eq_true, if_false, if_true, if_pos hp']
    rw [join_nibbles x (nibble_lt hx) y (nibble_lt hy), ih _ _ _ (by simp only [List.length_set]; omega)]
    obtain ⟨h1, h2⟩ := set_split buf p (UInt8.ofNat (x * 16 + y)) hp'
    cases Label.hexDecode s with
    | none => rfl
    | some r =>
      simp only [Option.map_some, List.length_cons]
      rw [h1, show p + 1 + r.length = (p + 1) + r.length from rfl, ← List.drop_drop, h2, List.drop_drop]
      simp [List.append_assoc, Nat.add_assoc, Nat.add_comm 1]
  | case4 a b s hn =>
    intro buf p w hp
    simp only [List.length_cons] at hp
    have hp' : p < buf.length := by omega
    cases hx : Label.nibble a with
    | none => simp [hexLoop, hx, Label.hexDecode]
    | some x => cases hy : Label.nibble b with
      | none => simp [hexLoop, hx, hy, Label.hexDecode]
      | some y => exact absurd hy (fun hy => hn x y hx hy)

/-- The key option. -/
theorem key_spec (buf s : Bytes) (hb : buf.length = 32) :
    (∀ k, k.length = 32 → HexText s k → key buf s = .ok k) ∧
    ((¬ ∃ k, k.length = 32 ∧ HexText s k) → key buf s = .err (.help 1)) := by
  constructor
  · intro k hk h
    have hd := (hexDecode_iff s k).2 h
    have hl := hexDecode_length hd
    unfold key hexDecodeSize
    rw [if_neg (by omega), hexLoop_spec s buf 0 0 (by omega), hd]
    simp [hk, hb]
  · intro hn
    unfold key hexDecodeSize
    split
    · rfl
    · rename_i h32
      rw [hexLoop_spec s buf 0 0 (by omega)]
      cases hd : Label.hexDecode s with
      | none => rfl
      | some r =>
        exfalso
        have hl := hexDecode_length hd
        exact hn ⟨r, by omega, (hexDecode_iff _ _).1 hd⟩

theorem hexChar_spec : ∀ n < 16, ∃ c, hexChar (UInt8.ofNat n) = some c ∧ Label.nibble c = some n := by decide

theorem hexEncode_spec (s : Bytes) : ∃ t, hexEncode s = some t ∧ t.length = 2 * s.length ∧ Label.hexDecode t = some s := by
  induction s with
  | nil => exact ⟨[], rfl, rfl, rfl⟩
  | cons b s ih =>
    obtain ⟨t, h1, h2, h3⟩ := ih
    have e1 : b >>> 4 = UInt8.ofNat (b.toNat / 16) := by
      apply UInt8.toNat_inj.1
      have := b.toNat_lt
      simp [Nat.shiftRight_eq_div_pow]; omega
    have e2 : b &&& 15 = UInt8.ofNat (b.toNat % 16) := by
      apply UInt8.toNat_inj.1
      simp only [UInt8.toNat_and, UInt8.reduceToNat, UInt8.toNat_ofNat']
      rw [show (15 : Nat) = 2 ^ 4 - 1 from rfl, Nat.and_two_pow_sub_one_eq_mod]; omega
    have := b.toNat_lt
    obtain ⟨x, hx, hx'⟩ := hexChar_spec (b.toNat / 16) (by omega)
    obtain ⟨y, hy, hy'⟩ := hexChar_spec (b.toNat % 16) (by omega)
    refine ⟨x :: y :: t, ?_, by simp only [List.length_cons, h2]; omega, ?_⟩
    · simp only [hexEncode, e1, e2, hx, hy, h1, Option.map_some]
    · simp only [Label.hexDecode, hx', hy', h3, Option.map_some, Option.some.injEq, List.cons.injEq, and_true]
      rw [show b.toNat / 16 * 16 + b.toNat % 16 = b.toNat by omega]; simp

/-! ### Numbers -/

theorem isSpace_iff (c : UInt8) : isSpace c = true ↔ isBlank c := by
  simp only [isSpace, isBlank, Bool.or_eq_true, beq_iff_eq, Bool.and_eq_true, decide_eq_true_eq, UInt8.le_iff_toNat_le, UInt8.reduceToNat]

/-- The number `atoi` computes. -/
def atoiVal (s : Bytes) : Int := signed (s.dropWhile isSpace)

theorem atoi_eq (s : Bytes) : atoi s = if -2 ^ 31 ≤ atoiVal s ∧ atoiVal s < 2 ^ 31 then .ok (atoiVal s) else .ub := rfl

theorem digits_split (s : Bytes) : ∀ n, ∃ ds rest, s = ds ++ rest ∧ (∀ c ∈ ds, isDigit c) ∧ (∀ c, rest.head? = some c → ¬ isDigit c) ∧
    digits n s = ds.foldl (fun n c => 10 * n + (c.toNat - 0x30)) n := by
  induction s with
  | nil => intro n; exact ⟨[], [], rfl, by simp, by simp, rfl⟩
  | cons c s ih =>
    intro n
    by_cases hc : 0x30 ≤ c ∧ c ≤ 0x39
    · obtain ⟨ds, rest, h1, h2, h3, h4⟩ := ih (10 * n + (c.toNat - 0x30))
      refine ⟨c :: ds, rest, by rw [h1]; rfl, ?_, h3, by simp only [digits, if_pos hc, h4, List.foldl_cons]⟩
      intro d hd
      rcases List.mem_cons.1 hd with rfl | hd
      · simpa only [isDigit, UInt8.le_iff_toNat_le, UInt8.reduceToNat] using hc
      · exact h2 d hd
    · refine ⟨[], c :: s, rfl, by simp, ?_, by simp only [digits, if_neg hc, List.foldl_nil]⟩
      intro d hd
      simp only [List.head?_cons, Option.some.injEq] at hd
      subst hd
      simpa only [isDigit, UInt8.le_iff_toNat_le, UInt8.reduceToNat] using hc

theorem digits_of (ds rest : Bytes) (h : ∀ c ∈ ds, isDigit c) (hr : ∀ c, rest.head? = some c → ¬ isDigit c) (n : Nat) :
    digits n (ds ++ rest) = ds.foldl (fun n c => 10 * n + (c.toNat - 0x30)) n := by
  induction ds generalizing n with
  | nil =>
    cases rest with
    | nil => rfl
    | cons c r =>
      have := hr c rfl
      simp only [List.nil_append, digits, List.foldl_nil]
      rw [if_neg (by simpa only [isDigit, UInt8.le_iff_toNat_le, UInt8.reduceToNat] using this)]
  | cons c ds ih =>
    have hc := h c (by simp)
    simp only [List.cons_append, digits, List.foldl_cons]
    rw [if_pos (by simpa only [isDigit, UInt8.le_iff_toNat_le, UInt8.reduceToNat] using hc)]
    exact ih (fun d hd => h d (by simp [hd])) _

theorem digit_not {c : UInt8} (h : isDigit c) : ¬ isBlank c ∧ c ≠ 0x2b ∧ c ≠ 0x2d := by
  unfold isDigit at h
  refine ⟨?_, ?_, ?_⟩
  · rintro (rfl | ⟨_, h'⟩)
    · simp at h
    · omega
  · rintro rfl; simp at h
  · rintro rfl; simp at h

theorem dropWhile_blanks (b t : Bytes) (hb : ∀ c ∈ b, isBlank c) (ht : ∀ c, t.head? = some c → ¬ isBlank c) :
    (b ++ t).dropWhile isSpace = t := by
  induction b with
  | nil =>
    cases t with
    | nil => rfl
    | cons c t =>
      have := ht c rfl
      rw [← isSpace_iff] at this
      simp [List.dropWhile_cons, this]
  | cons c b ih =>
    have := (isSpace_iff c).2 (hb c (by simp))
    simp only [List.cons_append, List.dropWhile_cons, this, if_true]
    exact ih (fun d hd => hb d (by simp [hd]))

theorem plain_val (t : Bytes) (h : ∀ c, t.head? = some c → c ≠ 0x2b ∧ c ≠ 0x2d) : signed t = (digits 0 t : Int) := by
  unfold signed
  rw [if_neg (fun e => (h _ e).2 rfl), if_neg (fun e => (h _ e).1 rfl)]

theorem number_val {s : Bytes} {v : Int} (h : Number s v) : v = atoiVal s := by
  obtain ⟨b, sign, ds, rest, hs, hb, hsign, hd, hr, hn, hv⟩ := h.parts
  subst hs
  unfold atoiVal
  have hval : digits 0 (ds ++ rest) = value ds := digits_of ds rest hd hr 0
  rcases hsign with rfl | rfl | rfl
  · have hh : ∀ c, (ds ++ rest).head? = some c → ¬ isBlank c ∧ c ≠ 0x2b ∧ c ≠ 0x2d := by
      intro c hc
      cases ds with
      | nil => exact hn rfl rfl c hc
      | cons d ds =>
        simp only [List.cons_append, List.head?_cons, Option.some.injEq] at hc
        subst hc
        exact digit_not (hd d (by simp))
    rw [List.append_nil, List.append_assoc, dropWhile_blanks b _ hb (fun c hc => (hh c hc).1), plain_val _ (fun c hc => (hh c hc).2), hval, hv]
    simp
  · rw [List.append_assoc, List.append_assoc, dropWhile_blanks b _ hb (by simp [isBlank])]
    simp only [List.cons_append, List.nil_append, signed, List.head?_cons, List.tail_cons]
    rw [hval, hv]; simp
  · rw [List.append_assoc, List.append_assoc, dropWhile_blanks b _ hb (by simp [isBlank])]
    simp only [List.cons_append, List.nil_append, signed, List.head?_cons, List.tail_cons]
    rw [hval, hv]; simp

theorem number_exists (s : Bytes) : Number s (atoiVal s) := by
  have hs : s = s.takeWhile isSpace ++ s.dropWhile isSpace := (List.takeWhile_append_dropWhile).symm
  have hb : ∀ c ∈ s.takeWhile isSpace, isBlank c := by
    intro c hc
    have := List.all_takeWhile (p := isSpace) (l := s)
    exact (isSpace_iff c).1 (List.all_eq_true.1 this c hc)
  have hd : ∀ c, (s.dropWhile isSpace).head? = some c → ¬ isBlank c := by
    intro c hc hbl
    have := (isSpace_iff c).2 hbl
    have := List.head?_dropWhile_not isSpace s
    rw [hc] at this
    simp_all
  unfold atoiVal
  generalize s.dropWhile isSpace = t at hs hd
  generalize s.takeWhile isSpace = b at hs hb
  subst hs
  constructor
  by_cases c1 : t.head? = some 0x2d
  · obtain ⟨t, rfl⟩ : ∃ u, t = 0x2d :: u := by cases t <;> simp_all
    obtain ⟨ds, rest, h1, h2, h3, h4⟩ := digits_split t 0
    exact ⟨b, [0x2d], ds, rest, by simp [h1], hb, by simp, h2, h3, by simp, by simp [signed, h4, value]⟩
  · by_cases c2 : t.head? = some 0x2b
    · obtain ⟨t, rfl⟩ : ∃ u, t = 0x2b :: u := by cases t <;> simp_all
      obtain ⟨ds, rest, h1, h2, h3, h4⟩ := digits_split t 0
      exact ⟨b, [0x2b], ds, rest, by simp [h1], hb, by simp, h2, h3, by simp, by simp [signed, h4, value]⟩
    · obtain ⟨ds, rest, h1, h2, h3, h4⟩ := digits_split t 0
      refine ⟨b, [], ds, rest, by simp [h1], hb, by simp, h2, h3, ?_, by simp [signed, c1, c2, h4, value]⟩
      rintro - rfl c hc
      simp only [List.nil_append] at h1
      subst h1
      refine ⟨hd c hc, ?_, ?_⟩
      · rintro rfl; exact c2 hc
      · rintro rfl; exact c1 hc

/-- The option of the pool's size. -/
theorem size_spec (s : Bytes) (hv : ∀ v : Int, Number s v → -2 ^ 31 ≤ v ∧ v < 2 ^ 31) :
    (∀ v : Int, Number s v → 1 ≤ v → v ≤ 1000 → size s = .ok v) ∧
    ((¬ ∃ v : Int, Number s v ∧ 1 ≤ v ∧ v ≤ 1000) → size s = .err (.help 1)) := by
  have hr := hv _ (number_exists s)
  constructor
  · intro v h h1 h2
    have e := number_val h
    unfold size
    rw [atoi_eq, if_pos hr, ← e]
    simp only
    rw [if_neg (by omega)]
  · intro hn
    unfold size
    rw [atoi_eq, if_pos hr]
    simp only
    rw [if_pos]
    by_cases h1 : 0 < atoiVal s
    · by_cases h2 : 1000 < atoiVal s
      · exact Or.inr h2
      · exact absurd ⟨_, number_exists s, h1, by omega⟩ hn
    · exact Or.inl (by omega)

end Verif.Options
