import Verif.Model.Sanitize
import Verif.Spec.Sanitize
import Verif.Lemmas.Words
namespace Verif.Sanitize
open Verif.Words Verif.Spec.Sanitize

theorem fill (P R w : Bytes) (i : Nat) (hi : i = P.length) (h : w.length ≤ R.length) : memcpy (P ++ R) i w = .ok ((P ++ w) ++ R.drop w.length) := by
  subst hi
  rw [memcpy_ok (by rw [List.length_append]; omega), List.take_left, List.drop_append, List.drop_eq_nil_of_le (by omega), List.nil_append,
    show P.length + w.length - P.length = w.length by omega]

theorem piece_length (c : UInt8) : 1 ≤ (piece c).length ∧ (piece c).length ≤ 4 := by
  unfold piece
  dsimp only
  repeat' split
  all_goals simp

theorem loop_spec : ∀ (s P R : Bytes), P.length + (s.flatMap piece).length ≤ 1009 → P.length + R.length = 1010 →
    loop s P.length (P ++ R) = .ok ((P ++ s.flatMap piece) ++ 0 :: R.drop ((s.flatMap piece).length + 1))
  | [], P, R, h, hr => by
    rw [loop, fill P R [0] _ rfl (by simp; simp at h; omega)]
    simp
  | c :: s, P, R, h, hr => by
    have hp := piece_length c
    rw [List.flatMap_cons, List.length_append] at h
    rw [loop, if_pos (by omega), fill P R _ _ rfl (by omega)]
    dsimp only [Out.bind]
    have hl : P.length + (piece c).length = (P ++ piece c).length := by rw [List.length_append]
    rw [hl, loop_spec s (P ++ piece c) (R.drop (piece c).length) (by rw [List.length_append]; omega) (by rw [List.length_append, List.length_drop]; omega),
      List.flatMap_cons, List.append_assoc P, List.drop_drop, List.length_append, Nat.add_assoc]

/-- No piece has a NUL. -/
theorem piece_ne (c : UInt8) : ∀ b ∈ piece c, b ≠ 0 := by
  have : ∀ n < 256, ∀ b ∈ piece (UInt8.ofNat n), b ≠ 0 := by decide +kernel
  have := this c.toNat c.toNat_lt
  rwa [UInt8.ofNat_toNat] at this

theorem text_eq (t R : Bytes) (h : ∀ b ∈ t, b ≠ 0) : text (t ++ 0 :: R) = t := by
  unfold text
  rw [List.takeWhile_append_of_pos (by simpa using h)]
  simp

/-- The character for an octet. -/
def enc (b : UInt8) : UInt8 := if b = 0x2e then 0xfe else if b = 0 then 0xff else b

/-- What is written for an octet below 127. -/
theorem shape (b : UInt8) (h : b < 127) : (piece (enc b) = [b] ∧ b ≠ 0x5c ∧ b ≠ 0x2e) ∨ (piece (enc b) = [0x5c, b] ∧ digit b = none) ∨
    (∃ x y z n m k, piece (enc b) = [0x5c, x, y, z] ∧ digit x = some n ∧ digit y = some m ∧ digit z = some k ∧ 100 * n + 10 * m + k < 256 ∧
      b = UInt8.ofNat (100 * n + 10 * m + k)) := by
  have : ∀ n < 127, (piece (enc (UInt8.ofNat n)) = [UInt8.ofNat n] ∧ UInt8.ofNat n ≠ 0x5c ∧ UInt8.ofNat n ≠ 0x2e) ∨
      (piece (enc (UInt8.ofNat n)) = [0x5c, UInt8.ofNat n] ∧ digit (UInt8.ofNat n) = none) ∨
      (piece (enc (UInt8.ofNat n)) = [0x5c, 0x30, UInt8.ofNat (n / 10 + 0x30), UInt8.ofNat (n % 10 + 0x30)] ∧ digit (UInt8.ofNat (n / 10 + 0x30)) = some (n / 10) ∧
        digit (UInt8.ofNat (n % 10 + 0x30)) = some (n % 10)) := by decide +kernel
  have hn : b.toNat < 127 := h
  have := this b.toNat hn
  rw [UInt8.ofNat_toNat] at this
  rcases this with h1 | h1 | ⟨h1, h2, h3⟩
  · exact .inl h1
  · exact .inr (.inl h1)
  · refine .inr (.inr ⟨_, _, _, 0, b.toNat / 10, b.toNat % 10, h1, rfl, h2, h3, by omega, ?_⟩)
    rw [show 100 * 0 + 10 * (b.toNat / 10) + b.toNat % 10 = b.toNat by omega, UInt8.ofNat_toNat]

theorem one_piece (b : UInt8) (h : b < 127) (r : Bytes) : ∃ c t, piece (enc b) ++ r = c :: t ∧ one c t = some (Tok.octet b, r) := by
  rcases shape b h with ⟨e, h1, h2⟩ | ⟨e, h1⟩ | ⟨x, y, z, n, m, k, e, hx, hy, hz, hlt, hb⟩
  · refine ⟨b, r, by rw [e]; rfl, ?_⟩
    unfold one
    rw [if_neg h1, if_neg h2]
  · refine ⟨0x5c, b :: r, by rw [e]; rfl, ?_⟩
    unfold one
    rw [if_pos rfl]
    dsimp only
    rw [h1]
  · refine ⟨0x5c, x :: y :: z :: r, by rw [e]; rfl, ?_⟩
    unfold one
    rw [if_pos rfl]
    dsimp only
    rw [hx]
    dsimp only
    rw [hy, hz]
    dsimp only
    rw [if_pos hlt, ← hb]

theorem toks_piece (f : Nat) (b : UInt8) (h : b < 127) (r : Bytes) : toks (f + 1) (piece (enc b) ++ r) = (toks f r).map (Tok.octet b :: ·) := by
  obtain ⟨c, t, e, ho⟩ := one_piece b h r
  rw [e, toks, ho]
  rfl

theorem toks_label (l : Bytes) (h : ∀ b ∈ l, b < 127) (r : Bytes) : ∀ f, toks (f + l.length) ((l.map enc).flatMap piece ++ r) = (toks f r).map (l.map Tok.octet ++ ·) := by
  induction l with
  | nil => intro f; simp
  | cons b l ih =>
    intro f
    rw [List.map_cons, List.flatMap_cons, List.append_assoc, List.length_cons, ← Nat.add_assoc, toks_piece _ b (h b (by simp)),
      ih (fun b hb => h b (by simp [hb])), Option.map_map]
    rfl

theorem toks_spelled (labels : List Bytes) (h : ∀ l ∈ labels, ∀ b ∈ l, b < 127) :
    ∀ f, toks (f + (labels.map fun l => l.length + 1).sum) ((held labels).flatMap piece) = some (spelled labels) := by
  induction labels with
  | nil => intro f; cases f <;> rfl
  | cons l ls ih =>
    intro f
    have e1 : (held (l :: ls)).flatMap piece = (l.map enc).flatMap piece ++ (0x2e :: (held ls).flatMap piece) := by
      unfold held
      rw [List.flatMap_cons, List.flatMap_append, List.flatMap_append, List.append_assoc]
      rfl
    have e2 : spelled (l :: ls) = l.map Tok.octet ++ (Tok.dot :: spelled ls) := by
      unfold spelled
      rw [List.flatMap_cons, List.append_assoc]
      rfl
    rw [e1, e2, List.map_cons, List.sum_cons, show f + (l.length + 1 + (ls.map fun l => l.length + 1).sum) = (f + (ls.map fun l => l.length + 1).sum + 1) + l.length by omega,
      toks_label l (h l (by simp)), toks, show one 0x2e ((held ls).flatMap piece) = some (Tok.dot, (held ls).flatMap piece) from rfl]
    dsimp only [Option.bind]
    rw [ih (fun l hl => h l (by simp [hl]))]
    rfl

theorem pieces_length (labels : List Bytes) : ((held labels).flatMap piece).length ≤ 4 * (labels.map List.length).sum + labels.length ∧
    (labels.map fun l => l.length + 1).sum ≤ ((held labels).flatMap piece).length ∧
    (labels.map fun l => l.length + 1).sum = (labels.map List.length).sum + labels.length := by
  have hm : ∀ s : Bytes, (s.flatMap piece).length ≤ 4 * s.length ∧ s.length ≤ (s.flatMap piece).length := by
    intro s
    induction s with
    | nil => simp
    | cons c s ih =>
      have := piece_length c
      rw [List.flatMap_cons, List.length_append, List.length_cons]
      omega
  induction labels with
  | nil => simp [held]
  | cons l ls ih =>
    have e1 : (held (l :: ls)).flatMap piece = (l.map enc).flatMap piece ++ (0x2e :: (held ls).flatMap piece) := by
      unfold held
      rw [List.flatMap_cons, List.flatMap_append, List.flatMap_append, List.append_assoc]
      rfl
    have := hm (l.map enc)
    rw [List.length_map] at this
    rw [e1, List.length_append, List.length_cons, List.map_cons, List.map_cons, List.sum_cons, List.sum_cons, List.length_cons]
    omega

theorem fits_length (labels : List Bytes) (h : Fits labels) : ((held labels).flatMap piece).length ≤ 1009 := by
  obtain ⟨h1, h2, h3⟩ := pieces_length labels
  have hs : (labels.map List.length).sum ≤ 63 * labels.length := by
    have := h.1
    clear h h1 h2 h3
    induction labels with
    | nil => simp
    | cons l ls ih =>
      have a := this l (by simp)
      have b := ih (fun l hl => this l (by simp [hl]))
      rw [List.map_cons, List.sum_cons, List.length_cons]
      omega
  have := h.2
  omega

theorem sanitize_spec (labels : List Bytes) (hf : Fits labels) (out : Bytes) (ho : out.length = 1010) :
    ∃ out', sanitize (held labels) out = .ok out' ∧ text out' = (held labels).flatMap piece := by
  have := loop_spec (held labels) [] out (by rw [List.length_nil]; have := fits_length labels hf; omega) (by rw [ho]; rfl)
  rw [List.nil_append, List.nil_append] at this
  refine ⟨_, this, text_eq _ _ ?_⟩
  intro b hb
  rw [List.mem_flatMap] at hb
  obtain ⟨c, _, hb⟩ := hb
  exact piece_ne c b hb

theorem toks_mono : ∀ (f : Nat) (t : Bytes) (x : List Tok), toks f t = some x → ∀ g, f ≤ g → toks g t = some x := by
  intro f
  induction f with
  | zero =>
    intro t x h g _
    cases t with
    | nil => rw [toks] at h; cases g <;> (rw [toks]; exact h)
    | cons c t => simp [toks] at h
  | succ f ih =>
    intro t x h g hg
    obtain ⟨g, rfl⟩ : ∃ k, g = k + 1 := ⟨g - 1, by omega⟩
    cases t with
    | nil => rw [toks] at h ⊢; exact h
    | cons c t =>
      rw [toks] at h ⊢
      cases ho : one c t with
      | none => rw [ho] at h; cases h
      | some p =>
        rw [ho] at h
        dsimp only [Option.bind] at h ⊢
        cases hr : toks f p.2 with
        | none => rw [hr] at h; cases h
        | some y => rw [ih p.2 y hr g (by omega)]; rw [hr] at h; exact h

theorem reading_spec (labels : List Bytes) (h : ∀ l ∈ labels, ∀ b ∈ l, b < 127) : reading ((held labels).flatMap piece) = some (spelled labels) := by
  have := toks_spelled labels h 0
  rw [Nat.zero_add] at this
  exact toks_mono _ _ _ this _ (pieces_length labels).2.1

/-- A name of plain letters only moves on. -/
theorem loop_plain (s : Bytes) : ∀ (n : Nat) (P R : Bytes), P.length + n ≤ 1009 → P.length + R.length = 1010 →
    loop (List.replicate n 0x61 ++ s) P.length (P ++ R) = loop s (P.length + n) ((P ++ List.replicate n 0x61) ++ R.drop n)
  | 0, P, R, _, _ => by simp
  | n + 1, P, R, h, hr => by
    have hp : piece 0x61 = [0x61] := by decide
    rw [List.replicate_succ, List.cons_append, loop, if_pos (by omega), hp, fill P R _ _ rfl (by simp; omega)]
    dsimp only [Out.bind]
    have hl : P.length + [(0x61 : UInt8)].length = (P ++ [0x61]).length := by rw [List.length_append]
    rw [hl, loop_plain s n (P ++ [0x61]) (R.drop _) (by simp; omega) (by simp; omega), List.drop_drop]
    congr 1
    · simp; omega
    · simp [Nat.add_comm]

/-- A name too long: its last character is begun within the array's bound and ends outside. -/
theorem long_ub (out : Bytes) (ho : out.length = 1010) : sanitize (List.replicate 1006 0x61 ++ [0x01]) out = .ub := by
  unfold sanitize
  have := loop_plain [0x01] 1006 [] out (by rw [List.length_nil]; omega) (by rw [ho]; rfl)
  rw [List.length_nil, List.nil_append, List.nil_append, Nat.zero_add] at this
  rw [this]
  have hl : (List.replicate 1006 (0x61 : UInt8)).length = 1006 := List.length_replicate
  generalize List.replicate 1006 (0x61 : UInt8) = Q at *
  have hp : piece 0x01 = [0x5c, 0x30, 0x30, 0x31] := by decide
  rw [loop, if_pos (by decide), hp, fill Q _ _ _ hl.symm (by rw [List.length_drop, ho]; decide)]
  dsimp only [Out.bind]
  rw [loop]
  unfold memcpy
  rw [if_neg]
  simp only [List.length_append, List.length_drop, List.length_cons, List.length_nil, hl, ho]
  decide

end Verif.Sanitize
