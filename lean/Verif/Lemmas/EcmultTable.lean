import Verif.Model.EcmultTable
import Verif.Lemmas.EcmultHints
import Verif.Lemmas.SecpOrder
import Verif.Spec.Field52
/-
The entries of the table of the program are the points they should be: a check on natural numbers, evaluated by the kernel.
-/
namespace Verif.Lemmas.EcmultTable
open Verif Verif.Spec.Secp Verif.Field52 Verif.Ec52 Verif.EcmultGen Verif.Lemmas.SecpOrder
open WeierstrassCurve.Affine

/-- The numbers are the coordinates of the point. -/
def At (x y : Nat) (P : Point) : Prop := x < p ∧ y < p ∧ ∃ h, P = .some (x : F) (y : F) h

/-- `(x3, y3)` is the sum of `(x1, y1)` and `(x2, y2)`. -/
def addChk (x1 y1 x2 y2 x3 y3 : Nat) : Bool :=
  !Nat.beq x1 x2 && Nat.blt x3 p && Nat.blt y3 p &&
  Nat.beq ((x3 + x1 + x2) * ((x1 + (p - x2)) * (x1 + (p - x2))) % p) ((y1 + (p - y2)) * (y1 + (p - y2)) % p) &&
  Nat.beq ((y3 + y1) * (x1 + (p - x2)) % p) ((y1 + (p - y2)) * (x1 + (p - x3)) % p)

/-- `(x3, y3)` is twice `(x, y)`. -/
def dblChk (x y x3 y3 : Nat) : Bool :=
  !Nat.beq y 0 && Nat.blt x3 p && Nat.blt y3 p &&
  Nat.beq ((x3 + 2 * x) * (4 * y * y) % p) (9 * (x * x) * (x * x) % p) &&
  Nat.beq ((y3 + y) * (2 * y) % p) (3 * x * x * (x + (p - x3)) % p)

theorem cast_of_mod {a b : Nat} (h : a % p = b % p) : (a : F) = (b : F) := (ZMod.natCast_eq_natCast_iff a b p).2 h

theorem add_at {x1 y1 x2 y2 x3 y3 : Nat} {P Q : Point} (h1 : At x1 y1 P) (h2 : At x2 y2 Q) (h : addChk x1 y1 x2 y2 x3 y3 = true) :
    At x3 y3 (P + Q) := by
  obtain ⟨a1, b1, n1, rfl⟩ := h1
  obtain ⟨a2, b2, n2, rfl⟩ := h2
  unfold addChk at h
  rw [Bool.and_eq_true, Bool.and_eq_true, Bool.and_eq_true, Bool.and_eq_true] at h
  obtain ⟨⟨⟨⟨c1, c2⟩, c3⟩, c4⟩, c5⟩ := h
  have c2 := Eq.mp Nat.blt_eq c2
  have c3 := Eq.mp Nat.blt_eq c3
  have c4 := cast_of_mod (Nat.eq_of_beq_eq_true c4)
  have c5 := cast_of_mod (Nat.eq_of_beq_eq_true c5)
  rw [Nat.cast_mul, Nat.cast_mul, Nat.cast_mul, Nat.cast_add, Nat.cast_add, Nat.cast_add, Nat.cast_add, cast_sub a2, cast_sub b2] at c4
  rw [Nat.cast_mul, Nat.cast_mul, Nat.cast_add, Nat.cast_add, Nat.cast_add, Nat.cast_add, cast_sub a2, cast_sub b2, cast_sub c2] at c5
  have hx : (x1 : F) ≠ x2 := ne_of_lt a1 a2 (by intro e; rw [e] at c1; simp at c1)
  have hd : (x1 : F) - x2 ≠ 0 := sub_ne_zero.2 hx
  obtain ⟨h', e⟩ := addc (l := ((y1 : F) - y2) / ((x1 : F) - x2)) (x2 := (x3 : F)) (y2 := (y3 : F)) n1 n2 hx (by field_simp)
    (by field_simp; linear_combination c4) (by field_simp; linear_combination c5)
  exact ⟨c2, c3, h', e⟩

theorem two_F : (2 : F) ≠ 0 := by
  have := ne_of_lt (a := 2) (b := 0) (by decide +kernel) (by decide +kernel) (by decide)
  simpa using this

theorem dbl_at {x y x3 y3 : Nat} {P : Point} (h1 : At x y P) (h : dblChk x y x3 y3 = true) : At x3 y3 (P + P) := by
  obtain ⟨a1, b1, n1, rfl⟩ := h1
  unfold dblChk at h
  rw [Bool.and_eq_true, Bool.and_eq_true, Bool.and_eq_true, Bool.and_eq_true] at h
  obtain ⟨⟨⟨⟨c1, c2⟩, c3⟩, c4⟩, c5⟩ := h
  have c2 := Eq.mp Nat.blt_eq c2
  have c3 := Eq.mp Nat.blt_eq c3
  have c4 := cast_of_mod (Nat.eq_of_beq_eq_true c4)
  have c5 := cast_of_mod (Nat.eq_of_beq_eq_true c5)
  rw [Nat.cast_mul, Nat.cast_mul, Nat.cast_mul, Nat.cast_mul, Nat.cast_mul, Nat.cast_mul, Nat.cast_add, Nat.cast_mul] at c4
  rw [Nat.cast_mul, Nat.cast_mul, Nat.cast_mul, Nat.cast_mul, Nat.cast_mul, Nat.cast_add, Nat.cast_add, cast_sub c2] at c5
  have hy : (y : F) ≠ 0 := by
    have := ne_of_lt (a := y) (b := 0) b1 (by decide +kernel) (by intro e; rw [e] at c1; simp at c1)
    simpa using this
  have h2 := mul_ne_zero two_F hy
  push_cast at c4 c5
  obtain ⟨l, hl⟩ : ∃ l : F, 2 * (y : F) * l = 3 * (x : F) ^ 2 := ⟨3 * (x : F) ^ 2 / (2 * y), mul_div_cancel₀ _ h2⟩
  have e3 : (x3 : F) = l ^ 2 - 2 * x := by
    apply mul_left_cancel₀ (mul_ne_zero h2 h2)
    linear_combination c4 - (2 * (y : F) * l + 3 * (x : F) ^ 2) * hl
  have e4 : (y3 : F) = l * (x - x3) - y := by
    apply mul_left_cancel₀ h2
    linear_combination c5 - ((x : F) - x3) * hl
  obtain ⟨h', e⟩ := dbl n1 h2 hl e3 e4
  exact ⟨c2, c3, h', e⟩

/-- The words of an entry are words. -/
def wordsChk (s : Storage) : Bool := Nat.blt s.n0 (2 ^ 64) && Nat.blt s.n1 (2 ^ 64) && Nat.blt s.n2 (2 ^ 64) && Nat.blt s.n3 (2 ^ 64)

def X (k : Pubkey) : Nat := stored k.x
def Y (k : Pubkey) : Nat := stored k.y

/-- Each entry of a row is the one before and the base. -/
def rowChk (bx bY : Nat) : List Pubkey → Bool
  | a :: b :: l => addChk (X a) (Y a) bx bY (X b) (Y b) && rowChk bx bY (b :: l)
  | _ => true

def fourChk (bx bY : Nat) (f : Four) : Bool :=
  dblChk bx bY f.x1 f.y1 && dblChk f.x1 f.y1 f.x2 f.y2 && dblChk f.x2 f.y2 f.x3 f.y3 && dblChk f.x3 f.y3 f.x4 f.y4

def rowsChk (bx bY : Nat) : List Four → List (List Pubkey) → Bool
  | f :: fs, row :: rows => Nat.beq row.length 16 && row.all (fun k => wordsChk k.x && wordsChk k.y) && rowChk bx bY row &&
      fourChk bx bY f && rowsChk f.x4 f.y4 fs rows
  | _, [] => true
  | [], _ :: _ => false

/-- The first entries double, up to the last but one. -/
def headsChk : List Pubkey → Bool
  | a :: b :: l => dblChk (X a) (Y a) (X b) (Y b) && headsChk (b :: l)
  | _ => true

theorem row_spec {bx bY : Nat} {B : Point} (hB : At bx bY B) : ∀ (row : List Pubkey) (U : Point), rowChk bx bY row = true →
    (∀ a, row[0]? = some a → At (X a) (Y a) U) → ∀ (i : Nat) (e : Pubkey), row[i]? = some e → At (X e) (Y e) (U + i • B)
  | [], U, _, _, i, e, he => by simp at he
  | [a], U, _, h0, i, e, he => by
    cases i with
    | zero => rw [zero_nsmul, add_zero]; exact h0 _ he
    | succ i => simp at he
  | a :: b :: l, U, h, h0, i, e, he => by
    rw [rowChk, Bool.and_eq_true] at h
    cases i with
    | zero => rw [zero_nsmul, add_zero]; exact h0 _ he
    | succ i =>
      have h1 := add_at (h0 a rfl) hB h.1
      have := row_spec hB (b :: l) (U + B) h.2 (fun c hc => by cases hc; exact h1) i e he
      rw [succ_nsmul', ← add_assoc]
      exact this

theorem four_spec {bx bY : Nat} {B : Point} (hB : At bx bY B) {f : Four} (h : fourChk bx bY f = true) : At f.x4 f.y4 (16 • B) := by
  unfold fourChk at h
  rw [Bool.and_eq_true, Bool.and_eq_true, Bool.and_eq_true] at h
  have h1 := dbl_at (dbl_at (dbl_at (dbl_at hB h.1.1.1) h.1.1.2) h.1.2) h.2
  have e : B + B + (B + B) + (B + B + (B + B)) + (B + B + (B + B) + (B + B + (B + B))) = 16 • B := by abel
  rw [← e]
  exact h1

theorem words_spec {s : Storage} (h : wordsChk s = true) : s.n0 < 2 ^ 64 ∧ s.n1 < 2 ^ 64 ∧ s.n2 < 2 ^ 64 ∧ s.n3 < 2 ^ 64 := by
  unfold wordsChk at h
  rw [Bool.and_eq_true, Bool.and_eq_true, Bool.and_eq_true] at h
  exact ⟨Eq.mp Nat.blt_eq h.1.1.1, Eq.mp Nat.blt_eq h.1.1.2, Eq.mp Nat.blt_eq h.1.2, Eq.mp Nat.blt_eq h.2⟩

/-- What is known of a row with the given base. -/
def Row (B : Point) (row : List Pubkey) : Prop :=
  row.length = 16 ∧ (∀ e ∈ row, wordsChk e.x = true ∧ wordsChk e.y = true) ∧
  ∀ U, (∀ a, row[0]? = some a → At (X a) (Y a) U) → ∀ (i : Nat) (e : Pubkey), row[i]? = some e → At (X e) (Y e) (U + i • B)

theorem rows_spec : ∀ (fs : List Four) (rows : List (List Pubkey)) (bx bY : Nat) (B : Point), At bx bY B → rowsChk bx bY fs rows = true →
    ∀ (k : Nat) (row : List Pubkey), rows[k]? = some row → Row (16 ^ k • B) row
  | [], [], _, _, _, _, _, k, row, hr => by simp at hr
  | _ :: _, [], _, _, _, _, _, k, row, hr => by simp at hr
  | [], _ :: _, _, _, _, _, h, _, _, _ => by simp [rowsChk] at h
  | f :: fs, r :: rows, bx, bY, B, hB, h, k, row, hr => by
    rw [rowsChk, Bool.and_eq_true, Bool.and_eq_true, Bool.and_eq_true, Bool.and_eq_true] at h
    obtain ⟨⟨⟨⟨h1, h2⟩, h3⟩, h4⟩, h5⟩ := h
    cases k with
    | zero =>
      cases hr
      refine ⟨Nat.eq_of_beq_eq_true h1, fun e he => ?_, fun U hU i e he => ?_⟩
      · have := List.all_eq_true.1 h2 e he
        rwa [Bool.and_eq_true] at this
      · rw [pow_zero, one_nsmul]
        exact row_spec hB r U h3 hU i e he
    | succ k =>
      have := rows_spec fs rows f.x4 f.y4 (16 • B) (four_spec hB h4) h5 k row hr
      rw [← mul_nsmul'] at this
      rwa [pow_succ]

theorem heads_spec : ∀ (l : List Pubkey) (U : Point), headsChk l = true → (∀ a, l[0]? = some a → At (X a) (Y a) U) →
    ∀ (k : Nat) (e : Pubkey), l[k]? = some e → At (X e) (Y e) (2 ^ k • U)
  | [], _, _, _, k, e, he => by simp at he
  | [a], U, _, h0, k, e, he => by
    cases k with
    | zero => rw [pow_zero, one_nsmul]; exact h0 _ he
    | succ k => simp at he
  | a :: b :: l, U, h, h0, k, e, he => by
    rw [headsChk, Bool.and_eq_true] at h
    cases k with
    | zero => rw [pow_zero, one_nsmul]; exact h0 _ he
    | succ k =>
      have h1 := dbl_at (h0 a rfl) h.1
      have := heads_spec (b :: l) (U + U) h.2 (fun c hc => by cases hc; exact h1) k e he
      rw [← two_nsmul, ← mul_nsmul'] at this
      rwa [pow_succ]

/-- The first entries. -/
def heads : List Pubkey := table.map fun r => r.headD ⟨⟨0, 0, 0, 0⟩, ⟨0, 0, 0, 0⟩⟩

def first : Pubkey := heads.headD ⟨⟨0, 0, 0, 0⟩, ⟨0, 0, 0, 0⟩⟩
def last2 : Pubkey := heads.getD 62 ⟨⟨0, 0, 0, 0⟩, ⟨0, 0, 0, 0⟩⟩
def last1 : Pubkey := heads.getD 63 ⟨⟨0, 0, 0, 0⟩, ⟨0, 0, 0, 0⟩⟩

def onChk (x y : Nat) : Bool := Nat.blt x p && Nat.blt y p && Nat.beq (y * y % p) ((x * x * x + 7) % p)

theorem chk : rowsChk gx gy hints table = true := by decide +kernel

theorem chkHeads : (headsChk (heads.take 63) && onChk (X first) (Y first) && onChk (X last1) (Y last1) && dblChk (X last2) (Y last2) wx wy &&
    addChk (X last1) (Y last1) wx wy (X first) (Y first) && Nat.beq heads.length 64) = true := by decide +kernel

end Verif.Lemmas.EcmultTable
