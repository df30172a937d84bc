import Verif.Model.Bn
import Mathlib.Tactic.Ring
/-
Value lemmas for the big number model: every routine agrees with integer
arithmetic modulo 2^512.
-/
namespace Verif.Bn

/-- The integer an array of words stands for. -/
def val : Num → Nat
  | [] => 0
  | w :: ws => w + B * val ws

/-- Every word fits 32 bits. -/
def Small (a : Num) : Prop := ∀ w ∈ a, w < B

/-- A value of the C type: sixteen 32-bit words. -/
def WF (a : Num) : Prop := a.length = 16 ∧ Small a

theorem B_pos : 0 < B := by decide
theorem B_eq : B = 4294967296 := by decide
theorem pow16 : B ^ 16 = 2 ^ 512 := by rw [B, ← Nat.pow_mul]

@[simp] theorem small_nil : Small [] := by simp [Small]
@[simp] theorem small_cons {w : Nat} {ws : Num} : Small (w :: ws) ↔ w < B ∧ Small ws := by
  simp [Small]

theorem small_append {a b : Num} : Small (a ++ b) ↔ Small a ∧ Small b := by
  simp only [Small, List.mem_append]
  exact ⟨fun h => ⟨fun w hw => h w (.inl hw), fun w hw => h w (.inr hw)⟩,
    fun h w hw => hw.elim (h.1 w) (h.2 w)⟩

theorem small_replicate (n : Nat) : Small (List.replicate n 0) := by
  intro w hw
  rw [List.mem_replicate] at hw
  rw [hw.2]; exact B_pos

theorem small_take {a : Num} (h : Small a) (n : Nat) : Small (a.take n) :=
  fun w hw => h w (List.mem_of_mem_take hw)

theorem val_lt {a : Num} (h : Small a) : val a < B ^ a.length := by
  induction a with
  | nil => simp [val]
  | cons w ws ih =>
    simp only [small_cons] at h
    have h1 : val ws + 1 ≤ B ^ ws.length := ih h.2
    have h2 : B * (val ws + 1) ≤ B * B ^ ws.length := Nat.mul_le_mul_left _ h1
    have h3 : B ^ (ws.length + 1) = B * B ^ ws.length := by rw [Nat.pow_succ, Nat.mul_comm]
    simp only [val, List.length_cons, h3]
    rw [Nat.mul_add] at h2
    have := h.1
    omega

theorem val_append (a b : Num) : val (a ++ b) = val a + B ^ a.length * val b := by
  induction a with
  | nil => simp [val]
  | cons w ws ih =>
    simp only [List.cons_append, val, ih, List.length_cons, Nat.pow_succ]
    ring

@[simp] theorem val_replicate (n : Nat) : val (List.replicate n 0) = 0 := by
  induction n with
  | zero => rfl
  | succ n ih => simp [List.replicate_succ, val, ih]

theorem val_take {a : Num} (h : Small a) (n : Nat) (hn : n ≤ a.length) :
    val (a.take n) = val a % B ^ n := by
  have h1 := val_append (a.take n) (a.drop n)
  rw [List.take_append_drop] at h1
  have h2 := val_lt (small_take h n)
  have h3 : (a.take n).length = n := by simp [hn]
  rw [h3] at h1 h2
  rw [h1, Nat.add_mul_mod_self_left, Nat.mod_eq_of_lt h2]

theorem val_inj {a b : Num} (ha : Small a) (hb : Small b) (hl : a.length = b.length)
    (h : val a = val b) : a = b := by
  induction a generalizing b with
  | nil => cases b with
    | nil => rfl
    | cons _ _ => simp at hl
  | cons w ws ih => cases b with
    | nil => simp at hl
    | cons v vs =>
      simp only [small_cons] at ha hb
      simp only [val] at h
      have h1 : w = v := by
        have := congrArg (· % B) h
        simp only [Nat.add_mul_mod_self_left, Nat.mod_eq_of_lt ha.1, Nat.mod_eq_of_lt hb.1] at this
        exact this
      subst h1
      have h2 : val ws = val vs := Nat.eq_of_mul_eq_mul_left B_pos (by omega)
      rw [ih ha.2 hb.2 (by simpa using hl) h2]

theorem wf_init : WF init := ⟨by simp [init], small_replicate 16⟩
@[simp] theorem val_init : val init = 0 := val_replicate 16

theorem wf_fromInt (i : Nat) : WF (fromInt i) := by
  refine ⟨by simp [fromInt], ?_⟩
  simp only [fromInt, small_cons]
  exact ⟨Nat.mod_lt _ B_pos, Nat.mod_lt _ B_pos, small_replicate 14⟩

theorem val_fromInt {i : Nat} (h : i < 2 ^ 64) : val (fromInt i) = i := by
  have hB := B_eq
  simp only [fromInt, val, val_replicate, hB] at *
  omega

theorem wf_lt {a : Num} (h : WF a) : val a < 2 ^ 512 := by
  have h1 := val_lt h.2
  rw [h.1] at h1
  rwa [pow16] at h1

/-! inc -/

theorem inc_length (a : Num) : (inc a).length = a.length := by
  induction a with
  | nil => rfl
  | cons w ws ih => simp only [inc]; split <;> simp [ih]

theorem inc_small {a : Num} (h : Small a) : Small (inc a) := by
  induction a with
  | nil => exact h
  | cons w ws ih =>
    simp only [small_cons] at h
    simp only [inc]
    split
    · simp only [small_cons]; exact ⟨Nat.mod_lt _ B_pos, h.2⟩
    · simp only [small_cons]; exact ⟨Nat.mod_lt _ B_pos, ih h.2⟩

theorem val_inc {a : Num} (h : Small a) : val (inc a) = (val a + 1) % B ^ a.length := by
  induction a with
  | nil => simp [inc, val, Nat.mod_one]
  | cons w ws ih =>
    have hlt := val_lt h
    simp only [small_cons] at h
    have h3 : B ^ (ws.length + 1) = B * B ^ ws.length := by rw [Nat.pow_succ, Nat.mul_comm]
    simp only [inc, List.length_cons, h3]
    by_cases hw : w + 1 < B
    · rw [Nat.mod_eq_of_lt hw]
      rw [if_pos (by omega)]
      simp only [val, List.length_cons, h3] at *
      have h4 : val ws < B ^ ws.length := val_lt h.2
      have h5 : B * (val ws + 1) ≤ B * B ^ ws.length := Nat.mul_le_mul_left _ h4
      rw [Nat.mul_add] at h5
      rw [Nat.mod_eq_of_lt (by omega)]
      omega
    · have hw' : w + 1 = B := by omega
      rw [hw', Nat.mod_self, if_neg (by omega)]
      simp only [val, ih h.2]
      have : w + B * val ws + 1 = B * (val ws + 1) := by rw [Nat.mul_add]; omega
      rw [this, Nat.mul_mod_mul_left]
      omega

/-! add -/

theorem addC_length (c : Nat) (a b : Num) (hl : a.length = b.length) :
    (addC c a b).length = a.length := by
  induction a generalizing b c with
  | nil => simp [addC]
  | cons x xs ih => cases b with
    | nil => simp at hl
    | cons y ys => simp only [addC, List.length_cons]; rw [ih _ _ (by simpa using hl)]

theorem addC_small (c : Nat) (a b : Num) : Small (addC c a b) := by
  induction a generalizing b c with
  | nil => simp [addC]
  | cons x xs ih => cases b with
    | nil => simp [addC]
    | cons y ys =>
      simp only [addC, small_cons]
      exact ⟨Nat.mod_lt _ B_pos, ih _ _⟩

theorem val_addC {c : Nat} {a b : Num} (hc : c ≤ 1) (ha : Small a) (hb : Small b)
    (hl : a.length = b.length) : val (addC c a b) = (val a + val b + c) % B ^ a.length := by
  induction a generalizing b c with
  | nil => simp [addC, val, Nat.mod_one]
  | cons x xs ih => cases b with
    | nil => simp at hl
    | cons y ys =>
      simp only [small_cons] at ha hb
      have h3 : B ^ (xs.length + 1) = B * B ^ xs.length := by rw [Nat.pow_succ, Nat.mul_comm]
      simp only [addC, val, List.length_cons, h3]
      rw [ih (by split <;> omega) ha.2 hb.2 (by simpa using hl), Nat.mod_mul]
      have e : x + B * val xs + (y + B * val ys) + c = (x + y + c) + B * (val xs + val ys) := by ring
      rw [e, Nat.add_mul_mod_self_left, Nat.add_mul_div_left _ _ B_pos]
      congr 3
      split
      · have : (x + y + c) / B = 1 := by
          have hx := ha.1; have hy := hb.1; rw [B_eq] at *; omega
        omega
      · have : (x + y + c) / B = 0 := by
          have hx := ha.1; have hy := hb.1; rw [B_eq] at *; omega
        omega

theorem wf_add {a b : Num} (ha : WF a) (hb : WF b) : WF (add a b) :=
  ⟨by rw [add, addC_length _ _ _ (by rw [ha.1, hb.1]), ha.1], addC_small _ _ _⟩


theorem val_add {a b : Num} (ha : WF a) (hb : WF b) : val (add a b) = (val a + val b) % 2 ^ 512 := by
  rw [add, val_addC (by omega) ha.2 hb.2 (by rw [ha.1, hb.1]), ha.1, pow16]; rfl

/-! sub -/

theorem subB_length (c : Nat) (a b : Num) (hl : a.length = b.length) :
    (subB c a b).length = a.length := by
  induction a generalizing b c with
  | nil => simp [subB]
  | cons x xs ih => cases b with
    | nil => simp at hl
    | cons y ys => simp only [subB, List.length_cons]; rw [ih _ _ (by simpa using hl)]

theorem subB_small (c : Nat) (a b : Num) : Small (subB c a b) := by
  induction a generalizing b c with
  | nil => simp [subB]
  | cons x xs ih => cases b with
    | nil => simp [subB]
    | cons y ys =>
      simp only [subB, small_cons]
      exact ⟨Nat.mod_lt _ B_pos, ih _ _⟩

theorem val_subB {c : Nat} {a b : Num} (hc : c ≤ 1) (ha : Small a) (hb : Small b)
    (hl : a.length = b.length) :
    val (subB c a b) = (val a + B ^ a.length - (val b + c)) % B ^ a.length := by
  induction a generalizing b c with
  | nil => simp [subB, val, Nat.mod_one]
  | cons x xs ih => cases b with
    | nil => simp at hl
    | cons y ys =>
      have hys := val_lt hb
      simp only [small_cons] at ha hb
      have hl' : xs.length = ys.length := by simpa using hl
      have h3 : B ^ (xs.length + 1) = B * B ^ xs.length := by rw [Nat.pow_succ, Nat.mul_comm]
      have hy2 := val_lt hb.2
      simp only [subB, val, List.length_cons, h3]
      rw [ih (by split <;> omega) ha.2 hb.2 hl', Nat.mod_mul]
      rw [← hl'] at hy2
      generalize hP : B ^ xs.length = P at *
      generalize hX : val xs = X at *
      generalize hY : val ys = Y at *
      obtain ⟨Q, hQ⟩ : ∃ Q, X + P = Y + 1 + Q := ⟨X + P - (Y + 1), by omega⟩
      have e : x + B * X + B * P - (y + B * Y + c) = (x + B - (y + c)) + B * Q := by
        have h1 : B * X + B * P = B * Y + B + B * Q := by
          rw [← Nat.mul_add, hQ]; ring
        omega
      rw [e, Nat.add_mul_mod_self_left, Nat.add_mul_div_left _ _ B_pos]
      congr 3
      split
      · have : (x + B - (y + c)) / B = 0 := by
          have hx := ha.1; have hy := hb.1; rw [B_eq] at *; omega
        omega
      · have : (x + B - (y + c)) / B = 1 := by
          have hx := ha.1; have hy := hb.1; rw [B_eq] at *; omega
        omega

theorem wf_sub {a b : Num} (ha : WF a) (hb : WF b) : WF (sub a b) :=
  ⟨by rw [sub, subB_length _ _ _ (by rw [ha.1, hb.1]), ha.1], subB_small _ _ _⟩

theorem val_sub {a b : Num} (ha : WF a) (hb : WF b) :
    val (sub a b) = (val a + 2 ^ 512 - val b) % 2 ^ 512 := by
  rw [sub, val_subB (by omega) ha.2 hb.2 (by rw [ha.1, hb.1]), ha.1, pow16]; rfl

theorem val_sub_of_le {a b : Num} (ha : WF a) (hb : WF b) (h : val b ≤ val a) :
    val (sub a b) = val a - val b := by
  rw [val_sub ha hb]
  have := wf_lt ha
  omega

/-! lshiftWord, mul -/

theorem wf_lshiftWord {a : Num} (h : WF a) (n : Nat) : WF (lshiftWord a n) := by
  refine ⟨?_, small_take (small_append.2 ⟨small_replicate n, h.2⟩) 16⟩
  simp only [lshiftWord, List.length_take, List.length_append, List.length_replicate, h.1]
  omega

theorem val_lshiftWord {a : Num} (h : WF a) (n : Nat) :
    val (lshiftWord a n) = (val a * B ^ n) % 2 ^ 512 := by
  rw [lshiftWord, val_take (small_append.2 ⟨small_replicate n, h.2⟩) 16 (by simp [h.1]),
    val_append, val_replicate, pow16]
  simp [Nat.mul_comm]

theorem val_mulRow {ai i : Nat} (hai : ai < B) (bs : List Nat) (hbs : Small bs) (j : Nat)
    (row : Num) (hr : WF row) :
    WF (mulRow ai i j bs row) ∧
    val (mulRow ai i j bs row) = (val row + ai * B ^ (i + j) * val bs) % 2 ^ 512 := by
  induction bs generalizing j row with
  | nil => simpa [mulRow, val, hr] using (Nat.mod_eq_of_lt (wf_lt hr)).symm
  | cons b bs ih =>
    simp only [small_cons] at hbs
    simp only [mulRow]
    by_cases hij : i + j < 16
    · rw [if_pos hij]
      have hp : ai * b < 2 ^ 64 := by
        have := Nat.mul_lt_mul'' hai hbs.1
        rw [B_eq] at this; omega
      have w1 := wf_add (wf_lshiftWord (wf_fromInt (ai * b)) (i + j)) hr
      obtain ⟨i1, i2⟩ := ih hbs.2 (j + 1) _ w1
      refine ⟨i1, ?_⟩
      rw [i2, val_add (wf_lshiftWord (wf_fromInt _) _) hr, val_lshiftWord (wf_fromInt _), val_fromInt hp]
      simp only [val]
      rw [Nat.mod_add_mod]
      have : ai * b * B ^ (i + j) % 2 ^ 512 + val row + ai * B ^ (i + (j + 1)) * val bs =
        ai * b * B ^ (i + j) % 2 ^ 512 + (val row + ai * B ^ (i + (j + 1)) * val bs) := by ring
      rw [this, Nat.mod_add_mod]
      congr 1
      rw [← Nat.add_assoc i j 1, Nat.pow_succ]
      ring
    · rw [if_neg hij]
      obtain ⟨i1, i2⟩ := ih hbs.2 (j + 1) _ hr
      refine ⟨i1, ?_⟩
      rw [i2]
      obtain ⟨k, hk⟩ : ∃ k, i + j = 16 + k := ⟨i + j - 16, by omega⟩
      have e1 : B ^ (i + j) = 2 ^ 512 * B ^ k := by rw [hk, Nat.pow_add, pow16]
      have e2 : B ^ (i + (j + 1)) = 2 ^ 512 * B ^ (k + 1) := by
        rw [← Nat.add_assoc, hk, Nat.add_assoc, Nat.pow_add, pow16]
      rw [e1, e2]
      have f1 : val row + ai * (2 ^ 512 * B ^ (k + 1)) * val bs
          = val row + 2 ^ 512 * (ai * B ^ (k + 1) * val bs) := by ring
      have f2 : val row + ai * (2 ^ 512 * B ^ k) * val (b :: bs)
          = val row + 2 ^ 512 * (ai * B ^ k * val (b :: bs)) := by ring
      rw [f1, f2, Nat.add_mul_mod_self_left, Nat.add_mul_mod_self_left]

theorem val_mulRows {b : Num} (hb : WF b) (as : List Nat) (has : Small as) (i : Nat) (cc : Num)
    (hc : WF cc) :
    WF (mulRows b i as cc) ∧
    val (mulRows b i as cc) = (val cc + B ^ i * val as * val b) % 2 ^ 512 := by
  induction as generalizing i cc with
  | nil => simpa [mulRows, val, hc] using (Nat.mod_eq_of_lt (wf_lt hc)).symm
  | cons a as ih =>
    simp only [small_cons] at has
    simp only [mulRows]
    obtain ⟨r1, r2⟩ := val_mulRow (i := i) has.1 b hb.2 0 init wf_init
    obtain ⟨i1, i2⟩ := ih has.2 (i + 1) _ (wf_add hc r1)
    refine ⟨i1, ?_⟩
    rw [i2, val_add hc r1, r2]
    simp only [val_init, Nat.zero_add, Nat.add_zero, val]
    rw [Nat.mod_add_mod]
    have : val cc + a * B ^ i * val b % 2 ^ 512 + B ^ (i + 1) * val as * val b
      = a * B ^ i * val b % 2 ^ 512 + (val cc + B ^ (i + 1) * val as * val b) := by ring
    rw [this, Nat.mod_add_mod]
    congr 1
    rw [Nat.pow_succ]; ring

theorem wf_mul {a b : Num} (ha : WF a) (hb : WF b) : WF (mul a b) :=
  (val_mulRows hb a ha.2 0 init wf_init).1

theorem val_mul {a b : Num} (ha : WF a) (hb : WF b) :
    val (mul a b) = (val a * val b) % 2 ^ 512 := by
  have := (val_mulRows hb a ha.2 0 init wf_init).2
  simpa [mul] using this

/-! one-bit shifts -/

theorem shl1_word {w p : Nat} (hp : p < B) :
    ((w <<< 1) % B ||| (p >>> 31)) = (2 * w) % B + p / 2 ^ 31 := by
  rw [Nat.shiftLeft_eq, Nat.shiftRight_eq_div_pow]
  have h1 : w * 2 ^ 1 % B = 2 ^ 1 * (w % 2 ^ 31) := by rw [B_eq]; omega
  have h2 : p / 2 ^ 31 < 2 ^ 1 := by rw [B_eq] at hp; omega
  rw [h1, ← Nat.two_pow_add_eq_or_of_lt h2]
  rw [B_eq]; omega

theorem shl1_spec (a : Num) (p : Nat) (hp : p < B) (ha : Small a) :
    (shl1 p a).length = a.length ∧ Small (shl1 p a) ∧
    val (shl1 p a) = (2 * val a + p / 2 ^ 31) % B ^ a.length := by
  induction a generalizing p with
  | nil => simp [shl1, val, Nat.mod_one]
  | cons w ws ih =>
    simp only [small_cons] at ha
    obtain ⟨i1, i2, i3⟩ := ih w ha.1 ha.2
    simp only [shl1, List.length_cons, small_cons, shl1_word hp, val, i3, i1]
    have hlow : 2 * w % B + p / 2 ^ 31 < B := by rw [B_eq] at *; omega
    refine ⟨trivial, ⟨hlow, i2⟩, ?_⟩
    have h3 : B ^ (ws.length + 1) = B * B ^ ws.length := by rw [Nat.pow_succ, Nat.mul_comm]
    rw [h3, Nat.mod_mul]
    have e : 2 * (w + B * val ws) + p / 2 ^ 31 = (2 * w % B + p / 2 ^ 31) + B * (2 * val ws + w / 2 ^ 31) := by
      have : 2 * w = 2 * w % B + B * (w / 2 ^ 31) := by
        rw [B_eq] at *; omega
      rw [Nat.mul_add, Nat.mul_add]
      have h4 : 2 * (B * val ws) = B * (2 * val ws) := by ring
      omega
    rw [e, Nat.add_mul_mod_self_left, Nat.add_mul_div_left _ _ B_pos, Nat.mod_eq_of_lt hlow,
      Nat.div_eq_of_lt hlow, Nat.zero_add]

theorem wf_lshiftOneBit {a : Num} (h : WF a) : WF (lshiftOneBit a) := by
  obtain ⟨h1, h2, _⟩ := shl1_spec a 0 B_pos h.2
  exact ⟨by rw [lshiftOneBit, h1, h.1], h2⟩

theorem val_lshiftOneBit {a : Num} (h : WF a) : val (lshiftOneBit a) = (2 * val a) % 2 ^ 512 := by
  obtain ⟨_, _, h3⟩ := shl1_spec a 0 B_pos h.2
  rw [lshiftOneBit, h3, h.1, pow16]; rfl

theorem shr1_word {w v : Nat} (hw : w < B) :
    ((w >>> 1) ||| ((v <<< 31) % B)) = w / 2 + 2 ^ 31 * (v % 2) := by
  rw [Nat.shiftLeft_eq, Nat.shiftRight_eq_div_pow]
  have h1 : v * 2 ^ 31 % B = 2 ^ 31 * (v % 2) := by rw [B_eq]; omega
  have h2 : w / 2 ^ 1 < 2 ^ 31 := by rw [B_eq] at hw; omega
  rw [h1, Nat.or_comm, ← Nat.two_pow_add_eq_or_of_lt h2]
  omega

theorem shr1_spec (a : Num) (ha : Small a) :
    (rshiftOneBit a).length = a.length ∧ Small (rshiftOneBit a) ∧
    val (rshiftOneBit a) = val a / 2 := by
  induction a with
  | nil => simp [rshiftOneBit, val]
  | cons w ws ih =>
    cases ws with
    | nil =>
      simp only [small_cons] at ha
      simp only [rshiftOneBit, small_cons, val, Nat.shiftRight_eq_div_pow, List.length_cons,
        List.length_nil]
      refine ⟨trivial, ⟨?_, small_nil⟩, by omega⟩
      have := ha.1; omega
    | cons v vs =>
      rw [small_cons] at ha
      obtain ⟨i1, i2, i3⟩ := ih ha.2
      simp only [rshiftOneBit]
      rw [shr1_word ha.1]
      refine ⟨by simp [i1], ?_, ?_⟩
      · rw [small_cons]; exact ⟨by have := ha.1; rw [B_eq] at *; omega, i2⟩
      · rw [val, i3]
        simp only [val]
        rw [B_eq]
        generalize val vs = X
        omega

theorem wf_rshiftOneBit {a : Num} (h : WF a) : WF (rshiftOneBit a) := by
  obtain ⟨h1, h2, _⟩ := shr1_spec a h.2
  exact ⟨by rw [h1, h.1], h2⟩

theorem val_rshiftOneBit {a : Num} (h : WF a) : val (rshiftOneBit a) = val a / 2 :=
  (shr1_spec a h.2).2.2

/-! lshift -/

theorem shlBits_word {k w p : Nat} (hk : k < 32) (hp : p < B) :
    ((w <<< k) % B ||| (p >>> (32 - k))) = (2 ^ k * w) % B + p / 2 ^ (32 - k) := by
  rw [Nat.shiftLeft_eq, Nat.shiftRight_eq_div_pow]
  have hB : B = 2 ^ k * 2 ^ (32 - k) := by rw [← Nat.pow_add]; unfold B; congr 1; omega
  have h1 : w * 2 ^ k % B = 2 ^ k * (w % 2 ^ (32 - k)) := by
    rw [hB, Nat.mul_comm w, Nat.mul_mod_mul_left]
  have h2 : p / 2 ^ (32 - k) < 2 ^ k := by
    rw [Nat.div_lt_iff_lt_mul (Nat.two_pow_pos _)]; rwa [← hB]
  rw [h1, ← Nat.two_pow_add_eq_or_of_lt h2, ← h1, Nat.mul_comm]

theorem shlBits_spec {k : Nat} (hk : k < 32) (a : Num) (p : Nat) (hp : p < B) (ha : Small a) :
    (shlBits k p a).length = a.length ∧ Small (shlBits k p a) ∧
    val (shlBits k p a) = (2 ^ k * val a + p / 2 ^ (32 - k)) % B ^ a.length := by
  have hB : B = 2 ^ k * 2 ^ (32 - k) := by rw [← Nat.pow_add]; unfold B; congr 1; omega
  induction a generalizing p with
  | nil => simp [shlBits, val, Nat.mod_one]
  | cons w ws ih =>
    simp only [small_cons] at ha
    obtain ⟨i1, i2, i3⟩ := ih w ha.1 ha.2
    simp only [shlBits, List.length_cons, small_cons, shlBits_word hk hp, val, i3, i1]
    have h1 : 2 ^ k * w % B = 2 ^ k * (w % 2 ^ (32 - k)) := by
      rw [hB, Nat.mul_mod_mul_left]
    have h2 : p / 2 ^ (32 - k) < 2 ^ k := by
      rw [Nat.div_lt_iff_lt_mul (Nat.two_pow_pos _)]; rwa [← hB]
    have hlow : 2 ^ k * w % B + p / 2 ^ (32 - k) < B := by
      rw [h1]
      have h5 : w % 2 ^ (32 - k) + 1 ≤ 2 ^ (32 - k) := Nat.mod_lt _ (Nat.two_pow_pos _)
      have h6 := Nat.mul_le_mul_left (2 ^ k) h5
      rw [← hB, Nat.mul_add] at h6
      omega
    refine ⟨trivial, ⟨hlow, i2⟩, ?_⟩
    have h3 : B ^ (ws.length + 1) = B * B ^ ws.length := by rw [Nat.pow_succ, Nat.mul_comm]
    rw [h3, Nat.mod_mul]
    have e : 2 ^ k * (w + B * val ws) + p / 2 ^ (32 - k)
        = (2 ^ k * w % B + p / 2 ^ (32 - k)) + B * (2 ^ k * val ws + w / 2 ^ (32 - k)) := by
      have h7 : 2 ^ k * w = 2 ^ k * w % B + B * (w / 2 ^ (32 - k)) := by
        conv_lhs => rw [← Nat.mod_add_div (2 ^ k * w) B]
        congr 2
        rw [hB, Nat.mul_div_mul_left _ _ (Nat.two_pow_pos _)]
      rw [Nat.mul_add, Nat.mul_add]
      have h4 : 2 ^ k * (B * val ws) = B * (2 ^ k * val ws) := by ring
      omega
    rw [e, Nat.add_mul_mod_self_left, Nat.add_mul_div_left _ _ B_pos, Nat.mod_eq_of_lt hlow,
      Nat.div_eq_of_lt hlow, Nat.zero_add]

theorem wf_lshift {a : Num} (h : WF a) (n : Nat) :
    WF (lshift a n) ∧ val (lshift a n) = (val a * 2 ^ n) % 2 ^ 512 := by
  have hr : n - n / 32 * 32 = n % 32 := by omega
  have hw : WF (if n / 32 ≠ 0 then lshiftWord a (n / 32) else a) ∧
      val (if n / 32 ≠ 0 then lshiftWord a (n / 32) else a) = (val a * B ^ (n / 32)) % 2 ^ 512 := by
    split
    · exact ⟨wf_lshiftWord h _, val_lshiftWord h _⟩
    · rename_i h0
      have h0 : n / 32 = 0 := by omega
      refine ⟨h, ?_⟩
      rw [h0, Nat.pow_zero, Nat.mul_one, Nat.mod_eq_of_lt (wf_lt h)]
  have hp : 2 ^ n = B ^ (n / 32) * 2 ^ (n % 32) := by
    unfold B
    rw [← Nat.pow_mul, ← Nat.pow_add]; congr 1; omega
  simp only [lshift, hr]
  revert hw
  generalize (if n / 32 ≠ 0 then lshiftWord a (n / 32) else a) = b
  rintro ⟨w1, w2⟩
  split
  · obtain ⟨s1, s2, s3⟩ := shlBits_spec (k := n % 32) (Nat.mod_lt _ (by omega)) b 0 B_pos w1.2
    refine ⟨⟨by rw [s1, w1.1], s2⟩, ?_⟩
    rw [s3, w2, w1.1, pow16, hp, Nat.zero_div, Nat.add_zero, ← Nat.mul_assoc, Nat.mul_comm (2 ^ (n % 32))]
    exact Nat.mod_mul_mod _ _ _
  · rename_i h0
    have h0 : n % 32 = 0 := by omega
    refine ⟨w1, ?_⟩
    rw [w2, hp, h0]; simp

/-! cmp, isZero, or -/

theorem cmpTop_append (a b : List Nat) (x y : Nat) (hl : a.length = b.length) :
    cmpTop (a ++ [x]) (b ++ [y]) =
      if cmpTop a b ≠ 0 then cmpTop a b else if x > y then 1 else if x < y then -1 else 0 := by
  induction a generalizing b with
  | nil => cases b with
    | nil => simp [cmpTop]
    | cons _ _ => simp at hl
  | cons u us ih => cases b with
    | nil => simp at hl
    | cons v vs =>
      simp only [List.cons_append, cmpTop]
      by_cases h1 : u > v
      · simp [h1]
      · by_cases h2 : u < v
        · simp [h1, h2]
        · simp only [h1, h2, if_false]
          exact ih vs (by simpa using hl)

theorem cmp_spec {a b : Num} (ha : Small a) (hb : Small b) (hl : a.length = b.length) :
    cmp a b = if val a > val b then 1 else if val a < val b then -1 else 0 := by
  induction a generalizing b with
  | nil => cases b with
    | nil => simp [cmp, cmpTop, val]
    | cons _ _ => simp at hl
  | cons x xs ih => cases b with
    | nil => simp at hl
    | cons y ys =>
      simp only [small_cons] at ha hb
      have hl' : xs.length = ys.length := by simpa using hl
      have e := ih ha.2 hb.2 hl'
      unfold cmp at e ⊢
      rw [List.reverse_cons, List.reverse_cons, cmpTop_append _ _ _ _ (by simpa using hl'), e]
      simp only [val]
      have hx := ha.1
      have hy := hb.1
      simp only [B_eq] at *
      rcases Nat.lt_trichotomy (val xs) (val ys) with h | h | h
      · have h1 : ¬ val xs > val ys := by omega
        have h2 : ¬ (x + 4294967296 * val xs > y + 4294967296 * val ys) := by omega
        have h3 : (x + 4294967296 * val xs < y + 4294967296 * val ys) := by omega
        simp [h1, h, h2, h3]
      · have e1 : (x + 4294967296 * val xs > y + 4294967296 * val ys) ↔ x > y := by omega
        have e2 : (x + 4294967296 * val xs < y + 4294967296 * val ys) ↔ x < y := by omega
        simp only [h, Nat.lt_irrefl, gt_iff_lt, if_false, ne_eq, not_true_eq_false]
        simp only [gt_iff_lt, h] at e1 e2
        simp only [e1, e2]
      · have h2 : (x + 4294967296 * val xs > y + 4294967296 * val ys) := by omega
        simp only [h, h2, if_true, ne_eq, one_ne_zero, not_false_eq_true]

theorem cmp_wf {a b : Num} (ha : WF a) (hb : WF b) :
    cmp a b = if val a > val b then 1 else if val a < val b then -1 else 0 :=
  cmp_spec ha.2 hb.2 (by rw [ha.1, hb.1])

theorem cmp_ne_one {a b : Num} (ha : WF a) (hb : WF b) : cmp a b ≠ 1 ↔ val a ≤ val b := by
  rw [cmp_wf ha hb]
  split
  · simp; omega
  · split <;> simp <;> omega

theorem cmp_ne_neg {a b : Num} (ha : WF a) (hb : WF b) : cmp a b ≠ -1 ↔ val b ≤ val a := by
  rw [cmp_wf ha hb]
  split
  · simp; omega
  · split <;> simp <;> omega

theorem cmp_pos {a b : Num} (ha : WF a) (hb : WF b) : cmp a b > 0 ↔ val b < val a := by
  rw [cmp_wf ha hb]
  split
  · simp; omega
  · split <;> simp <;> omega

theorem isZero_spec (a : Num) : isZero a = true ↔ val a = 0 := by
  induction a with
  | nil => simp [isZero, val]
  | cons w ws ih =>
    unfold isZero at *
    have := B_pos
    rw [List.all_cons, Bool.and_eq_true, ih]
    simp only [val, beq_iff_eq, Nat.add_eq_zero_iff, Nat.mul_eq_zero]
    omega

theorem wf_or {a b : Num} (ha : WF a) (hb : WF b) : WF (or a b) := by
  refine ⟨by simp [or, ha.1, hb.1], ?_⟩
  intro w hw
  simp only [or] at hw
  obtain ⟨i, hi, rfl⟩ := List.mem_iff_getElem.1 hw
  simp only [List.getElem_zipWith]
  exact Nat.or_lt_two_pow (ha.2 _ (List.getElem_mem _)) (hb.2 _ (List.getElem_mem _))

theorem val_or {a b : Num} (ha : Small a) (hb : Small b) (hl : a.length = b.length) :
    val (or a b) = val a ||| val b := by
  induction a generalizing b with
  | nil => cases b with
    | nil => simp [or, val]
    | cons _ _ => simp at hl
  | cons x xs ih => cases b with
    | nil => simp at hl
    | cons y ys =>
      simp only [small_cons] at ha hb
      have e := ih ha.2 hb.2 (by simpa using hl)
      unfold or at e ⊢
      rw [List.zipWith_cons_cons]
      simp only [val, e]
      apply Nat.eq_of_testBit_eq
      intro i
      have hor : x ||| y < 2 ^ 32 := Nat.or_lt_two_pow ha.1 hb.1
      rw [Nat.testBit_or]
      unfold B
      rw [Nat.add_comm, Nat.add_comm x, Nat.add_comm y,
        Nat.testBit_two_pow_mul_add _ hor, Nat.testBit_two_pow_mul_add _ (show x < 2 ^ 32 from ha.1),
        Nat.testBit_two_pow_mul_add _ (show y < 2 ^ 32 from hb.1)]
      split <;> simp [Nat.testBit_or]

/-! div -/

theorem top_word {a : Num} (h : WF a) : a.getD 15 0 ≥ 2 ^ 31 ↔ val a ≥ 2 ^ 511 := by
  have h1 := val_append (a.take 15) (a.drop 15)
  rw [List.take_append_drop] at h1
  have h2 := val_lt (small_take h.2 15)
  have h3 : (a.take 15).length = 15 := by simp [h.1]
  rw [h3] at h1 h2
  have h4 : a.drop 15 = [a.getD 15 0] := by
    have hl : 15 < a.length := by rw [h.1]; omega
    rw [List.drop_eq_getElem_cons hl]
    have hn : a.drop (15 + 1) = [] := List.drop_eq_nil_of_le (by rw [h.1])
    rw [hn]
    simp [List.getD, hl]
  rw [h4] at h1
  simp only [val, Nat.mul_zero, Nat.add_zero] at h1
  have hB : B ^ 15 = 2 ^ 480 := by rw [B, ← Nat.pow_mul]
  rw [hB] at h1 h2
  rw [h1]
  generalize a.getD 15 0 = t
  omega

theorem divUp_spec {b : Nat} (hb : 0 < b) {a denom current : Num} (k fuel : Nat)
    (ha : WF a) (hd : WF denom) (hc : WF current) (hdv : val denom = b * 2 ^ k)
    (hcv : val current = 2 ^ k) (hf : 513 ≤ fuel + k)
    (hk : k = 0 ∨ b * 2 ^ (k - 1) ≤ val a) :
    ∃ d c o j, divUp fuel a denom current = some (d, c, o) ∧ WF d ∧ WF c ∧
      val d = b * 2 ^ j ∧ val c = 2 ^ j ∧ j ≤ 511 + (if o then 0 else 1) ∧
      (o = true → val a < 2 * val d) ∧
      (o = false → val a < val d) := by
  induction fuel generalizing k denom current with
  | zero =>
    exfalso
    have h1 := wf_lt ha
    rcases hk with hk | hk
    · omega
    · have h2 : 2 ^ (k - 1) ≤ b * 2 ^ (k - 1) := Nat.le_mul_of_pos_left _ hb
      have h3 : 2 ^ 512 ≤ 2 ^ (k - 1) := Nat.pow_le_pow_right (by omega) (by omega)
      omega
  | succ fuel ih =>
    have hk511 : val denom < 2 ^ 512 := wf_lt hd
    have hkk : k ≤ 511 := by
      by_contra hcon
      have h2 : 2 ^ k ≤ b * 2 ^ k := Nat.le_mul_of_pos_left _ hb
      have h3 : 2 ^ 512 ≤ 2 ^ k := Nat.pow_le_pow_right (by omega) (by omega)
      omega
    simp only [divUp]
    by_cases hle : val denom ≤ val a
    · rw [if_pos ((cmp_ne_one hd ha).2 hle)]
      by_cases ht : val denom ≥ 2 ^ 511
      · rw [if_pos ((top_word hd).2 ht)]
        refine ⟨denom, current, true, k, rfl, hd, hc, hdv, hcv, by simpa using hkk, ?_, by simp⟩
        intro _
        have := wf_lt ha
        omega
      · rw [if_neg (fun h => ht ((top_word hd).1 h))]
        have hk2 : 2 ^ k ≤ b * 2 ^ k := Nat.le_mul_of_pos_left _ hb
        refine ih (k + 1) (wf_lshiftOneBit hd) (wf_lshiftOneBit hc) ?_ ?_ (by omega) (.inr ?_)
        · rw [val_lshiftOneBit hd, Nat.mod_eq_of_lt (by omega), hdv, Nat.pow_succ]; ring
        · rw [val_lshiftOneBit hc, Nat.mod_eq_of_lt (by omega), hcv, Nat.pow_succ]; ring
        · simpa [← hdv] using hle
    · rw [if_neg (fun h => hle ((cmp_ne_one hd ha).1 h))]
      refine ⟨denom, current, false, k, rfl, hd, hc, hdv, hcv, ?_, by simp, ?_⟩
      · simp; omega
      · intro _; omega

theorem divDown_spec {b : Nat} (hb : 0 < b) {tmp denom current c : Num} (k fuel : Nat)
    (ht : WF tmp) (hd : WF denom) (hcu : WF current) (hc : WF c)
    (hdv : val denom = b * 2 ^ k) (hcv : val current = 2 ^ k) (hf : k + 2 ≤ fuel)
    (hlt : val tmp < 2 * val denom) (hm : ∃ q, val c = 2 ^ (k + 1) * q) :
    ∃ r, divDown fuel tmp denom current c = some r ∧ WF r ∧ val r = val c + val tmp / b := by
  induction k generalizing tmp denom current c fuel with
  | zero =>
    obtain ⟨f, rfl⟩ : ∃ f, fuel = f + 2 := ⟨fuel - 2, by omega⟩
    have hz : ¬ isZero current = true := by rw [isZero_spec, hcv]; simp
    have hz2 : isZero (rshiftOneBit current) = true := by
      rw [isZero_spec, val_rshiftOneBit hcu, hcv]; rfl
    simp only [divDown, hz, hz2]
    rw [Nat.pow_zero, Nat.mul_one] at hdv
    obtain ⟨q, hq⟩ := hm
    by_cases hle : val denom ≤ val tmp
    · simp only [ne_eq, (cmp_ne_neg ht hd).2 hle, not_false_eq_true, if_true]
      refine ⟨_, rfl, wf_or hc hcu, ?_⟩
      rw [val_or hc.2 hcu.2 (by rw [hc.1, hcu.1]), hq, hcv]
      rw [← Nat.two_pow_add_eq_or_of_lt (show 2 ^ 0 < 2 ^ (0 + 1) by omega)]
      have : val tmp / b = 1 := by
        rw [hdv] at hle hlt
        exact Nat.div_eq_of_lt_le (by omega) (by omega)
      rw [this]; rfl
    · simp only [ne_eq, mt (cmp_ne_neg ht hd).1 hle]
      simp only [if_false, if_true]
      refine ⟨_, rfl, hc, ?_⟩
      rw [Nat.div_eq_of_lt (by omega)]; rfl
  | succ k ih =>
    obtain ⟨f, rfl⟩ : ∃ f, fuel = f + 1 := ⟨fuel - 1, by omega⟩
    have hz : ¬ isZero current = true := by
      rw [isZero_spec, hcv]; have := Nat.two_pow_pos (k + 1); omega
    simp only [divDown, hz]
    have hd2 : val (rshiftOneBit denom) = b * 2 ^ k := by
      rw [val_rshiftOneBit hd, hdv, Nat.pow_succ, ← Nat.mul_assoc]; omega
    have hc2 : val (rshiftOneBit current) = 2 ^ k := by
      rw [val_rshiftOneBit hcu, hcv, Nat.pow_succ]; omega
    have hdd : val denom = 2 * (b * 2 ^ k) := by rw [hdv, Nat.pow_succ]; ring
    obtain ⟨q, hq⟩ := hm
    by_cases hle : val denom ≤ val tmp
    · simp only [ne_eq, (cmp_ne_neg ht hd).2 hle, not_false_eq_true, if_true]
      have hv : val (sub tmp denom) = val tmp - val denom := val_sub_of_le ht hd hle
      have ho : val (or c current) = val c + 2 ^ (k + 1) := by
        rw [val_or hc.2 hcu.2 (by rw [hc.1, hcu.1]), hq, hcv]
        rw [← Nat.two_pow_add_eq_or_of_lt (Nat.pow_lt_pow_right (by omega) (by omega))]
      obtain ⟨r, h1, h2, h3⟩ := ih (tmp := sub tmp denom) (denom := rshiftOneBit denom)
        (current := rshiftOneBit current) (c := or c current) f
        (wf_sub ht hd) (wf_rshiftOneBit hd) (wf_rshiftOneBit hcu)
        (wf_or hc hcu) hd2 hc2 (by omega) (by rw [hv, hd2]; omega)
        ⟨2 * q + 1, by rw [ho, hq, Nat.pow_succ 2 (k+1)]; ring⟩
      refine ⟨r, by simpa using h1, h2, ?_⟩
      rw [h3, ho, hv]
      have : val tmp / b = (val tmp - val denom) / b + 2 ^ (k + 1) := by
        have e : val tmp = (val tmp - val denom) + b * 2 ^ (k + 1) := by omega
        conv_lhs => rw [e, Nat.add_mul_div_left _ _ hb]
      rw [this]; omega
    · simp only [ne_eq, mt (cmp_ne_neg ht hd).1 hle]
      simp only [if_false]
      obtain ⟨r, h1, h2, h3⟩ := ih (tmp := tmp) (denom := rshiftOneBit denom)
        (current := rshiftOneBit current) (c := c) f ht
        (wf_rshiftOneBit hd) (wf_rshiftOneBit hcu)
        hc hd2 hc2 (by omega) (by rw [hd2]; omega) ⟨2 * q, by rw [hq, Nat.pow_succ 2 (k+1)]; ring⟩
      exact ⟨r, by simpa using h1, h2, h3⟩

theorem div_spec {a b : Num} (ha : WF a) (hb : WF b) (h0 : 0 < val b) :
    ∃ c, div a b = some c ∧ WF c ∧ val c = val a / val b := by
  obtain ⟨d, c, o, j, e, hd, hc, hdv, hcv, hj, ho, hn⟩ :=
    divUp_spec h0 (a := a) (denom := b) (current := fromInt 1) 0 514 ha hb (wf_fromInt 1)
      (by simp) (by rw [val_fromInt (by omega)]; rfl) (by omega) (.inl rfl)
  simp only [div, divFuel, e]
  cases o with
  | true =>
    obtain ⟨r, r1, r2, r3⟩ := divDown_spec h0 (tmp := a) (c := init) j 514 ha hd hc wf_init hdv hcv
      (by simp at hj; omega) (ho rfl) ⟨0, by simp⟩
    refine ⟨r, by simpa using r1, r2, by simpa using r3⟩
  | false =>
    have hlt := hn rfl
    cases j with
    | zero =>
      have hz : isZero (rshiftOneBit c) = true := by
        rw [isZero_spec, val_rshiftOneBit hc, hcv]; rfl
      refine ⟨init, by simp [divDown, hz], wf_init, ?_⟩
      rw [Nat.div_eq_of_lt]; · exact val_init
      simpa [hdv] using hlt
    | succ j =>
      have hd2 : val (rshiftOneBit d) = val b * 2 ^ j := by
        rw [val_rshiftOneBit hd, hdv, Nat.pow_succ, ← Nat.mul_assoc]; omega
      have hc2 : val (rshiftOneBit c) = 2 ^ j := by
        rw [val_rshiftOneBit hc, hcv, Nat.pow_succ]; omega
      obtain ⟨r, r1, r2, r3⟩ := divDown_spec h0 (tmp := a) (c := init) j 514 ha
        (wf_rshiftOneBit hd) (wf_rshiftOneBit hc) wf_init hd2 hc2
        (by simp at hj; omega)
        (by rw [hd2]; have : val d = 2 * (val b * 2 ^ j) := by rw [hdv, Nat.pow_succ]; ring
            omega) ⟨0, by simp⟩
      refine ⟨r, by simpa using r1, r2, by simpa using r3⟩

theorem divUp_zero (fuel : Nat) {a d : Num} (cur : Num) (ha : WF a) (hd : WF d) (h0 : val d = 0) :
    divUp fuel a d cur = none := by
  induction fuel generalizing d cur with
  | zero => rfl
  | succ f ih =>
    simp only [divUp]
    rw [if_pos ((cmp_ne_one hd ha).2 (by omega)), if_neg]
    · exact ih _ (wf_lshiftOneBit hd) (by rw [val_lshiftOneBit hd, h0, Nat.mul_zero, Nat.zero_mod])
    · intro h
      have := (top_word hd).1 h
      omega

/-! arrays -/

theorem leNat_append (a b : Bytes) : leNat (a ++ b) = leNat a + 256 ^ a.length * leNat b := by
  induction a with
  | nil => simp [leNat]
  | cons x xs ih =>
    simp only [List.cons_append, leNat, ih, List.length_cons, Nat.pow_succ]
    ring

theorem beNat_append (a b : Bytes) : beNat (a ++ b) = beNat a * 256 ^ b.length + beNat b := by
  simp only [beNat, List.reverse_append, leNat_append, List.length_reverse]
  ring

theorem beWords_length (n : Nat) (bs : Bytes) (h : bs.length = 4 * n) : (beWords bs).length = n := by
  induction n generalizing bs with
  | zero =>
    have : bs = [] := List.length_eq_zero_iff.1 (by omega)
    subst this; rfl
  | succ n ih =>
    match bs, h with
    | a :: b :: c :: d :: r, h =>
      simp only [beWords, List.length_cons]
      rw [ih r (by simp only [List.length_cons] at h; omega)]

theorem beWords_small (n : Nat) (bs : Bytes) (h : bs.length = 4 * n) : Small (beWords bs) := by
  induction n generalizing bs with
  | zero =>
    have : bs = [] := List.length_eq_zero_iff.1 (by omega)
    subst this; simp [beWords]
  | succ n ih =>
    match bs, h with
    | a :: b :: c :: d :: r, h =>
      simp only [beWords, small_cons]
      refine ⟨?_, ih r (by simp only [List.length_cons] at h; omega)⟩
      have := a.toNat_lt; have := b.toNat_lt; have := c.toNat_lt; have := d.toNat_lt
      rw [B_eq]; omega

theorem val_beWords (n : Nat) (bs : Bytes) (h : bs.length = 4 * n) :
    val (beWords bs).reverse = beNat bs := by
  induction n generalizing bs with
  | zero =>
    have : bs = [] := List.length_eq_zero_iff.1 (by omega)
    subst this; rfl
  | succ n ih =>
    match bs, h with
    | a :: b :: c :: d :: r, h =>
      have hr : r.length = 4 * n := by simp only [List.length_cons] at h; omega
      simp only [beWords, List.reverse_cons]
      rw [val_append, ih r hr, List.length_reverse, beWords_length n r hr]
      have : a :: b :: c :: d :: r = [a, b, c, d] ++ r := rfl
      rw [this, beNat_append, hr]
      have h2 : B ^ n = 256 ^ (4 * n) := by
        rw [Nat.pow_mul]; congr 1
      rw [h2]
      have h3 : beNat [a, b, c, d] =
        a.toNat * 2 ^ 24 + b.toNat * 2 ^ 16 + c.toNat * 2 ^ 8 + d.toNat := by
        simp only [beNat, List.reverse_cons, List.reverse_nil, List.nil_append, List.cons_append, leNat]
        omega
      rw [h3]
      simp only [val]
      ring

theorem fromArray_spec {bs : Bytes} (h : bs.length = 32) :
    WF (fromArray bs) ∧ val (fromArray bs) = beNat bs := by
  have h8 : bs.length = 4 * 8 := h
  refine ⟨⟨?_, ?_⟩, ?_⟩
  · simp [fromArray, beWords_length 8 bs h8, h]
  · rw [fromArray, small_append]
    refine ⟨?_, small_replicate _⟩
    intro w hw
    exact beWords_small 8 bs h8 w (List.mem_reverse.1 hw)
  · rw [fromArray, val_append, val_beWords 8 bs h8]; simp

theorem beNat_wordBytes {w : Nat} (h : w < B) : beNat (wordBytes w) = w := by
  simp only [beNat, wordBytes, List.reverse_cons, List.reverse_nil, List.nil_append,
    List.cons_append, leNat, UInt8.toNat_ofNat']
  rw [B_eq] at h
  omega

theorem flatMap_wordBytes (ws : List Nat) (h : Small ws) :
    (ws.flatMap wordBytes).length = 4 * ws.length ∧
    beNat (ws.flatMap wordBytes) = val ws.reverse := by
  induction ws with
  | nil => exact ⟨rfl, rfl⟩
  | cons w ws ih =>
    simp only [small_cons] at h
    obtain ⟨i1, i2⟩ := ih h.2
    rw [List.flatMap_cons]
    refine ⟨by rw [List.length_append, i1]; simp [wordBytes]; omega, ?_⟩
    rw [beNat_append, i1, i2, beNat_wordBytes h.1, List.reverse_cons, val_append]
    have h2 : B ^ ws.length = 256 ^ (4 * ws.length) := by
      rw [Nat.pow_mul]; congr 1
    simp only [val, List.length_reverse, h2]
    ring

theorem toArray_spec {n : Num} (h : WF n) :
    (toArray n 32).length = 32 ∧ beNat (toArray n 32) = val n % 2 ^ 256 := by
  have hs : Small (n.take (32 / 4)).reverse := fun w hw =>
    h.2 w (List.mem_of_mem_take (List.mem_reverse.1 hw))
  obtain ⟨h1, h2⟩ := flatMap_wordBytes _ hs
  refine ⟨?_, ?_⟩
  · rw [toArray, h1]; simp [h.1]
  · rw [toArray, h2, List.reverse_reverse, val_take h.2 _ (by rw [h.1]; omega)]
    have : B ^ (32 / 4) = 2 ^ 256 := by rw [B, ← Nat.pow_mul]
    rw [this]

end Verif.Bn
