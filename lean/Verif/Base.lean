/-
Shared vocabulary of the model: bytes, little/big-endian integers, and the
three-way outcome of a C routine (result, reported error, undefined behaviour).
-/
namespace Verif

/-- A C byte buffer: exactly the bytes that are valid to access. -/
abbrev Bytes := List UInt8

/-- Outcome of a modelled C routine: a result, an error the routine reports
itself, or undefined behaviour (out-of-bounds access, failed `assert`, ...). -/
inductive Out (ε α : Type) where
  | ok (a : α)
  | err (e : ε)
  | ub
  deriving Repr, DecidableEq

namespace Out
variable {ε α β : Type}

def bind (x : Out ε α) (f : α → Out ε β) : Out ε β :=
  match x with
  | ok a => f a
  | err e => err e
  | ub => ub

instance : Monad (Out ε) where
  pure := ok
  bind := bind

@[simp] theorem pure_eq (a : α) : (pure a : Out ε α) = ok a := rfl
@[simp] theorem bind_ok (a : α) (f : α → Out ε β) : ((ok a : Out ε α) >>= f) = f a := rfl
@[simp] theorem bind_err (e : ε) (f : α → Out ε β) : ((err e : Out ε α) >>= f) = err e := rfl
@[simp] theorem bind_ub (f : α → Out ε β) : ((ub : Out ε α) >>= f) = ub := rfl

theorem bind_eq_ok {x : Out ε α} {f : α → Out ε β} {b : β} :
    (x >>= f) = ok b ↔ ∃ a, x = ok a ∧ f a = ok b := by
  cases x <;> simp

theorem bind_ne_ub {x : Out ε α} {f : α → Out ε β}
    (hx : x ≠ ub) (hf : ∀ a, x = ok a → f a ≠ ub) : (x >>= f) ≠ ub := by
  cases x with
  | ok a => simpa using hf a rfl
  | err e => simp
  | ub => exact absurd rfl hx

end Out

/-- The value of a byte string read least significant byte first. -/
def leNat : Bytes → Nat
  | [] => 0
  | b :: r => b.toNat + 256 * leNat r

/-- The `k` low bytes of `n`, least significant first. -/
def leBytes : Nat → Nat → Bytes
  | 0, _ => []
  | k + 1, n => UInt8.ofNat n :: leBytes k (n / 256)

/-- The value of a byte string read most significant byte first. -/
def beNat (s : Bytes) : Nat := leNat s.reverse

/-- The `k` low bytes of `n`, most significant first. -/
def beBytes (k n : Nat) : Bytes := (leBytes k n).reverse

@[simp] theorem leBytes_length (k n : Nat) : (leBytes k n).length = k := by
  induction k generalizing n with
  | zero => rfl
  | succ k ih => simp [leBytes, ih]

@[simp] theorem beBytes_length (k n : Nat) : (beBytes k n).length = k := by
  simp [beBytes]

theorem leNat_lt (s : Bytes) : leNat s < 256 ^ s.length := by
  induction s with
  | nil => simp [leNat]
  | cons b r ih =>
    have hb : b.toNat < 256 := b.toNat_lt
    have : 256 ^ (r.length + 1) = 256 * 256 ^ r.length := by
      rw [Nat.pow_succ, Nat.mul_comm]
    simp only [leNat, List.length_cons, this]
    omega

theorem beNat_lt (s : Bytes) : beNat s < 256 ^ s.length := by
  have := leNat_lt s.reverse
  simpa [beNat] using this

theorem leNat_leBytes (k n : Nat) : leNat (leBytes k n) = n % 256 ^ k := by
  induction k generalizing n with
  | zero => simp [leBytes, leNat, Nat.mod_one]
  | succ k ih =>
    have h1 : 256 ^ (k + 1) = 256 * 256 ^ k := by rw [Nat.pow_succ, Nat.mul_comm]
    simp only [leBytes, leNat, ih, h1, UInt8.toNat_ofNat']
    rw [Nat.mod_mul]

@[simp] theorem leNat_leBytes_of_lt {k n : Nat} (h : n < 256 ^ k) :
    leNat (leBytes k n) = n := by
  rw [leNat_leBytes, Nat.mod_eq_of_lt h]

@[simp] theorem leBytes_leNat (s : Bytes) : leBytes s.length (leNat s) = s := by
  induction s with
  | nil => rfl
  | cons b r ih =>
    have hb : b.toNat < 256 := b.toNat_lt
    have h2 : (b.toNat + 256 * leNat r) / 256 = leNat r := by omega
    simp only [List.length_cons, leBytes, leNat, h2, ih, List.cons.injEq, and_true]
    apply UInt8.toNat.inj
    simp only [UInt8.toNat_ofNat']
    omega

theorem leNat_inj {s t : Bytes} (hl : s.length = t.length) (h : leNat s = leNat t) : s = t := by
  rw [← leBytes_leNat s, ← leBytes_leNat t, hl, h]

theorem beNat_beBytes (k n : Nat) : beNat (beBytes k n) = n % 256 ^ k := by
  simp [beNat, beBytes, leNat_leBytes]

@[simp] theorem beNat_beBytes_of_lt {k n : Nat} (h : n < 256 ^ k) :
    beNat (beBytes k n) = n := by
  rw [beNat_beBytes, Nat.mod_eq_of_lt h]

@[simp] theorem beBytes_beNat (s : Bytes) : beBytes s.length (beNat s) = s := by
  have := leBytes_leNat s.reverse
  rw [List.length_reverse] at this
  simp [beBytes, beNat, this]

theorem beNat_inj {s t : Bytes} (hl : s.length = t.length) (h : beNat s = beNat t) : s = t := by
  rw [← beBytes_beNat s, ← beBytes_beNat t, hl, h]

/-- Read one byte of a buffer; out of range is undefined behaviour. -/
def memGet {ε : Type} (m : Bytes) (i : Nat) : Out ε UInt8 :=
  match m[i]? with
  | some b => .ok b
  | none => .ub

/-- Read `n` bytes at offset `off`; out of range is undefined behaviour. -/
def memSlice {ε : Type} (m : Bytes) (off n : Nat) : Out ε Bytes :=
  if off + n ≤ m.length then .ok ((m.drop off).take n) else .ub

theorem memGet_ok {ε : Type} {m : Bytes} {i : Nat} (h : i < m.length) :
    (memGet m i : Out ε UInt8) = .ok m[i] := by
  simp [memGet, h]

theorem memSlice_ok {ε : Type} {m : Bytes} {off n : Nat} (h : off + n ≤ m.length) :
    (memSlice m off n : Out ε Bytes) = .ok ((m.drop off).take n) := by
  simp [memSlice, h]

end Verif
