import Verif.Model.Base32
import Verif.Spec.Base32
/-
Helper lemmas for base32.
-/
namespace Verif.Base32
open Verif.Spec.Base32

theorem or_add (k a b : Nat) (h : b < 2 ^ k) : a * 2 ^ k ||| b = a * 2 ^ k + b := by
  rw [Nat.mul_comm, ← Nat.two_pow_add_eq_or_of_lt h]

/-- Encoder states and the bits not yet written. -/
inductive Pend : Nat → Nat → List Nat → Prop
  | m0 {l : Nat} : Pend 0 l []
  | m1 {a b c : Nat} : Pend 1 ((4 * a + 2 * b + c) * 4) [a, b, c]
  | m2 {a : Nat} : Pend 2 (a * 16) [a]
  | m3 {a b c d : Nat} : Pend 3 ((8 * a + 4 * b + 2 * c + d) * 2) [a, b, c, d]
  | m4 {a b : Nat} : Pend 4 ((2 * a + b) * 8) [a, b]

theorem encLoop_groups (data : Bytes) {mode left : Nat} {p : List Nat} (hp : Pend mode left p) :
    ∃ p', Pend (encLoop mode left data).2.2 (encLoop mode left data).2.1 p' ∧
      (encLoop mode left data).1 ++ (if (encLoop mode left data).2.2 > 0 then [(encLoop mode left data).2.1] else []) =
        groups (p ++ bits data) := by
  induction data generalizing mode left p with
  | nil =>
    refine ⟨p, hp, ?_⟩
    cases hp <;> simp [encLoop, bits, groups] <;> omega
  | cons c data ih =>
    have hc : c.toNat < 256 := c.toNat_lt
    simp only [encLoop]
    cases hp with
    | m0 =>
      obtain ⟨p', h1, h2⟩ := ih (mode := 1) (Pend.m1 (a := c.toNat / 4 % 2) (b := c.toNat / 2 % 2) (c := c.toNat % 2))
      rw [show (4 * (c.toNat / 4 % 2) + 2 * (c.toNat / 2 % 2) + c.toNat % 2) * 4 = c.toNat % 8 * 4 by omega] at h1 h2
      refine ⟨p', h1, ?_⟩
      simp only [encStep, bits, List.flatMap_cons, bits8, List.nil_append, List.cons_append, groups, List.cons.injEq]
      exact ⟨by omega, h2⟩
    | m1 =>
      rename_i x y z
      obtain ⟨p', h1, h2⟩ := ih (mode := 2) (Pend.m2 (a := c.toNat % 2))
      refine ⟨p', h1, ?_⟩
      simp only [encStep, bits, List.flatMap_cons, bits8, List.nil_append, List.cons_append, groups, List.cons.injEq]
      refine ⟨?_, by omega, h2⟩
      rw [show (4 : Nat) = 2 ^ 2 from rfl, or_add 2 _ _ (by omega)]
      omega
    | m2 =>
      rename_i x
      obtain ⟨p', h1, h2⟩ := ih (mode := 3) (Pend.m3 (a := c.toNat / 8 % 2) (b := c.toNat / 4 % 2) (c := c.toNat / 2 % 2) (d := c.toNat % 2))
      rw [show (8 * (c.toNat / 8 % 2) + 4 * (c.toNat / 4 % 2) + 2 * (c.toNat / 2 % 2) + c.toNat % 2) * 2 = c.toNat % 16 * 2 by omega] at h1 h2
      refine ⟨p', h1, ?_⟩
      simp only [encStep, bits, List.flatMap_cons, bits8, List.nil_append, List.cons_append, groups, List.cons.injEq]
      refine ⟨?_, h2⟩
      rw [show (16 : Nat) = 2 ^ 4 from rfl, or_add 4 _ _ (by omega)]
      omega
    | m3 =>
      rename_i x y z w
      obtain ⟨p', h1, h2⟩ := ih (mode := 4) (Pend.m4 (a := c.toNat / 2 % 2) (b := c.toNat % 2))
      rw [show (2 * (c.toNat / 2 % 2) + c.toNat % 2) * 8 = c.toNat % 4 * 8 by omega] at h1 h2
      refine ⟨p', h1, ?_⟩
      simp only [encStep, bits, List.flatMap_cons, bits8, List.nil_append, List.cons_append, groups, List.cons.injEq]
      refine ⟨?_, by omega, h2⟩
      rw [show (8 * x + 4 * y + 2 * z + w) * 2 = (8 * x + 4 * y + 2 * z + w) * 2 ^ 1 by omega, or_add 1 _ _ (by omega)]
      omega
    | m4 =>
      rename_i x y
      obtain ⟨p', h1, h2⟩ := ih (mode := 0) (left := (2 * x + y) * 8) Pend.m0
      refine ⟨p', h1, ?_⟩
      simp only [encStep, bits, List.flatMap_cons, bits8, List.nil_append, List.cons_append, groups, List.cons.injEq]
      refine ⟨?_, by omega, h2⟩
      rw [show (8 : Nat) = 2 ^ 3 from rfl, or_add 3 _ _ (by omega)]
      omega

theorem bits_length (data : Bytes) : (bits data).length = 8 * data.length := by
  induction data with
  | nil => rfl
  | cons c data ih => simp only [bits, List.flatMap_cons, List.length_append, List.length_cons] at *; rw [ih]; simp [bits8]; omega

theorem groups_length (l : List Nat) : (groups l).length = (l.length + 4) / 5 := by
  induction l using groups.induct <;> simp_all [groups] <;> omega

/-- Which mode the encoder ends in. -/
theorem encLoop_mode (data : Bytes) (mode left : Nat) (hm : mode < 5) :
    (encLoop mode left data).2.2 = (mode + data.length) % 5 := by
  induction data generalizing mode left with
  | nil => simp [encLoop]; omega
  | cons c data ih =>
    simp only [encLoop, List.length_cons]
    have : (encStep mode left c.toNat).2.2 = (mode + 1) % 5 := by
      have : mode = 0 ∨ mode = 1 ∨ mode = 2 ∨ mode = 3 ∨ mode = 4 := by omega
      rcases this with rfl | rfl | rfl | rfl | rfl <;> rfl
    rw [ih _ _ (by omega), this]
    omega

/-- A list of zeros and ones. -/
def IsBits (l : List Nat) : Prop := ∀ b ∈ l, b < 2

theorem isBits_bits (data : Bytes) : IsBits (bits data) := by
  intro b hb
  simp only [bits, List.mem_flatMap] at hb
  obtain ⟨c, _, hb⟩ := hb
  simp only [bits8, List.mem_cons, List.not_mem_nil, or_false] at hb
  omega

theorem groups_lt (l : List Nat) (h : IsBits l) : ∀ i ∈ groups l, i < 32 := by
  induction l using groups.induct <;> simp_all [groups, IsBits] <;> omega

/-- The five bits of a symbol. -/
def bits5 (n : Nat) : List Nat := [n / 16 % 2, n / 8 % 2, n / 4 % 2, n / 2 % 2, n % 2]

theorem groups_bits5 (syms : List Nat) (h : ∀ i ∈ syms, i < 32) : groups (syms.flatMap bits5) = syms := by
  induction syms with
  | nil => rfl
  | cons i r ih =>
    have := h i (by simp)
    simp only [List.flatMap_cons, bits5, List.cons_append, List.nil_append, groups, List.cons.injEq]
    exact ⟨by omega, ih (fun j hj => h j (by simp [hj]))⟩

theorem bits5_groups (l : List Nat) (h : IsBits l) :
    (groups l).flatMap bits5 = l ++ List.replicate ((5 - l.length % 5) % 5) 0 := by
  induction l using groups.induct with
  | case1 a b c d e r ih =>
    simp only [IsBits, List.mem_cons, forall_eq_or_imp] at h
    obtain ⟨h1, h2, h3, h4, h5, h6⟩ := h
    simp only [groups, List.flatMap_cons, bits5, List.cons_append, List.nil_append, List.cons.injEq, List.length_cons]
    rw [ih h6]
    refine ⟨by omega, by omega, by omega, by omega, by omega, ?_⟩
    congr 2; omega
  | _ => simp_all [groups, bits5, IsBits, List.replicate] <;> omega

/-- The whole bytes of a list of bits, and the bits left over. -/
def octets : List Nat → List Nat × List Nat
  | a :: b :: c :: d :: e :: f :: g :: h :: r =>
    ((128 * a + 64 * b + 32 * c + 16 * d + 8 * e + 4 * f + 2 * g + h) :: (octets r).1, (octets r).2)
  | l => ([], l)

theorem octets_bits (data : Bytes) (z : List Nat) (hz : z.length < 8) :
    octets (bits data ++ z) = (data.map (·.toNat), z) := by
  induction data with
  | nil =>
    match z, hz with
    | [], _ => rfl
    | [_], _ => rfl
    | [_, _], _ => rfl
    | [_, _, _], _ => rfl
    | [_, _, _, _], _ => rfl
    | [_, _, _, _, _], _ => rfl
    | [_, _, _, _, _, _], _ => rfl
    | [_, _, _, _, _, _, _], _ => rfl
    | _ :: _ :: _ :: _ :: _ :: _ :: _ :: _ :: _, h => simp at h; omega
  | cons c data ih =>
    have hc : c.toNat < 256 := c.toNat_lt
    simp only [bits, List.flatMap_cons, bits8, List.cons_append, List.nil_append, octets, List.map_cons, Prod.mk.injEq, List.cons.injEq] at *
    rw [ih]
    exact ⟨⟨by omega, rfl⟩, rfl⟩

theorem octets_concat (l : List Nat) (h : IsBits l) :
    l = bits ((octets l).1.map UInt8.ofNat) ++ (octets l).2 ∧ (octets l).2.length < 8 ∧ IsBits (octets l).2 := by
  induction l using octets.induct with
  | case1 a b c d e f g i r ih =>
    simp only [IsBits, List.mem_cons, forall_eq_or_imp] at h
    obtain ⟨h1, h2, h3, h4, h5, h6, h7, h8, h9⟩ := h
    obtain ⟨i1, i2, i3⟩ := ih h9
    refine ⟨?_, i2, i3⟩
    simp only [octets, List.map_cons, bits, List.flatMap_cons, bits8, List.cons_append, List.nil_append, List.cons.injEq]
    have hn : (UInt8.ofNat (128 * a + 64 * b + 32 * c + 16 * d + 8 * e + 4 * f + 2 * g + i)).toNat =
        128 * a + 64 * b + 32 * c + 16 * d + 8 * e + 4 * f + 2 * g + i := by
      rw [UInt8.toNat_ofNat']; omega
    rw [hn]
    exact ⟨by omega, by omega, by omega, by omega, by omega, by omega, by omega, by omega, i1⟩
  | case2 l hl =>
    have : octets l = ([], l) := by
      unfold octets
      split
      · exact absurd rfl (hl _ _ _ _ _ _ _ _ _)
      · rfl
    rw [this]
    refine ⟨by simp [bits], ?_, h⟩
    match l, hl with
    | [], _ => simp
    | [_], _ => simp
    | [_, _], _ => simp
    | [_, _, _], _ => simp
    | [_, _, _, _], _ => simp
    | [_, _, _, _, _], _ => simp
    | [_, _, _, _, _, _], _ => simp
    | [_, _, _, _, _, _, _], _ => simp
    | _ :: _ :: _ :: _ :: _ :: _ :: _ :: _ :: _, h => exact absurd rfl (h _ _ _ _ _ _ _ _ _)

/-- The decoder on symbol values alone. -/
def symLoop : Nat → Nat → List Nat → List Nat × Nat × Nat
  | mode, left, [] => ([], left, mode)
  | mode, left, v :: r =>
    let s := decStep mode left v
    let q := symLoop s.2.2 s.2.1 r
    (s.1 ++ q.1, q.2)

/-- Decoder states and the bits read but not yet stored. -/
inductive Held : Nat → Nat → List Nat → Prop
  | m0 {l : Nat} : Held 0 l []
  | m1 {a b c d e : Nat} : Held 1 (16 * a + 8 * b + 4 * c + 2 * d + e) [a, b, c, d, e]
  | m2 {a b : Nat} : Held 2 (2 * a + b) [a, b]
  | m3 {a b c d e f g : Nat} : Held 3 (64 * a + 32 * b + 16 * c + 8 * d + 4 * e + 2 * f + g) [a, b, c, d, e, f, g]
  | m4 {a b c d : Nat} : Held 4 (8 * a + 4 * b + 2 * c + d) [a, b, c, d]
  | m5 {a : Nat} : Held 5 a [a]
  | m6 {a b c d e f : Nat} : Held 6 (32 * a + 16 * b + 8 * c + 4 * d + 2 * e + f) [a, b, c, d, e, f]
  | m7 {a b c : Nat} : Held 7 (4 * a + 2 * b + c) [a, b, c]

theorem Held.cast {m l l' : Nat} {p : List Nat} (h : Held m l p) (e : l = l') : Held m l' p := e ▸ h

theorem symLoop_octets (syms : List Nat) (hs : ∀ i ∈ syms, i < 32) {mode left : Nat} {p : List Nat} (hp : Held mode left p) :
    (symLoop mode left syms).1 = (octets (p ++ syms.flatMap bits5)).1 ∧
    Held (symLoop mode left syms).2.2 (symLoop mode left syms).2.1 (octets (p ++ syms.flatMap bits5)).2 := by
  induction syms generalizing mode left p with
  | nil => cases hp <;> exact ⟨rfl, by constructor⟩
  | cons v r ih =>
    have hv := hs v (by simp)
    have ih' := fun (mode left : Nat) (p : List Nat) (h : Held mode left p) =>
      ih (fun i hi => hs i (by simp [hi])) (mode := mode) (left := left) (p := p) h
    simp only [symLoop]
    cases hp with
    | m0 =>
      have := ih' (mode := 1) (left := v) (p := bits5 v) (Held.m1.cast (by omega))
      simpa only [decStep, List.nil_append, List.flatMap_cons] using this
    | m1 =>
      rename_i a b c d e
      have := ih' (mode := 2) (left := v % 4) (p := [v / 2 % 2, v % 2]) (Held.m2.cast (by omega))
      simp only [decStep, List.flatMap_cons, bits5, List.cons_append, List.nil_append, octets, List.cons.injEq] at this ⊢
      refine ⟨⟨?_, this.1⟩, this.2⟩
      rw [show (8 : Nat) = 2 ^ 3 from rfl, or_add 3 _ _ (by omega)]
      omega
    | m2 =>
      rename_i a b
      have := ih' (mode := 3) (left := (2 * a + b) * 32 ||| v) (p := [a, b, v / 16 % 2, v / 8 % 2, v / 4 % 2, v / 2 % 2, v % 2])
        (Held.m3.cast (by rw [show (2 * a + b) * 32 = (2 * a + b) * 2 ^ 5 by omega, or_add 5 _ _ (by omega)]; omega))
      simpa only [decStep, List.flatMap_cons, bits5, List.cons_append, List.nil_append] using this
    | m3 =>
      rename_i a b c d e f g
      have := ih' (mode := 4) (left := v % 16) (p := [v / 8 % 2, v / 4 % 2, v / 2 % 2, v % 2]) (Held.m4.cast (by omega))
      simp only [decStep, List.flatMap_cons, bits5, List.cons_append, List.nil_append, octets, List.cons.injEq] at this ⊢
      refine ⟨⟨?_, this.1⟩, this.2⟩
      rw [show ∀ x : Nat, x * 2 = x * 2 ^ 1 by intro x; omega, or_add 1 _ _ (by omega)]
      omega
    | m4 =>
      rename_i a b c d
      have := ih' (mode := 5) (left := v % 2) (p := [v % 2]) Held.m5
      simp only [decStep, List.flatMap_cons, bits5, List.cons_append, List.nil_append, octets, List.cons.injEq] at this ⊢
      refine ⟨⟨?_, this.1⟩, this.2⟩
      rw [show (16 : Nat) = 2 ^ 4 from rfl, or_add 4 _ _ (by omega)]
      omega
    | m5 =>
      have := ih' (mode := 6) (left := left * 32 ||| v) (p := [left, v / 16 % 2, v / 8 % 2, v / 4 % 2, v / 2 % 2, v % 2])
        (Held.m6.cast (by rw [show left * 32 = left * 2 ^ 5 by omega, or_add 5 _ _ (by omega)]; omega))
      simpa only [decStep, List.flatMap_cons, bits5, List.cons_append, List.nil_append] using this
    | m6 =>
      rename_i a b c d e f
      have := ih' (mode := 7) (left := v % 8) (p := [v / 4 % 2, v / 2 % 2, v % 2]) (Held.m7.cast (by omega))
      simp only [decStep, List.flatMap_cons, bits5, List.cons_append, List.nil_append, octets, List.cons.injEq] at this ⊢
      refine ⟨⟨?_, this.1⟩, this.2⟩
      rw [show (4 : Nat) = 2 ^ 2 from rfl, or_add 2 _ _ (by omega)]
      omega
    | m7 =>
      rename_i a b c
      have := ih' (mode := 0) (left := 4 * a + 2 * b + c) (p := []) Held.m0
      simp only [decStep, List.flatMap_cons, bits5, List.cons_append, List.nil_append, octets, List.cons.injEq] at this ⊢
      refine ⟨⟨?_, this.1⟩, this.2⟩
      rw [show (32 : Nat) = 2 ^ 5 from rfl, or_add 5 _ _ (by omega)]
      omega

/-- What makes a table the inverse of an alphabet. -/
structure Codec (alphabet : Bytes) (table : List Int) : Prop where
  size : alphabet.length = 32
  sym : ∀ i < 32, value true table (alphabet.getD i 0) = .ok (i : Int)
  chr : ∀ c, value true table c = .ok (-1) ∨ ∃ i : Nat, i < 32 ∧ value true table c = .ok (i : Int) ∧ alphabet.getD i 0 = lower c
  eq : value true table 0x3d = .ok (-1)

def codecB (alphabet : Bytes) (table : List Int) : Bool :=
  decide (alphabet.length = 32) &&
  (List.range 32).all (fun i => decide (value true table (alphabet.getD i 0) = .ok (i : Int))) &&
  (List.range 256).all (fun n => decide (value true table (UInt8.ofNat n) = .ok (-1)) ||
    (List.range 32).any (fun i => decide (value true table (UInt8.ofNat n) = .ok (i : Int) ∧ alphabet.getD i 0 = lower (UInt8.ofNat n)))) &&
  decide (value true table 0x3d = .ok (-1))

theorem codecB_spec {alphabet : Bytes} {table : List Int} (h : codecB alphabet table = true) : Codec alphabet table := by
  simp only [codecB, Bool.and_eq_true, decide_eq_true_eq, List.all_eq_true, List.mem_range, Bool.or_eq_true, List.any_eq_true] at h
  obtain ⟨⟨⟨h1, h2⟩, h3⟩, h4⟩ := h
  refine ⟨h1, h2, ?_, h4⟩
  intro c
  have := h3 c.toNat c.toNat_lt
  rw [UInt8.ofNat_toNat] at this
  exact this

theorem codec : Codec charset table := codecB_spec (by decide +kernel)
theorem codecHex : Codec charsetHex tableHex := codecB_spec (by decide +kernel)

theorem symbols_eq {alphabet : Bytes} (h : alphabet.length = 32) (syms : List Nat) (hs : ∀ i ∈ syms, i < 32) :
    symbols alphabet syms = .ok (syms.map fun i => alphabet.getD i 0) := by
  induction syms with
  | nil => rfl
  | cons i r ih =>
    have hi : i < alphabet.length := by rw [h]; exact hs i (by simp)
    rw [symbols, List.getElem?_eq_getElem hi]
    simp only [ih (fun j hj => hs j (by simp [hj])), Out.bind, List.map_cons, Out.ok.injEq, List.cons.injEq, and_true]
    simp [List.getD_eq_getElem?_getD, hi]

theorem pad_eq (n : Nat) (hn : n % 5 ≠ 0) : padding[n % 5]? = some (padLen ((8 * n + 4) / 5)) := by
  have : n % 5 = 1 ∨ n % 5 = 2 ∨ n % 5 = 3 ∨ n % 5 = 4 := by omega
  have hl : (8 * n + 4) / 5 = 8 * (n / 5) + (8 * (n % 5) + 4) / 5 := by omega
  rw [hl]
  unfold padLen
  rcases this with h | h | h | h <;> rw [h] <;> simp [padding] <;> omega

theorem encode2_eq {alphabet : Bytes} (h : alphabet.length = 32) (data : Bytes) (pad : Bool) :
    encode2 alphabet data pad = .ok (text alphabet data pad) ∧ encodeSize data pad = (text alphabet data pad).length + 1 := by
  obtain ⟨p', h1, h2⟩ := encLoop_groups data (Pend.m0 (l := 0))
  have hm := encLoop_mode data 0 0 (by omega)
  have hlen : (groups (bits data)).length = (8 * data.length + 4) / 5 := by rw [groups_length, bits_length]
  have hlt := groups_lt _ (isBits_bits data)
  simp only [List.nil_append] at h2
  rw [Nat.zero_add] at hm
  unfold encode2 encodeSize text
  dsimp only
  by_cases h0 : data.length % 5 = 0
  · rw [hm, h0] at h2 ⊢
    simp only [Nat.lt_irrefl, gt_iff_lt, if_false, List.append_nil] at h2 ⊢
    rw [h2] at *
    rw [symbols_eq h _ hlt]
    have : padLen (groups (bits data)).length = 0 := by rw [hlen]; unfold padLen; omega
    rw [this]
    simp
  · have hp := pad_eq _ h0
    have hpos : data.length % 5 > 0 := by omega
    rw [hm]
    rw [hm, if_pos hpos] at h2
    simp only [if_pos hpos]
    rw [hp]
    simp only
    rw [h2, symbols_eq h _ hlt, hlen]
    simp only [Out.bind, List.length_append, List.length_map, true_and]
    have := congrArg List.length h2
    rw [hlen] at this
    simp only [List.length_append, List.length_cons, List.length_nil] at this
    simp only [List.getD_eq_getElem?_getD, hp, Option.getD_some]
    split <;> simp [hlen] <;> omega

theorem decLoop_syms {alphabet : Bytes} {table : List Int} (C : Codec alphabet table) (unpad : Bool) (syms : List Nat)
    (hs : ∀ i ∈ syms, i < 32) (mode left : Nat) (rest : Bytes)
    (hr : rest = [] ∨ unpad = true ∧ (symLoop mode left syms).2.2 > 0 ∧ ∃ r, rest = 0x3d :: r) :
    decLoop true table unpad mode left (syms.map (fun i => alphabet.getD i 0) ++ rest) =
      .ok { out := (symLoop mode left syms).1.map UInt8.ofNat, mode := (symLoop mode left syms).2.2,
            left := (symLoop mode left syms).2.1, rest := rest } := by
  induction syms generalizing mode left with
  | nil =>
    rcases hr with rfl | ⟨hu, hm, r, rfl⟩
    · rfl
    · simp only [symLoop] at hm
      simp only [List.map_nil, List.nil_append, decLoop, C.eq, Out.bind, if_true, hu, Bool.true_and, decide_eq_true_eq, if_pos hm, symLoop]
  | cons i r ih =>
    have hi := hs i (by simp)
    simp only [symLoop] at hr
    simp only [List.map_cons, List.cons_append, decLoop, C.sym i hi, Out.bind]
    rw [if_neg (by omega)]
    simp only [Int.toNat_natCast]
    rw [ih (fun j hj => hs j (by simp [hj])) _ _ hr]
    simp [symLoop]

theorem decLoop_inv {alphabet : Bytes} {table : List Int} (C : Codec alphabet table) (unpad : Bool) (str : Bytes)
    {mode left : Nat} {d : Dec} (h : decLoop true table unpad mode left str = .ok d) :
    ∃ pre syms, str = pre ++ d.rest ∧ (∀ i ∈ syms, i < 32) ∧ pre.map lower = syms.map (fun i => alphabet.getD i 0) ∧
      d.out = (symLoop mode left syms).1.map UInt8.ofNat ∧ d.mode = (symLoop mode left syms).2.2 ∧
      d.left = (symLoop mode left syms).2.1 ∧ (d.rest = [] ∨ unpad = true ∧ d.mode > 0) := by
  induction str generalizing mode left d with
  | nil =>
    simp only [decLoop, Out.ok.injEq] at h
    subst h
    exact ⟨[], [], rfl, by simp, rfl, rfl, rfl, rfl, Or.inl rfl⟩
  | cons c str ih =>
    rw [decLoop] at h
    rcases C.chr c with hc | ⟨i, hi, hc, hl⟩
    · rw [hc] at h
      simp only [Out.bind, if_true] at h
      split at h
      · rename_i hu
        simp only [Bool.and_eq_true, decide_eq_true_eq] at hu
        simp only [Out.ok.injEq] at h
        subst h
        exact ⟨[], [], rfl, by simp, rfl, rfl, rfl, rfl, Or.inr hu⟩
      · cases h
    · rw [hc] at h
      simp only [Out.bind] at h
      rw [if_neg (by omega)] at h
      simp only [Int.toNat_natCast] at h
      generalize hg : decLoop true table unpad _ _ str = g at h
      cases g with
      | err _ => cases h
      | ub => cases h
      | ok d' =>
        simp only [Out.ok.injEq] at h
        obtain ⟨pre, syms, h1, h2, h3, h4, h5, h6, h7⟩ := ih hg
        subst h
        refine ⟨c :: pre, i :: syms, by simp [h1], ?_, by rw [List.map_cons, List.map_cons, h3, hl], ?_, ?_, ?_, h7⟩
        · intro j hj
          rcases List.mem_cons.1 hj with rfl | hj
          · exact hi
          · exact h2 j hj
        · simp only [symLoop, h4, List.map_append]
        · simp only [symLoop, h5]
        · simp only [symLoop, h6]

theorem decLoop_total {alphabet : Bytes} {table : List Int} (C : Codec alphabet table) (unpad : Bool) (str : Bytes)
    (mode left : Nat) : decLoop true table unpad mode left str ≠ .ub := by
  induction str generalizing mode left with
  | nil => simp [decLoop]
  | cons c str ih =>
    rw [decLoop]
    rcases C.chr c with hc | ⟨i, hi, hc, hl⟩
    · rw [hc]
      simp only [Out.bind, if_true]
      split <;> simp
    · rw [hc]
      simp only [Out.bind]
      rw [if_neg (by omega)]
      have := ih (decStep mode left i).2.2 (decStep mode left i).2.1
      simp only [Int.toNat_natCast]
      generalize decLoop true table unpad _ _ str = g at *
      cases g <;> simp_all

theorem symLoop_mode (syms : List Nat) (mode left : Nat) (hm : mode < 8) :
    (symLoop mode left syms).2.2 = (mode + syms.length) % 8 := by
  induction syms generalizing mode left with
  | nil => simp [symLoop]; omega
  | cons c r ih =>
    simp only [symLoop, List.length_cons]
    have : (decStep mode left c).2.2 = (mode + 1) % 8 := by
      have : mode = 0 ∨ mode = 1 ∨ mode = 2 ∨ mode = 3 ∨ mode = 4 ∨ mode = 5 ∨ mode = 6 ∨ mode = 7 := by omega
      rcases this with rfl | rfl | rfl | rfl | rfl | rfl | rfl | rfl <;> rfl
    rw [ih _ _ (by omega), this]
    omega

/-- Held bits that are all zero make `left` zero, and few enough of them mean a mode with
known padding. -/
theorem Held.zeros {mode left k : Nat} (h : Held mode left (List.replicate k 0)) (hk : k < 5) (hm : mode > 0) :
    left = 0 ∧ wantPad mode = some (padLen mode) := by
  generalize hz : List.replicate k 0 = z at h
  have hl := congrArg List.length hz
  have hzero : ∀ x ∈ z, x = 0 := by intro x hx; rw [← hz] at hx; exact (List.mem_replicate.1 hx).2
  simp only [List.length_replicate] at hl
  cases h <;> simp_all [wantPad, padLen] <;> omega

/-- A mode with known padding and nothing in `left` means a few zero bits are held. -/
theorem Held.of_zero {mode left : Nat} {z : List Nat} (h : Held mode left z) (hl : left = 0) (hw : mode = 0 ∨ wantPad mode ≠ none) :
    z = List.replicate z.length 0 ∧ z.length < 5 := by
  cases h <;> simp_all [wantPad, List.replicate] <;> omega

theorem groups_pad (l : List Nat) (h : IsBits l) :
    groups (l ++ List.replicate ((5 - l.length % 5) % 5) 0) = groups l := by
  rw [← bits5_groups l h, groups_bits5 _ (groups_lt l h)]

theorem flatMap_bits5_length (syms : List Nat) : (syms.flatMap bits5).length = 5 * syms.length := by
  induction syms with
  | nil => rfl
  | cons i r ih => simp [bits5, ih] ; omega

theorem isBits_bits5 (syms : List Nat) : IsBits (syms.flatMap bits5) := by
  intro b hb
  simp only [List.mem_flatMap] at hb
  obtain ⟨c, _, hb⟩ := hb
  simp only [bits5, List.mem_cons, List.not_mem_nil, or_false] at hb
  omega

theorem lower_eq_sign : lower 0x3d = 0x3d := by decide

theorem map_ofNat_toNat (data : Bytes) : (data.map (·.toNat)).map UInt8.ofNat = data := by
  induction data with
  | nil => rfl
  | cons c r ih => simp only [List.map_cons, ih, UInt8.ofNat_toNat]

theorem decode_text {alphabet : Bytes} {table : List Int} (C : Codec alphabet table) (data : Bytes) (pad : Bool) :
    decode2 true table (text alphabet data pad) pad = .ok data := by
  have hlt := groups_lt _ (isBits_bits data)
  have h5 := bits5_groups _ (isBits_bits data)
  have hlen := bits_length data
  have hk : (5 - (bits data).length % 5) % 5 < 5 := by omega
  have H := symLoop_octets (groups (bits data)) hlt (Held.m0 (l := 0))
  simp only [List.nil_append] at H
  rw [h5, octets_bits _ _ (by rw [List.length_replicate]; omega)] at H
  obtain ⟨H1, H2⟩ := H
  have hm := symLoop_mode (groups (bits data)) 0 0 (by omega)
  rw [Nat.zero_add] at hm
  have hpl : padLen (groups (bits data)).length = padLen (symLoop 0 0 (groups (bits data))).2.2 := by
    rw [hm]; unfold padLen; omega
  unfold decode2 text
  dsimp only
  rw [decLoop_syms C pad _ hlt 0 0 (if pad = true then List.replicate (padLen (groups (bits data)).length) 61 else []) ?_]
  · simp only [Out.bind, H1, map_ofNat_toNat]
    cases pad with
    | false => rfl
    | true =>
      by_cases h0 : (symLoop 0 0 (groups (bits data))).2.2 > 0
      · obtain ⟨z1, z2⟩ := H2.zeros hk h0
        simp only [Bool.true_and, decide_eq_true_eq, if_pos h0, z2, z1, hpl]
        simp
      · simp only [Bool.true_and, decide_eq_true_eq, if_neg h0]
  · cases pad with
    | false => left; rfl
    | true =>
      simp only [if_true]
      by_cases h0 : (symLoop 0 0 (groups (bits data))).2.2 > 0
      · right
        refine ⟨trivial, h0, ?_⟩
        have : padLen (groups (bits data)).length ≠ 0 := by rw [hpl]; rw [hm] at h0 ⊢; unfold padLen; omega
        obtain ⟨n, hn⟩ := Nat.exists_eq_succ_of_ne_zero this
        exact ⟨List.replicate n 0x3d, by rw [hn]; rfl⟩
      · left
        have : padLen (groups (bits data)).length = 0 := by rw [hpl]; rw [hm] at h0 ⊢; unfold padLen; omega
        rw [this]; rfl

theorem decode_sound {alphabet : Bytes} {table : List Int} (C : Codec alphabet table) (str data : Bytes) (unpad : Bool)
    (h : decode2 true table str unpad = .ok data) :
    ∃ (pre rest : Bytes) (syms z : List Nat), str = pre ++ rest ∧ (∀ i ∈ syms, i < 32) ∧ pre.map lower = syms.map (fun i => alphabet.getD i 0) ∧
      syms.flatMap bits5 = bits data ++ z ∧ z.length < 8 ∧ IsBits z ∧ (unpad = false → rest = []) ∧
      (unpad = true → z = List.replicate z.length 0 ∧ z.length < 5 ∧ rest = List.replicate (padLen syms.length) 0x3d) := by
  unfold decode2 at h
  obtain ⟨d, hd, h⟩ := Out.bind_eq_ok.1 h
  obtain ⟨pre, syms, h1, h2, h3, h4, h5, h6, h7⟩ := decLoop_inv C unpad str hd
  obtain ⟨H1, H2⟩ := symLoop_octets syms h2 (Held.m0 (l := 0))
  obtain ⟨O1, O2, O3⟩ := octets_concat _ (isBits_bits5 syms)
  simp only [List.nil_append] at H1 H2
  have hm := symLoop_mode syms 0 0 (by omega)
  rw [Nat.zero_add] at hm
  rw [← h5, ← h6] at H2
  rw [← H1, ← h4] at O1
  have hdata : d.out = data := by
    split at h
    · split at h
      · cases h
      · split at h
        · cases h
        · split at h
          · cases h
          · exact Out.ok.inj h
    · exact Out.ok.inj h
  refine ⟨pre, d.rest, syms, _, h1, h2, h3, by rw [← hdata]; exact O1, O2, O3, ?_, ?_⟩
  · intro hu
    rcases h7 with h7 | ⟨hu', _⟩
    · exact h7
    · rw [hu] at hu'; cases hu'
  · intro hu
    subst hu
    by_cases h0 : d.mode > 0
    · simp only [Bool.true_and, decide_eq_true_eq, if_pos h0] at h
      split at h
      · cases h
      · rename_i n hn
        split at h
        · cases h
        · rename_i hl
          split at h
          · cases h
          · rename_i hr
            obtain ⟨z1, z2⟩ := H2.of_zero (by omega) (Or.inr (by rw [hn]; simp))
            refine ⟨z1, z2, ?_⟩
            rw [z1] at H2
            have hp := (H2.zeros z2 h0).2
            rw [hn] at hp
            have : padLen syms.length = padLen d.mode := by rw [h5, hm]; unfold padLen; omega
            rw [this, ← Option.some.inj hp]
            exact Classical.not_not.1 hr
    · have hm0 : d.mode = 0 := by omega
      rw [hm0] at H2
      have hz : (octets (syms.flatMap bits5)).2 = [] := by
        generalize (octets (syms.flatMap bits5)).2 = q at H2
        cases H2; rfl
      rw [hz]
      refine ⟨rfl, by simp, ?_⟩
      have : padLen syms.length = 0 := by rw [h5, hm] at hm0; unfold padLen; omega
      rw [this]
      rcases h7 with h7 | ⟨_, h7⟩
      · exact h7
      · exact absurd h7 h0

theorem decode_canonical {alphabet : Bytes} {table : List Int} (C : Codec alphabet table) (str data : Bytes)
    (h : decode2 true table str true = .ok data) : str.map lower = text alphabet data true := by
  obtain ⟨pre, rest, syms, z, h1, h2, h3, h4, h5, _, _, h6⟩ := decode_sound C str data true h
  obtain ⟨z1, z2, h6⟩ := h6 rfl
  have hl := congrArg List.length h4
  rw [flatMap_bits5_length, List.length_append] at hl
  have hz : z.length = (5 - (bits data).length % 5) % 5 := by omega
  have hs : syms = groups (bits data) := by
    rw [← groups_bits5 syms h2, h4, z1, hz, groups_pad _ (isBits_bits data)]
  rw [h1, List.map_append, h3, h6, hs, List.map_replicate, lower_eq_sign]
  rfl

end Verif.Base32
