import Verif.Model.Random
import Mathlib.Data.Set.Card
import Mathlib.Data.Int.CardIntervalMod
/-
C96: the random numbers are as good as those of the system. A source of `k` bits yields the numbers below 2 ^ k; that it is uniform
and its calls independent means that all tuples of them are equally likely, so that a result is as likely as it has tuples.
-/
namespace Verif.Props.Random
open Verif Verif.Random

/-- The pairs of numbers of `k` bits that yield `v`. -/
def pairs (k : Nat) (v : UInt32) : Set (UInt32 × UInt32) := {p | p.1.toNat < 2 ^ k ∧ p.2.toNat < 2 ^ k ∧ random p.1 p.2 = v}

/-- Changes to the two numbers that change the result by `d`. -/
def hi (d : UInt32) : UInt32 := d >>> 16
def lo (d : UInt32) : UInt32 := d &&& 0xffff

theorem mask : ∀ i < 32, (65535#32).getLsbD i = decide (i < 16) := by decide

theorem hi_lo (a b d : UInt32) : random (a ^^^ hi d) (b ^^^ lo d) = random a b ^^^ d := by
  apply UInt32.toBitVec_inj.1
  apply BitVec.eq_of_getLsbD_eq
  intro i hi'
  have e := mask i hi'
  by_cases h : i < 16
  · simp [random, hi, lo, BitVec.getLsbD_xor, e, h]
  · have h2 : 16 + (i - 16) = i := by omega
    rw [BitVec.getLsbD_eq_getElem hi'] at e
    simp [random, hi, lo, BitVec.getLsbD_xor, e, h, hi', h2]
    cases d.toBitVec[i] <;> cases b.toBitVec[i] <;> rfl

theorem small (d : UInt32) (k : Nat) (hk : 16 ≤ k) : (hi d).toNat < 2 ^ k ∧ (lo d).toNat < 2 ^ k := by
  have h : (2 : Nat) ^ 16 ≤ 2 ^ k := Nat.pow_le_pow_right (by omega) hk
  have hd := d.toNat_lt
  constructor
  · have : (hi d).toNat = d.toNat / 65536 := by
      rw [hi, UInt32.toNat_shiftRight]
      simp [Nat.shiftRight_eq_div_pow]
    omega
  · have : (lo d).toNat = d.toNat &&& 65535 := by
      rw [lo, UInt32.toNat_and]
      rfl
    have := Nat.and_le_right (n := d.toNat) (m := 65535)
    omega

theorem xor_lt (x y : UInt32) (k : Nat) (hx : x.toNat < 2 ^ k) (hy : y.toNat < 2 ^ k) : (x ^^^ y).toNat < 2 ^ k := by
  rw [UInt32.toNat_xor]
  exact Nat.xor_lt_two_pow hx hy

theorem xor_back (x y : UInt32) : x ^^^ y ^^^ y = x := by simp [UInt32.xor_assoc]

theorem shift_mem (k : Nat) (hk : 16 ≤ k) (v d : UInt32) (p : UInt32 × UInt32) (h : p ∈ pairs k v) :
    (p.1 ^^^ hi d, p.2 ^^^ lo d) ∈ pairs k (v ^^^ d) :=
  ⟨xor_lt _ _ k h.1 (small d k hk).1, xor_lt _ _ k h.2.1 (small d k hk).2, by rw [hi_lo, h.2.2]⟩

/-- C96: from a source of at least 16 bits, every number of 32 bits is equally likely. (Those of the systems have 31 or 32, that of
Windows 15; see C96_windows_false.) -/
theorem C96_uniform_partial (k : Nat) (hk : 16 ≤ k) (v w : UInt32) : (pairs k v).ncard = (pairs k w).ncard := by
  have e : v ^^^ (v ^^^ w) = w := by rw [← UInt32.xor_assoc]; simp
  have e' : w ^^^ (v ^^^ w) = v := by rw [UInt32.xor_comm v w, ← UInt32.xor_assoc]; simp
  refine Set.ncard_congr (fun p _ => (p.1 ^^^ hi (v ^^^ w), p.2 ^^^ lo (v ^^^ w))) ?_ ?_ ?_
  · intro p hp
    have := shift_mem k hk v (v ^^^ w) p hp
    rwa [e] at this
  · intro p q _ _ h
    simp only [Prod.mk.injEq] at h
    have h1 := congrArg (· ^^^ hi (v ^^^ w)) h.1
    have h2 := congrArg (· ^^^ lo (v ^^^ w)) h.2
    simp only [xor_back] at h1 h2
    exact Prod.ext h1 h2
  · intro q hq
    have := shift_mem k hk w (v ^^^ w) q hq
    rw [e'] at this
    exact ⟨_, this, by simp only [xor_back]⟩

/-- And every number of 32 bits does occur. -/
theorem C96_all_partial (k : Nat) (hk : 16 ≤ k) (v : UInt32) : (pairs k v).Nonempty := by
  have h : ((0, 0) : UInt32 × UInt32) ∈ pairs k 0 := ⟨Nat.two_pow_pos k, Nat.two_pow_pos k, by decide⟩
  have := shift_mem k hk 0 v _ h
  rw [UInt32.zero_xor] at this
  exact ⟨_, this⟩

example : ((0x7fff8000, 0x12345678) : UInt32 × UInt32) ∈ pairs 31 0x92345678 := ⟨by decide, by decide, by decide⟩

/-- The four numbers of `k` bits that yield the nonce `v`. -/
def quads (swap : Bool) (k : Nat) (v : UInt64) : Set ((UInt32 × UInt32) × (UInt32 × UInt32)) :=
  {p | (p.1.1.toNat < 2 ^ k ∧ p.1.2.toNat < 2 ^ k) ∧ (p.2.1.toNat < 2 ^ k ∧ p.2.2.toNat < 2 ^ k) ∧
    nonce swap p.1.1 p.1.2 p.2.1 p.2.2 = v}

theorem join (x y : UInt32) (v : UInt64) :
    (x.toUInt64 <<< 32) + y.toUInt64 = v ↔ x = UInt32.ofNat (v.toNat / 2 ^ 32) ∧ y = UInt32.ofNat (v.toNat % 2 ^ 32) := by
  have hx := x.toNat_lt
  have hy := y.toNat_lt
  have hv := v.toNat_lt
  have e : ((x.toUInt64 <<< 32) + y.toUInt64).toNat = x.toNat * 2 ^ 32 + y.toNat := by
    rw [UInt64.toNat_add, UInt64.toNat_shiftLeft]
    simp [Nat.shiftLeft_eq]
    omega
  rw [← UInt64.toNat_inj, e, ← UInt32.toNat_inj, ← UInt32.toNat_inj, UInt32.toNat_ofNat', UInt32.toNat_ofNat']
  omega

/-- The nonces as pairs of pairs. -/
theorem quads_eq (swap : Bool) (k : Nat) (v : UInt64) : ∃ x y : UInt32, quads swap k v = pairs k x ×ˢ pairs k y := by
  cases swap with
  | false =>
    refine ⟨UInt32.ofNat (v.toNat / 2 ^ 32), UInt32.ofNat (v.toNat % 2 ^ 32), Set.ext fun p => ?_⟩
    simp only [quads, pairs, Set.mem_setOf_eq, Set.mem_prod, nonce, Bool.false_eq_true, if_false, join]
    exact ⟨fun h => ⟨⟨h.1.1, h.1.2, h.2.2.1⟩, h.2.1.1, h.2.1.2, h.2.2.2⟩,
      fun h => ⟨⟨h.1.1, h.1.2.1⟩, ⟨h.2.1, h.2.2.1⟩, h.1.2.2, h.2.2.2⟩⟩
  | true =>
    refine ⟨UInt32.ofNat (v.toNat % 2 ^ 32), UInt32.ofNat (v.toNat / 2 ^ 32), Set.ext fun p => ?_⟩
    simp only [quads, pairs, Set.mem_setOf_eq, Set.mem_prod, nonce, if_true, join]
    exact ⟨fun h => ⟨⟨h.1.1, h.1.2, h.2.2.2⟩, h.2.1.1, h.2.1.2, h.2.2.1⟩,
      fun h => ⟨⟨h.1.1, h.1.2.1⟩, ⟨h.2.1, h.2.2.1⟩, h.2.2.2, h.1.2.2⟩⟩

/-- C96: so is every nonce of 64 bits, whatever the order in which the compiler has its halves computed. -/
theorem C96_nonce_partial (swap : Bool) (k : Nat) (hk : 16 ≤ k) (v w : UInt64) :
    (quads swap k v).ncard = (quads swap k w).ncard ∧ (quads swap k v).Nonempty := by
  obtain ⟨x, y, e⟩ := quads_eq swap k v
  obtain ⟨x', y', e'⟩ := quads_eq swap k w
  rw [e, e', Set.ncard_prod, Set.ncard_prod, C96_uniform_partial k hk x x', C96_uniform_partial k hk y y']
  exact ⟨rfl, (C96_all_partial k hk x).prod (C96_all_partial k hk y)⟩

example : (((1, 2), (3, 4)) : (UInt32 × UInt32) × (UInt32 × UInt32)) ∈ quads false 31 0x0001000200030004 :=
  ⟨⟨by decide, by decide⟩, ⟨by decide, by decide⟩, by decide⟩

/-- C96: a choice among `n` takes each with the same likelihood, up to one of the 2 ^ 32 numbers. -/
theorem C96_choice (n i : Nat) (hn : 0 < n) (h : i < n) :
    {r : UInt32 | choice r n = i}.ncard = 2 ^ 32 / n + if i < 2 ^ 32 % n then 1 else 0 := by
  have e : {r : UInt32 | choice r n = i}.ncard = ((Finset.range (2 ^ 32)).filter (· % n = i)).card := by
    rw [← Set.ncard_coe_finset]
    refine Set.ncard_congr (fun r _ => r.toNat) ?_ ?_ ?_
    · intro r hr
      simp only [Finset.coe_filter, Finset.mem_range, Set.mem_setOf_eq]
      exact ⟨r.toNat_lt, hr⟩
    · intro a b _ _ hab
      exact UInt32.toNat_inj.1 hab
    · intro b hb
      simp only [Finset.coe_filter, Finset.mem_range, Set.mem_setOf_eq] at hb
      have hb' : (UInt32.ofNat b).toNat = b := by rw [UInt32.toNat_ofNat']; omega
      exact ⟨UInt32.ofNat b, by rw [Set.mem_setOf_eq, choice, hb']; exact hb.2, hb'⟩
  have c := Nat.count_modEq_card (2 ^ 32) hn i
  rw [Nat.count_eq_card_filter_range] at c
  rw [e]
  simp only [Nat.ModEq, Nat.mod_eq_of_lt h] at c
  exact c

example : choice 0xfffffffb 5 = 1 := by decide

theorem mask15 : ∀ i < 32, (2147516416#32).getLsbD i = decide (i = 15 ∨ i = 31) := by decide

theorem high (a : UInt32) (ha : a.toNat < 2 ^ 15) (i : Nat) (h : 15 ≤ i) : a.toBitVec.getLsbD i = false := by
  rw [← BitVec.testBit_toNat]
  exact Nat.testBit_lt_two_pow (Nat.lt_of_lt_of_le ha (Nat.pow_le_pow_right (by omega) h))

/-- C96 is false of sources of 15 bits, as on Windows, in spite of the comment in the code ("guarantee 32 bits of randomness"):
two of the bits are always 0, and three of four numbers never occur. -/
theorem C96_windows_false (a b : UInt32) (ha : a.toNat < 2 ^ 15) (hb : b.toNat < 2 ^ 15) : random a b &&& 0x80008000 = 0 := by
  apply UInt32.toBitVec_inj.1
  apply BitVec.eq_of_getLsbD_eq
  intro i hi'
  have e := mask15 i hi'
  have e1 : (random a b &&& 0x80008000).toBitVec.getLsbD i =
      (((a.toBitVec <<< 16).getLsbD i ^^ b.toBitVec.getLsbD i) && (2147516416#32).getLsbD i) := by
    simp [random, BitVec.getLsbD_xor]
  rw [e1, e]
  by_cases h : i = 15 ∨ i = 31
  · rcases h with rfl | rfl
    · have h1 := high b hb 15 (by omega)
      rw [BitVec.getLsbD_eq_getElem (by omega)] at h1
      simp [h1]
    · have h1 := high b hb 31 (by omega)
      have h2 := high a ha 15 (by omega)
      rw [BitVec.getLsbD_eq_getElem (by omega)] at h1 h2
      simp [h1, h2]
  · simp [h]

example : random 0x7fff 0x7fff = 0x7fff7fff := by decide

end Verif.Props.Random
