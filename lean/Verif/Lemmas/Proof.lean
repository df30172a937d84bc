import Verif.Spec.Proof
import Verif.Lemmas.Bio
namespace Verif.Proof
open Verif.Bio Verif.Spec.Radix

/-! ### bits -/

theorem byteBits_length (b : UInt8) : (byteBits b).length = 8 := rfl

theorem bitsOf_cons (b : UInt8) (r : Bytes) : bitsOf (b :: r) = byteBits b ++ bitsOf r := by
  simp [bitsOf]

@[simp] theorem bitsOf_length (s : Bytes) : (bitsOf s).length = 8 * s.length := by
  induction s with
  | nil => rfl
  | cons b r ih => rw [bitsOf_cons, List.length_append, ih, byteBits_length, List.length_cons]; omega

theorem bitsOf_append (s t : Bytes) : bitsOf (s ++ t) = bitsOf s ++ bitsOf t := by
  simp [bitsOf]

theorem testBit_eq (n k : Nat) : n.testBit k = ((n >>> k) % 2 == 1) := by
  simp only [Nat.testBit, Nat.and_comm 1, Nat.and_one_is_mod]
  rcases Nat.mod_two_eq_zero_or_one (n >>> k) with h | h <;> simp [h]

theorem byteBits_get (b : UInt8) (i : Nat) (h : i < 8) :
    (byteBits b)[i]? = some (b.toNat.testBit (7 - i)) := by
  have : i = 0 ∨ i = 1 ∨ i = 2 ∨ i = 3 ∨ i = 4 ∨ i = 5 ∨ i = 6 ∨ i = 7 := by omega
  rcases this with h | h | h | h | h | h | h | h <;> subst h <;> rfl

theorem bitsOf_get (m : Bytes) (i : Nat) (h : i < 8 * m.length) :
    (bitsOf m)[i]? = some (((m[i / 8]'(by omega)).toNat >>> (7 - i % 8)) % 2 == 1) := by
  induction m generalizing i with
  | nil => simp at h
  | cons b r ih =>
    rw [bitsOf_cons]
    by_cases hi : i < 8
    · rw [List.getElem?_append_left (by rw [byteBits_length]; exact hi), byteBits_get b i hi,
        testBit_eq]
      have h0 : i / 8 = 0 := by omega
      have h1 : i % 8 = i := by omega
      simp only [h0, h1, List.getElem_cons_zero]
    · rw [List.getElem?_append_right (by rw [byteBits_length]; omega), byteBits_length]
      simp only [List.length_cons] at h
      rw [ih (i - 8) (by omega)]
      have h0 : i / 8 = (i - 8) / 8 + 1 := by omega
      have h1 : i % 8 = (i - 8) % 8 := by omega
      simp only [h0, h1, List.getElem_cons_succ]

theorem hasBit_ok {ε : Type} {m : Bytes} {i : Nat} (h : i < 8 * m.length) :
    (hasBit m i : Out ε Bool) = .ok (bitAt m i) := by
  unfold hasBit bitAt
  rw [memGet_ok (by omega), bitsOf_get m i h]
  rfl

theorem bitAt_append {s t : Bytes} {i : Nat} (h : i < 8 * s.length) :
    bitAt (s ++ t) i = bitAt s i := by
  unfold bitAt
  rw [bitsOf_append, List.getElem?_append_left (by simpa using h)]

theorem bitAt_take {s : Bytes} {n i : Nat} (h : i < 8 * n) (hn : n ≤ s.length) :
    bitAt (s.take n) i = bitAt s i := by
  have : s = s.take n ++ s.drop n := (List.take_append_drop n s).symm
  conv => rhs; rw [this]
  rw [bitAt_append]
  simp; omega

/-! ### hsk_proof_has -/

theorem hasLoop_spec {ε : Type} (pfx key : Bytes) (len x y c : Nat)
    (hx : x + len ≤ 8 * pfx.length) (hy : y + len ≤ 8 * key.length) :
    ∃ c', (hasLoop pfx key len x y c : Out ε Nat) = .ok c' ∧ c' ≤ c + len ∧
      (c' = c + len ↔ ∀ i, i < len → bitAt pfx (x + i) = bitAt key (y + i)) := by
  induction len generalizing x y c with
  | zero => exact ⟨c, by simp [hasLoop]⟩
  | succ len ih =>
    unfold hasLoop
    rw [hasBit_ok (by omega), hasBit_ok (by omega)]
    simp only [Out.bind_ok]
    by_cases hb : bitAt pfx x = bitAt key y
    · simp only [hb, ne_eq, not_true_eq_false, if_false]
      obtain ⟨c', h1, h2, h3⟩ := ih (x + 1) (y + 1) (c + 1) (by omega) (by omega)
      refine ⟨c', h1, by omega, ?_⟩
      have : c + (len + 1) = c + 1 + len := by omega
      rw [this, h3]
      constructor
      · intro h i hi
        cases i with
        | zero => simpa using hb
        | succ i => have := h i (by omega); rwa [Nat.add_assoc, Nat.add_assoc, Nat.add_comm 1] at this
      · intro h i hi
        have := h (i + 1) (by omega)
        rwa [Nat.add_assoc, Nat.add_assoc, Nat.add_comm 1]
    · simp only [hb, ne_eq, not_false_eq_true, if_true, Out.pure_eq]
      refine ⟨c, rfl, by omega, ?_⟩
      constructor
      · intro h; omega
      · intro h; exact absurd (by simpa using h 0 (by omega)) hb

theorem proofHas_spec {ε : Type} {pfx key : Bytes} {size d : Nat}
    (hp : size ≤ 8 * pfx.length) (hk : key.length = 32) (hd : d ≤ 256) :
    ∃ b, (proofHas pfx size key d : Out ε Bool) = .ok b ∧ (b = true ↔ Match pfx size key d) := by
  unfold proofHas
  have : ¬ d > 256 := by omega
  simp only [this, if_false]
  obtain ⟨c, h1, h2, h3⟩ := hasLoop_spec (ε := ε) pfx key (min size (256 - d)) 0 d 0
    (by omega) (by omega)
  rw [h1]
  refine ⟨_, rfl, ?_⟩
  simp only [Nat.zero_add] at h2 h3
  rw [beq_iff_eq]
  unfold Match
  constructor
  · rintro rfl
    have e : min c (256 - d) = c := by omega
    rw [e] at h3
    exact ⟨by omega, h3.1 rfl⟩
  · rintro ⟨h4, h5⟩
    have e : min size (256 - d) = size := by omega
    rw [e] at h3
    exact h3.2 h5

theorem internalPreimage_ok {ε : Type} {pfx l r : Bytes} {size : Nat}
    (h : (size + 7) / 8 ≤ pfx.length) :
    (internalPreimage pfx size l r : Out ε Bytes) = .ok (preOf pfx size l r) := by
  unfold internalPreimage preOf
  by_cases h0 : size = 0
  · simp [h0]
  · simp only [h0, if_false]
    rw [memSlice_ok (by omega)]
    simp [writeU16]

/-! ### folding the nodes -/

/-- One iteration of the node loop. -/
theorem foldNodes_append (H : Bytes → Bytes) (key : Bytes) (a b : List Node) (d : Nat) (x : Bytes) :
    foldNodes H key (a ++ b) d x = (foldNodes H key a d x >>= fun r => foldNodes H key b r.1 r.2) := by
  induction a generalizing d x with
  | nil => simp [foldNodes]
  | cons n ns ih =>
    simp only [List.cons_append, foldNodes]
    by_cases h : d < n.pfxSize + 1
    · simp [h]
    · simp only [h, if_false]
      cases hb : (hasBit key (d - 1) : Out Err Bool) <;> simp only [Out.bind_ok, Out.bind_err, Out.bind_ub]
      rename_i bit
      cases bit
      all_goals
        simp only [if_true, Bool.false_eq_true, if_false]
        generalize (internalPreimage n.pfx n.pfxSize _ _ : Out Err Bytes) = pre
        cases pre <;> simp only [Out.bind_ok, Out.bind_err, Out.bind_ub]
        cases (proofHas n.pfx n.pfxSize key (d - 1 - n.pfxSize) : Out Err Bool) <;>
          simp only [Out.bind_ok, Out.bind_err, Out.bind_ub]
        rename_i has
        cases has <;> simp [ih]

/-- The key follows every node's prefix, starting at bit `d`. -/
def PathOk (key : Bytes) : Nat → List Node → Prop
  | _, [] => True
  | d, n :: ns => Match n.pfx n.pfxSize key d ∧ d + n.pfxSize < 256 ∧
      PathOk key (d + n.pfxSize + 1) ns

/-- Bits consumed by a list of nodes. -/
def span : List Node → Nat
  | [] => 0
  | n :: ns => n.pfxSize + 1 + span ns

def NodeWF (n : Node) : Prop := n.pfx.length = 32 ∧ n.pfxSize ≤ 256 ∧ n.node.length = 32

theorem foldNodes_single (H : Bytes → Bytes) {key : Bytes} {n : Node} {d : Nat} {x : Bytes}
    (hk : key.length = 32) (hn : NodeWF n) (hd : d ≤ 256) :
    (foldNodes H key [n] d x = .err .negDepth ∧ d < n.pfxSize + 1) ∨
    (∃ d0, d = d0 + n.pfxSize + 1 ∧ foldNodes H key [n] d x = .err .pathMismatch ∧
      ¬ Match n.pfx n.pfxSize key d0) ∨
    (∃ d0, d = d0 + n.pfxSize + 1 ∧ Match n.pfx n.pfxSize key d0 ∧
      foldNodes H key [n] d x = .ok (d0, H (if bitAt key (d0 + n.pfxSize)
        then preOf n.pfx n.pfxSize n.node x else preOf n.pfx n.pfxSize x n.node))) := by
  obtain ⟨h1, h2, h3⟩ := hn
  by_cases h : d < n.pfxSize + 1
  · left; simp [foldNodes, h]
  · right
    have e : d - 1 = d - 1 - n.pfxSize + n.pfxSize := by omega
    obtain ⟨b, hb, hm⟩ := proofHas_spec (ε := Err) (pfx := n.pfx) (size := n.pfxSize) (key := key)
      (d := d - 1 - n.pfxSize) (by omega) hk (by omega)
    have key1 : foldNodes H key [n] d x = if b then .ok (d - 1 - n.pfxSize, H (if bitAt key (d - 1)
        then preOf n.pfx n.pfxSize n.node x else preOf n.pfx n.pfxSize x n.node))
        else .err .pathMismatch := by
      simp only [foldNodes, h, if_false]
      rw [hasBit_ok (by omega)]
      simp only [Out.bind_ok]
      rw [internalPreimage_ok (by omega), internalPreimage_ok (by omega)]
      cases bitAt key (d - 1) <;> simp [hb] <;> cases b <;> simp
    cases b with
    | false =>
      left
      refine ⟨d - 1 - n.pfxSize, by omega, by rw [key1]; simp, ?_⟩
      intro hh; simpa using hm.2 hh
    | true =>
      right
      refine ⟨d - 1 - n.pfxSize, by omega, hm.1 rfl, ?_⟩
      rw [key1, ← e]; simp

/-- The node loop read from the root downwards. -/
theorem foldNodes_spec (H : Bytes → Bytes) {key : Bytes} {ns : List Node} {D : Nat} {leaf : Bytes}
    (hk : key.length = 32) (hn : ∀ n ∈ ns, NodeWF n) (hD : D ≤ 256) :
    foldNodes H key ns.reverse D leaf ≠ .ub ∧
    ∀ d h, foldNodes H key ns.reverse D leaf = .ok (d, h) ↔
      (D = d + span ns ∧ PathOk key d ns ∧ h = (nodeStrings H key leaf d ns).2) := by
  induction ns with
  | nil =>
    simp only [List.reverse_nil, foldNodes, Out.pure_eq, ne_eq, reduceCtorEq, not_false_eq_true,
      Out.ok.injEq, Prod.mk.injEq, true_and]
    intro d h
    simp only [span, PathOk, nodeStrings, true_and, Nat.add_zero]
    constructor
    · rintro ⟨rfl, rfl⟩; exact ⟨rfl, rfl⟩
    · rintro ⟨rfl, rfl⟩; exact ⟨rfl, rfl⟩
  | cons n ns ih =>
    obtain ⟨ih1, ih2⟩ := ih (fun m hm => hn m (List.mem_cons_of_mem _ hm))
    rw [List.reverse_cons, foldNodes_append]
    cases hf : foldNodes H key ns.reverse D leaf with
    | ub => exact absurd hf ih1
    | err e =>
      refine ⟨by simp, ?_⟩
      intro d h
      simp only [Out.bind_err, reduceCtorEq, false_iff, not_and]
      intro h1 h2
      have := (ih2 (d + n.pfxSize + 1) (nodeStrings H key leaf (d + n.pfxSize + 1) ns).2).2
        ⟨by simp only [span] at h1; omega, h2.2.2, rfl⟩
      rw [hf] at this; cases this
    | ok r =>
      obtain ⟨d1, x1⟩ := r
      obtain ⟨e1, e2, e3⟩ := (ih2 d1 x1).1 hf
      simp only [Out.bind_ok]
      rcases foldNodes_single H (x := x1) hk (hn n (List.mem_cons_self)) (show d1 ≤ 256 by omega) with
        ⟨h1, h2⟩ | ⟨d0, h1, h2, h3⟩ | ⟨d0, h1, h2, h3⟩
      · rw [h1]
        refine ⟨by simp, fun d h => ?_⟩
        simp only [reduceCtorEq, false_iff, not_and]
        intro h3; simp only [span] at h3; omega
      · rw [h2]
        refine ⟨by simp, fun d h => ?_⟩
        simp only [reduceCtorEq, false_iff, not_and]
        intro h4 h5
        simp only [span] at h4
        have : d = d0 := by omega
        subst this
        exact absurd h5.1 h3
      · rw [h3]
        refine ⟨by simp, fun d h => ?_⟩
        simp only [Out.ok.injEq, Prod.mk.injEq]
        constructor
        · rintro ⟨rfl, rfl⟩
          refine ⟨by simp only [span]; omega, ⟨h2, ?_, ?_⟩, ?_⟩
          · have := e1; omega
          · rw [← h1]; exact e2
          · simp only [nodeStrings]; rw [← h1, ← e3]
        · rintro ⟨h4, h5, h6⟩
          simp only [span] at h4
          have : d = d0 := by omega
          subst this
          refine ⟨rfl, ?_⟩
          rw [h6]; simp only [nodeStrings]; rw [← h1, ← e3]

end Verif.Proof
