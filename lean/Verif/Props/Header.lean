import Verif.Lemmas.Header
/-
C14 header wire format, C15 compact difficulty, C16 chain work, C17 proof of work
(src/header.c, src/bn.c).
-/
namespace Verif.Props.Header
open Verif.Header Verif.Spec

/-- A header with distinct, asymmetric field values, used by the examples. -/
def sample : Hdr where
  nonce := 0x01020304
  time := 1580745078
  prevBlock := List.replicate 31 7 ++ [9]
  nameRoot := 5 :: List.replicate 31 0
  extraNonce := List.replicate 24 1
  reservedRoot := List.replicate 32 2
  witnessRoot := List.replicate 32 3
  merkleRoot := List.replicate 32 4
  version := 1
  bits := 0x1c00ffff
  mask := List.replicate 32 0xaa

theorem sample_wf : WF sample := by
  constructor <;> decide

/-- C14. A header written and read back is the same header, whatever follows. -/
theorem C14_roundtrip (h : Hdr) (w : WF h) (rest : Bytes) :
    read (write h ++ rest) = .ok (h, rest) := read_eq_ok.2 ⟨rfl, w⟩

/-- C14. The wire form is 236 bytes. -/
theorem C14_size (h : Hdr) (w : WF h) : (write h).length = 236 := write_length w

/-- C14. Reading is total on 236 bytes or more and consumes exactly the 236 bytes
that writing the result produces (so no two byte strings give one header);
anything shorter is refused; no read leaves the buffer. -/
theorem C14_read (s : Bytes) :
    read s ≠ .ub ∧
    (s.length < 236 → read s = .err ()) ∧
    (236 ≤ s.length → ∃ h, read s = .ok (h, s.drop 236) ∧ WF h ∧ write h = s.take 236) := by
  refine ⟨read_ne_ub s, fun hs => ?_, fun hs => ?_⟩
  · cases hr : read s with
    | ok p =>
      obtain ⟨h, r⟩ := p
      obtain ⟨rfl, w⟩ := read_eq_ok.1 hr
      rw [List.length_append, write_length w] at hs
      omega
    | err e => rfl
    | ub => exact absurd hr (read_ne_ub s)
  · obtain ⟨h, r, hr⟩ := read_total hs
    obtain ⟨rfl, w⟩ := read_eq_ok.1 hr
    have hl := write_length w
    refine ⟨h, ?_, w, ?_⟩
    · rw [hr, List.drop_append_of_le_length (by omega), List.drop_of_length_le (by omega)]; rfl
    · rw [List.take_append_of_le_length (by omega), List.take_of_length_le (by omega)]

example : WF sample ∧ read (write sample ++ [1, 2]) = .ok (sample, [1, 2]) :=
  ⟨sample_wf, C14_roundtrip sample sample_wf [1, 2]⟩

/-- C15 as stated is false: a compact difficulty with exponent 35 stands for a
number of 2^256 or more, but the code accepts it and returns a small target. -/
theorem C15_expand_aliases :
    ¬ ∀ bits, bits < 2 ^ 32 → (powToTarget bits).map beNat = Difficulty.expand bits := by
  intro h
  have := h 0x23000001 (by decide)
  revert this
  decide +kernel

/-- C15 (partial: exponents up to 34; above that the code reduces the exponent
modulo 32, see `C15_expand_aliases`). Expanding a compact difficulty gives
mantissa x 256^(exponent-3); zero, negative and oversized encodings are refused. -/
theorem C15_expand_partial (bits : Nat) (he : Difficulty.exponent bits ≤ 34) :
    (powToTarget bits).map beNat = Difficulty.expand bits := powToTarget_spec he

/-- C15. Zero and negative encodings are refused for every exponent. -/
theorem C15_nonpositive_refused (bits : Nat) (h : bits = 0 ∨ Difficulty.negative bits = true) :
    powToTarget bits = none := by
  unfold Difficulty.negative at h
  unfold powToTarget
  rcases h with h | h
  · simp [h]
  · simp only [decide_eq_true_eq] at h
    by_cases h0 : bits = 0
    · simp [h0]
    · rw [if_neg h0, if_pos h]

/-- C15. Compressing any nonzero 256-bit target: the result is a canonical 32-bit
compact value that expands to at most the target and loses less than one part in
2^15 of it. -/
theorem C15_compress (t : Bytes) (hl : t.length = 32) (h0 : beNat t ≠ 0) :
    Difficulty.Canonical (powToBits t) ∧ powToBits t < 2 ^ 32 ∧
    ∃ t', powToTarget (powToBits t) = some t' ∧ t'.length = 32 ∧ beNat t' ≤ beNat t ∧
      (beNat t - beNat t') * 2 ^ 15 ≤ beNat t' ∧ powToBits t' = powToBits t := by
  obtain ⟨c1, c2, c3, c4, c5⟩ := powToBits_spec hl (by omega)
  refine ⟨c1, c2, ?_⟩
  have hx := powToTarget_spec (bits := powToBits t) (by omega)
  have hpos : powToBits t ≠ 0 := by
    intro h
    have := c1.1
    rw [h] at this
    simp [Difficulty.mantissa] at this
  have he : Difficulty.expand (powToBits t) = some (Difficulty.value (powToBits t)) := by
    unfold Difficulty.expand
    rw [if_neg]
    have := c1.2.1
    have := c1.2.2.2.2
    rintro (h | h | h)
    · exact hpos h
    · simp_all
    · omega
  rw [he] at hx
  cases ht : powToTarget (powToBits t) with
  | none => rw [ht] at hx; simp at hx
  | some t' =>
    rw [ht] at hx
    simp only [Option.map_some, Option.some.injEq] at hx
    refine ⟨t', rfl, powToTarget_length ht, by omega, by rw [hx]; exact c5, ?_⟩
    exact powToBits_canonical c1 (powToTarget_length ht) hx

/-- C15. Expanding a canonical compact difficulty and compressing again gives the
same compact difficulty. -/
theorem C15_roundtrip (c : Nat) (hc : Difficulty.Canonical c) (he : Difficulty.exponent c ≤ 34) :
    ∃ t, powToTarget c = some t ∧ beNat t = Difficulty.value c ∧ powToBits t = c := by
  have hx := powToTarget_spec he
  have hpos : c ≠ 0 := by
    intro h
    have := hc.1
    rw [h] at this
    simp [Difficulty.mantissa] at this
  have hexp : Difficulty.expand c = some (Difficulty.value c) := by
    unfold Difficulty.expand
    rw [if_neg]
    have := hc.2.1
    have := hc.2.2.2.2
    rintro (h | h | h)
    · exact hpos h
    · simp_all
    · omega
  rw [hexp] at hx
  cases ht : powToTarget c with
  | none => rw [ht] at hx; simp at hx
  | some t =>
    rw [ht] at hx
    simp only [Option.map_some, Option.some.injEq] at hx
    exact ⟨t, rfl, hx, powToBits_canonical hc (powToTarget_length ht) hx⟩

/-- C15. The zero target compresses to the (refused) zero encoding. -/
theorem C15_zero (t : Bytes) (hl : t.length = 32) (h0 : beNat t = 0) :
    powToBits t = 0 ∧ powToTarget 0 = none := ⟨powToBits_zero hl h0, rfl⟩

-- The mainnet and regtest limits are canonical and expand to the published targets.
example : Difficulty.Canonical 0x1c00ffff ∧ Difficulty.Canonical 0x207fffff := by
  simp only [Difficulty.Canonical, Difficulty.mantissa, Difficulty.negative, Difficulty.exponent,
    Difficulty.value]
  decide +kernel
example : powToTarget 0x1c00ffff = some ([0, 0, 0, 0, 0, 0xff, 0xff] ++ List.replicate 25 0) := by
  decide +kernel
example : powToBits (List.replicate 4 0 ++ [0xff] ++ List.replicate 27 0x12) = 0x1d00ff12 := by
  decide +kernel

/-- C16. The big number routines agree with integer arithmetic on the 512-bit
integers their arrays stand for. -/
theorem C16_bignum_exact (a b : Bn.Num) (ha : Bn.WF a) (hb : Bn.WF b) :
    (Bn.WF (Bn.add a b) ∧ Bn.val (Bn.add a b) = (Bn.val a + Bn.val b) % 2 ^ 512) ∧
    (Bn.WF (Bn.sub a b) ∧ Bn.val (Bn.sub a b) = (Bn.val a + 2 ^ 512 - Bn.val b) % 2 ^ 512) ∧
    (Bn.WF (Bn.mul a b) ∧ Bn.val (Bn.mul a b) = Bn.val a * Bn.val b % 2 ^ 512) ∧
    (Bn.WF (Bn.inc a) ∧ Bn.val (Bn.inc a) = (Bn.val a + 1) % 2 ^ 512) ∧
    (∀ n, Bn.WF (Bn.lshift a n) ∧ Bn.val (Bn.lshift a n) = Bn.val a * 2 ^ n % 2 ^ 512) ∧
    Bn.cmp a b = (if Bn.val a > Bn.val b then 1 else if Bn.val a < Bn.val b then -1 else 0) ∧
    (Bn.isZero a = true ↔ Bn.val a = 0) := by
  refine ⟨⟨Bn.wf_add ha hb, Bn.val_add ha hb⟩, ⟨Bn.wf_sub ha hb, Bn.val_sub ha hb⟩,
    ⟨Bn.wf_mul ha hb, Bn.val_mul ha hb⟩, ⟨⟨by rw [Bn.inc_length, ha.1], Bn.inc_small ha.2⟩, ?_⟩,
    fun n => Bn.wf_lshift ha n, Bn.cmp_wf ha hb, Bn.isZero_spec a⟩
  rw [Bn.val_inc ha.2, ha.1, Bn.pow16]

/-- C16. Division ends and is exact for every nonzero divisor. -/
theorem C16_div_exact (a b : Bn.Num) (ha : Bn.WF a) (hb : Bn.WF b) (h0 : Bn.val b ≠ 0) :
    ∃ c, Bn.div a b = some c ∧ Bn.WF c ∧ Bn.val c = Bn.val a / Bn.val b :=
  Bn.div_spec ha hb (by omega)

/-- C16. Division by zero never ends, however long it runs (its callers never
divide by zero, see `C16_work_exact` and C08). -/
theorem C16_div_zero_diverges (a b : Bn.Num) (ha : Bn.WF a) (hb : Bn.WF b) (h0 : Bn.val b = 0)
    (fuel : Nat) : Bn.divFuel fuel a b = none := by
  simp [Bn.divFuel, Bn.divUp_zero fuel _ ha hb h0]

example : Bn.WF (Bn.fromInt 7) ∧ Bn.val (Bn.fromInt 7) ≠ 0 ∧
    Bn.div (Bn.lshift (Bn.fromInt 1) 256) (Bn.fromInt 7) ≠ none := by
  refine ⟨Bn.wf_fromInt 7, by rw [Bn.val_fromInt (by decide)]; decide, ?_⟩
  obtain ⟨c, h, _⟩ := C16_div_exact _ _ (Bn.wf_lshift (Bn.wf_fromInt 1) 256).1 (Bn.wf_fromInt 7)
    (by rw [Bn.val_fromInt (by decide)]; decide)
  rw [h]; simp

/-- C16. The work of a header is floor(2^256 / (target + 1)), the work of a header
on top of a parent is the sum modulo 2^256, and both fail exactly when the
difficulty field does not expand. -/
theorem C16_work_exact (bits : Nat) (prev : Bytes) (hp : prev.length = 32) :
    match powToTarget bits with
    | none => calcWork bits none = .err () ∧ calcWork bits (some prev) = .err ()
    | some t =>
      (∃ w, calcWork bits none = .ok w ∧ w.length = 32 ∧ beNat w = Difficulty.work (beNat t)) ∧
      (∃ w, calcWork bits (some prev) = .ok w ∧ w.length = 32 ∧
        beNat w = (beNat prev + Difficulty.work (beNat t)) % 2 ^ 256) := by
  cases h : powToTarget bits with
  | none => simp [calcWork, getProof_none h]
  | some t => exact ⟨getProof_eq h, calcWork_some h hp⟩

/-- C16. Work is exactly floor(2^256/(target+1)) for every nonzero target. -/
theorem C16_work_no_wrap (t : Nat) (h : t ≠ 0) : Difficulty.work t = 2 ^ 256 / (t + 1) := by
  unfold Difficulty.work
  apply Nat.mod_eq_of_lt
  rw [Nat.div_lt_iff_lt_mul (by omega)]
  omega

example : (getProof 0x1c00ffff).bind (fun w => .ok (beNat w)) = (.ok 0x10001000100 : Out Unit Nat) := by
  obtain ⟨w, h1, _, h3⟩ := getProof_eq (bits := 0x1c00ffff) (t := [0, 0, 0, 0, 0, 0xff, 0xff] ++ List.replicate 25 0)
    (by decide +kernel)
  rw [h1]
  simp only [Out.bind, h3]
  congr 1

/-- C17. The proof-of-work check passes iff the difficulty field expands and the
header hash, read as a big-endian integer, is at most the target. -/
theorem C17_pow_check (H : Hashes) (h : Hdr)
    (hH : ∀ x, (H.blake256 x).length = 32) (hm : h.mask.length = 32) :
    verifyPow H h = .ok () ↔
      ∃ t, powToTarget h.bits = some t ∧ beNat (headerHash H h) ≤ beNat t := by
  unfold verifyPow verifyPowHash
  cases ht : powToTarget h.bits with
  | none => simp
  | some t =>
    have hl : (headerHash H h).length = t.length := by
      simp [headerHash, hH, hm, powToTarget_length ht]
    simp only [memcmp_pos hl]
    split
    · simp only [reduceCtorEq, Option.some.injEq, exists_eq_left', false_iff]; omega
    · simp only [Option.some.injEq, exists_eq_left', true_iff]; omega

/-- Some two different inputs, among those hashed for two headers, collide. -/
def HashBroken (H : Hashes) (h g : Hdr) : Prop :=
  (preEncode H h ≠ preEncode H g ∧ H.blake512 (preEncode H h) = H.blake512 (preEncode H g)) ∨
  (commitInput H h ≠ commitInput H g ∧ H.blake256 (commitInput H h) = H.blake256 (commitInput H g)) ∨
  (subEncode h ≠ subEncode g ∧ H.blake256 (subEncode h) = H.blake256 (subEncode g)) ∨
  (maskInput h ≠ maskInput g ∧ H.blake256 (maskInput h) = H.blake256 (maskInput g))

/-- C17. Two headers with the same final hash input agree on every field, unless
one exhibits a hash collision. -/
theorem C17_preimage_determines_header (H : Hashes) (h g : Hdr) (wh : WF h) (wg : WF g)
    (h256 : ∀ x, (H.blake256 x).length = 32) (h512 : ∀ x, (H.blake512 x).length = 64)
    (heq : finalInput H h = finalInput H g) : h = g ∨ HashBroken H h g := by
  by_cases hb : HashBroken H h g
  · exact .inr hb
  left
  simp only [HashBroken, not_or, not_and] at hb
  obtain ⟨b1, b2, b3, b4⟩ := hb
  have hpre : preEncode H h = preEncode H g := by
    by_contra hne
    refine b1 hne ?_
    unfold finalInput at heq
    rw [List.append_assoc, List.append_assoc] at heq
    exact (List.append_inj heq (by rw [h512, h512])).1
  have hpre' := hpre
  unfold preEncode at hpre'
  simp only [List.append_assoc, Bio.writeU32, Bio.writeU64] at hpre'
  obtain ⟨e1, hpre'⟩ := List.append_inj hpre' (by simp)
  obtain ⟨e2, hpre'⟩ := List.append_inj hpre' (by simp)
  obtain ⟨_, hpre'⟩ := List.append_inj hpre' (by simp [padding_length])
  obtain ⟨e3, hpre'⟩ := List.append_inj hpre' (by rw [wh.prevBlock, wg.prevBlock])
  obtain ⟨e4, e5⟩ := List.append_inj hpre' (by rw [wh.nameRoot, wg.nameRoot])
  have hc : commitInput H h = commitInput H g := by
    by_contra hne
    exact b2 hne e5
  obtain ⟨c1, c2⟩ := List.append_inj hc (by rw [h256, h256])
  have hs : subEncode h = subEncode g := by
    by_contra hne
    exact b3 hne c1
  have hm : maskInput h = maskInput g := by
    by_contra hne
    exact b4 hne c2
  obtain ⟨_, m2⟩ := List.append_inj hm (by rw [wh.prevBlock, wg.prevBlock])
  unfold subEncode at hs
  simp only [List.append_assoc, Bio.writeU32] at hs
  obtain ⟨s1, hs⟩ := List.append_inj hs (by rw [wh.extraNonce, wg.extraNonce])
  obtain ⟨s2, hs⟩ := List.append_inj hs (by rw [wh.reservedRoot, wg.reservedRoot])
  obtain ⟨s3, hs⟩ := List.append_inj hs (by rw [wh.witnessRoot, wg.witnessRoot])
  obtain ⟨s4, hs⟩ := List.append_inj hs (by rw [wh.merkleRoot, wg.merkleRoot])
  obtain ⟨s5, s6⟩ := List.append_inj hs (by simp)
  have le_inj : ∀ {k a b : Nat}, a < 256 ^ k → b < 256 ^ k → leBytes k a = leBytes k b → a = b := by
    intro k a b ha hb hab
    rw [← leNat_leBytes_of_lt ha, ← leNat_leBytes_of_lt hb, hab]
  have n1 := le_inj wh.nonce wg.nonce e1
  have n2 := le_inj wh.time wg.time e2
  have n3 := le_inj wh.version wg.version s5
  have n4 := le_inj wh.bits wg.bits s6
  cases h; cases g
  simp only [Hdr.mk.injEq] at *
  exact ⟨n1, n2, e3, e4, s1, s2, s3, s4, n3, n4, m2⟩

/-- A toy hash with the right output lengths: enough to exercise the statements. -/
def toy : Hashes where
  blake256 x := (x ++ List.replicate 32 0).take 32
  blake512 x := (x ++ List.replicate 64 0).take 64
  sha3 x := (x ++ List.replicate 32 0).take 32

example : (∀ x, (toy.blake256 x).length = 32) ∧ (∀ x, (toy.blake512 x).length = 64) := by
  constructor <;> intro x <;> simp [toy]

-- Both outcomes of the check occur.
example : verifyPow toy { sample with mask := (sample.mask.map fun _ => (0 : UInt8)) } = .error .highHash := by
  decide +kernel
example : verifyPow toy { sample with mask := toy.blake256 (finalInput toy sample) } = .ok () := by
  decide +kernel

end Verif.Props.Header
