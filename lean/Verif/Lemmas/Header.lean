import Verif.Model.Header
import Verif.Spec.Difficulty
import Verif.Lemmas.Bio
import Verif.Lemmas.Bn
import Verif.Lemmas.Mem
namespace Verif.Header
open Verif.Bio Verif.Spec

/-- Field widths of the C struct. -/
structure WF (h : Hdr) : Prop where
  nonce : h.nonce < 2 ^ 32
  time : h.time < 2 ^ 64
  prevBlock : h.prevBlock.length = 32
  nameRoot : h.nameRoot.length = 32
  extraNonce : h.extraNonce.length = 24
  reservedRoot : h.reservedRoot.length = 32
  witnessRoot : h.witnessRoot.length = 32
  merkleRoot : h.merkleRoot.length = 32
  version : h.version < 2 ^ 32
  bits : h.bits < 2 ^ 32
  mask : h.mask.length = 32

theorem read_eq_ok {s r : Bytes} {h : Hdr} :
    read s = .ok (h, r) ↔ s = write h ++ r ∧ WF h := by
  unfold read write
  simp only [Out.bind_eq_ok, Prod.exists, readU32_eq_ok, readU64_eq_ok, readBytes_eq_ok,
    Out.pure_eq, Out.ok.injEq, Prod.mk.injEq, writeU32, writeU64]
  constructor
  · rintro ⟨n, _, ⟨rfl, h1⟩, t, _, ⟨rfl, h2⟩, pb, _, ⟨rfl, h3⟩, nr, _, ⟨rfl, h4⟩, en, _, ⟨rfl, h5⟩,
      rr, _, ⟨rfl, h6⟩, wr, _, ⟨rfl, h7⟩, mr, _, ⟨rfl, h8⟩, v, _, ⟨rfl, h9⟩, b, _, ⟨rfl, h10⟩,
      m, _, ⟨rfl, h11⟩, rfl, rfl⟩
    exact ⟨by simp only [List.append_assoc], ⟨h1, h2, h3, h4, h5, h6, h7, h8, h9, h10, h11⟩⟩
  · rintro ⟨rfl, w⟩
    refine ⟨h.nonce, _, ⟨by simp only [List.append_assoc], w.nonce⟩, h.time, _, ⟨rfl, w.time⟩,
      h.prevBlock, _, ⟨rfl, w.prevBlock⟩, h.nameRoot, _, ⟨rfl, w.nameRoot⟩, h.extraNonce, _,
      ⟨rfl, w.extraNonce⟩, h.reservedRoot, _, ⟨rfl, w.reservedRoot⟩, h.witnessRoot, _,
      ⟨rfl, w.witnessRoot⟩, h.merkleRoot, _, ⟨rfl, w.merkleRoot⟩, h.version, _, ⟨rfl, w.version⟩,
      h.bits, _, ⟨rfl, w.bits⟩, h.mask, _, ⟨rfl, w.mask⟩, rfl, rfl⟩

theorem write_length {h : Hdr} (w : WF h) : (write h).length = 236 := by
  simp only [write, writeU32, writeU64, List.length_append, leBytes_length, w.prevBlock, w.nameRoot,
    w.extraNonce, w.reservedRoot, w.witnessRoot, w.merkleRoot, w.mask]

theorem read_ne_ub (s : Bytes) : read s ≠ .ub := by
  unfold read
  refine Out.bind_ne_ub (by simp) (fun _ _ => ?_)
  refine Out.bind_ne_ub (by simp) (fun _ _ => ?_)
  refine Out.bind_ne_ub (by simp) (fun _ _ => ?_)
  refine Out.bind_ne_ub (by simp) (fun _ _ => ?_)
  refine Out.bind_ne_ub (by simp) (fun _ _ => ?_)
  refine Out.bind_ne_ub (by simp) (fun _ _ => ?_)
  refine Out.bind_ne_ub (by simp) (fun _ _ => ?_)
  refine Out.bind_ne_ub (by simp) (fun _ _ => ?_)
  refine Out.bind_ne_ub (by simp) (fun _ _ => ?_)
  refine Out.bind_ne_ub (by simp) (fun _ _ => ?_)
  refine Out.bind_ne_ub (by simp) (fun _ _ => ?_)
  simp

open Verif.Bn (leNat_append beNat_append)

theorem readLE_of_length {k : Nat} {s : Bytes} (h : k ≤ s.length) :
    s = leBytes k (leNat (s.take k)) ++ s.drop k ∧ leNat (s.take k) < 256 ^ k := by
  have hl : (s.take k).length = k := by simp [h]
  have h1 := leBytes_leNat (s.take k)
  have h2 := leNat_lt (s.take k)
  rw [hl] at h1 h2
  exact ⟨by rw [h1, List.take_append_drop], h2⟩

/-- Every string of at least 236 bytes parses. -/
theorem read_total {s : Bytes} (hs : 236 ≤ s.length) : ∃ h r, read s = .ok (h, r) := by
  have tk : ∀ (k : Nat) (s : Bytes), k ≤ s.length → readBytes k s = .ok (s.take k, s.drop k) := by
    intro k s h
    exact readBytes_eq_ok.2 ⟨(List.take_append_drop k s).symm, by simp [h]⟩
  have t4 : ∀ (s : Bytes), 4 ≤ s.length → readU32 s = .ok (leNat (s.take 4), s.drop 4) := by
    intro s h
    exact readU32_eq_ok.2 (readLE_of_length h)
  have t8 : ∀ (s : Bytes), 8 ≤ s.length → readU64 s = .ok (leNat (s.take 8), s.drop 8) := by
    intro s h
    exact readU64_eq_ok.2 (readLE_of_length h)
  unfold read
  rw [t4 _ (by omega)]; simp only [Out.bind_ok]
  rw [t8 _ (by simp; omega)]; simp only [Out.bind_ok]
  rw [tk 32 _ (by simp; omega)]; simp only [Out.bind_ok]
  rw [tk 32 _ (by simp; omega)]; simp only [Out.bind_ok]
  rw [tk 24 _ (by simp; omega)]; simp only [Out.bind_ok]
  rw [tk 32 _ (by simp; omega)]; simp only [Out.bind_ok]
  rw [tk 32 _ (by simp; omega)]; simp only [Out.bind_ok]
  rw [tk 32 _ (by simp; omega)]; simp only [Out.bind_ok]
  rw [t4 _ (by simp; omega)]; simp only [Out.bind_ok]
  rw [t4 _ (by simp; omega)]; simp only [Out.bind_ok]
  rw [tk 32 _ (by simp; omega)]; simp only [Out.bind_ok]
  exact ⟨_, _, rfl⟩

/-! compact difficulty -/

theorem leBytes_zero (k : Nat) : leBytes k 0 = List.replicate k 0 := by
  induction k with
  | zero => rfl
  | succ k ih => simp [leBytes, ih, List.replicate_succ]

theorem beBytes_zero (k : Nat) : beBytes k 0 = List.replicate k 0 := by
  simp [beBytes, leBytes_zero]

theorem beBytes_succ (k m : Nat) : beBytes (k + 1) m = beBytes k (m / 256) ++ [UInt8.ofNat m] := by
  simp [beBytes, leBytes]

theorem fillTarget_eq (n m : Nat) (acc : Bytes) :
    fillTarget n m acc = (m / 256 ^ n, beBytes n m ++ acc) := by
  induction n generalizing m acc with
  | zero => simp [fillTarget, beBytes, leBytes]
  | succ n ih =>
    simp only [fillTarget]
    split
    · rename_i h; subst h
      rw [beBytes_zero]; simp
    · rw [ih, beBytes_succ, List.append_assoc, List.singleton_append, Nat.div_div_eq_div_mul,
        Nat.pow_succ, Nat.mul_comm]

theorem beNat_replicate (k : Nat) : beNat (List.replicate k 0) = 0 := by
  rw [← beBytes_zero, beNat_beBytes, Nat.zero_mod]

theorem pow256 (k : Nat) : 2 ^ (8 * k) = 256 ^ k := by
  rw [Nat.pow_mul]

theorem pow256_32 : (256 : Nat) ^ 32 = 2 ^ 256 := (pow256 32).symm

/-- What hsk_pow_to_target computes, in integers, for every 32-bit input: the
exponent is taken modulo 32 (biased by 3). -/
theorem powToTarget_raw (bits : Nat) :
    let e := bits / 2 ^ 24
    let m := if e ≤ 3 then bits % 2 ^ 23 / 256 ^ (3 - e) else bits % 2 ^ 23
    let s := if e ≤ 3 then 0 else (e - 3) % 32
    powToTarget bits =
      if bits = 0 ∨ bits / 2 ^ 23 % 2 = 1 ∨ m * 256 ^ s ≥ 2 ^ 256 then none
      else some (beBytes 32 (m * 256 ^ s)) := by
  intro e m s
  have hs : s < 32 := by
    simp only [s]; split
    · omega
    · exact Nat.mod_lt _ (by omega)
  have hp : (2 : Nat) ^ 256 = 256 ^ (32 - s) * 256 ^ s := by
    rw [← pow256_32, ← Nat.pow_add]; congr 1; omega
  have hsp : 0 < 256 ^ s := Nat.pow_pos (by omega)
  have hq : m * 256 ^ s ≥ 2 ^ 256 ↔ m / 256 ^ (32 - s) ≠ 0 := by
    have h0 : 0 < 256 ^ (32 - s) := Nat.pow_pos (by omega)
    rw [hp, ge_iff_le, Nat.mul_le_mul_right_iff hsp, Nat.ne_zero_iff_zero_lt, Nat.div_pos_iff]
    exact ⟨fun h => ⟨h0, h⟩, fun h => h.2⟩
  unfold powToTarget
  by_cases h0 : bits = 0
  · simp [h0]
  · by_cases h1 : bits / 2 ^ 23 % 2 = 1
    · rw [if_neg h0, if_pos h1, if_pos (Or.inr (Or.inl h1))]
    · have hm : (if bits / 2 ^ 24 ≤ 3 then bits % 2 ^ 23 / 2 ^ (8 * (3 - bits / 2 ^ 24)) else bits % 2 ^ 23) = m := by
        simp only [m, e, pow256]
      simp only [h0, h1, if_false, false_or, hm]
      rw [show (if bits / 2 ^ 24 ≤ 3 then 0 else (bits / 2 ^ 24 - 3) % 32) = s from rfl]
      rw [fillTarget_eq]
      simp only [hq]
      split
      · rfl
      · congr 1
        rename_i h2
        have h2 : m / 256 ^ (32 - s) = 0 := by simpa using h2
        have h3 : m < 256 ^ (32 - s) := by
          have h0 : 0 < 256 ^ (32 - s) := Nat.pow_pos (by omega)
          exact (Nat.div_eq_zero_iff_lt h0).1 h2
        apply beNat_inj
        · simp; omega
        · have h4 : m * 256 ^ s < 256 ^ 32 := by
            rw [pow256_32, hp]; exact (Nat.mul_lt_mul_right hsp).2 h3
          rw [beNat_append, beNat_replicate, beNat_beBytes_of_lt h3, beNat_beBytes_of_lt h4]
          simp

theorem powToTarget_length {bits : Nat} {t : Bytes} (h : powToTarget bits = some t) :
    t.length = 32 := by
  have := powToTarget_raw bits
  simp only at this
  rw [this] at h
  generalize (if bits / 2 ^ 24 ≤ 3 then bits % 2 ^ 23 / 256 ^ (3 - bits / 2 ^ 24) else bits % 2 ^ 23) *
      256 ^ (if bits / 2 ^ 24 ≤ 3 then 0 else (bits / 2 ^ 24 - 3) % 32) = V at h
  by_cases hc : bits = 0 ∨ bits / 2 ^ 23 % 2 = 1 ∨ V ≥ 2 ^ 256
  · rw [if_pos hc] at h; simp at h
  · rw [if_neg hc, Option.some.injEq] at h
    rw [← h]; simp

theorem powToTarget_spec {bits : Nat} (he : Difficulty.exponent bits ≤ 34) :
    (powToTarget bits).map beNat = Difficulty.expand bits := by
  have h := powToTarget_raw bits
  simp only at h
  unfold Difficulty.exponent at he
  have hv : (if bits / 2 ^ 24 ≤ 3 then bits % 2 ^ 23 / 256 ^ (3 - bits / 2 ^ 24) else bits % 2 ^ 23) *
      256 ^ (if bits / 2 ^ 24 ≤ 3 then 0 else (bits / 2 ^ 24 - 3) % 32) = Difficulty.value bits := by
    unfold Difficulty.value Difficulty.exponent Difficulty.mantissa
    split
    · simp
    · rw [Nat.mod_eq_of_lt (show bits / 2 ^ 24 - 3 < 32 by omega)]
  rw [hv] at h
  rw [h]
  unfold Difficulty.expand Difficulty.negative
  simp only [decide_eq_true_eq]
  split
  · rfl
  · rename_i h1
    rw [Option.map_some, beNat_beBytes_of_lt]
    rw [pow256_32]; omega

/-! compression -/

theorem leadingZeros_spec (t : Bytes) {e : Nat} (he : 1 ≤ e) (h1 : 256 ^ (e - 1) ≤ beNat t)
    (h2 : beNat t < 256 ^ e) : leadingZeros t + e = t.length := by
  induction t with
  | nil =>
    have : 0 < 256 ^ (e - 1) := Nat.pow_pos (by omega)
    simp [beNat, leNat] at h1
  | cons b r ih =>
    rw [beNat_cons] at h1 h2
    simp only [leadingZeros]
    split
    · rename_i hb; subst hb
      have := ih (by simpa using h1) (by simpa using h2)
      simp only [List.length_cons]; omega
    · rename_i hb
      have hb1 : 1 ≤ b.toNat := by
        rcases Nat.eq_zero_or_pos b.toNat with h | h
        · exact absurd (UInt8.toNat.inj (by simpa using h)) hb
        · exact h
      have hr := beNat_lt r
      have hb2 := b.toNat_lt
      have h3 : 256 ^ r.length < 256 ^ e := by
        have : 1 * 256 ^ r.length ≤ b.toNat * 256 ^ r.length := Nat.mul_le_mul_right _ hb1
        omega
      have h4 : 256 ^ (e - 1) < 256 ^ (r.length + 1) := by
        have : (b.toNat + 1) * 256 ^ r.length ≤ 256 * 256 ^ r.length := Nat.mul_le_mul_right _ hb2
        rw [Nat.pow_succ, Nat.mul_comm _ 256]
        rw [Nat.add_mul] at this
        omega
      have h5 := (Nat.pow_lt_pow_iff_right (by omega : 1 < 256)).1 h3
      have h6 := (Nat.pow_lt_pow_iff_right (by omega : 1 < 256)).1 h4
      simp only [List.length_cons]; omega

theorem leadingZeros_split (t : Bytes) :
    t = List.replicate (leadingZeros t) 0 ++ t.drop (leadingZeros t) := by
  induction t with
  | nil => rfl
  | cons b r ih =>
    simp only [leadingZeros]
    split
    · rename_i hb; subst hb
      simp only [List.replicate_succ, List.cons_append, List.drop_succ_cons]
      rw [← ih]
    · simp

theorem foldl_beNat (s : Bytes) (acc : Nat) :
    s.foldl (fun m b => m * 2 ^ 8 + b.toNat) acc = acc * 256 ^ s.length + beNat s := by
  induction s generalizing acc with
  | nil => simp [beNat, leNat]
  | cons b r ih =>
    rw [List.foldl_cons, ih, beNat_cons, List.length_cons, Nat.pow_succ 256]
    rw [Nat.add_mul, Nat.mul_assoc, Nat.mul_comm (256 ^ r.length) 256, Nat.add_assoc]; rfl

theorem rawMantissa_eq {t : Bytes} {e : Nat} (hl : t.length = 32) (he : 1 ≤ e)
    (h1 : 256 ^ (e - 1) ≤ beNat t) (h2 : beNat t < 256 ^ e) :
    rawMantissa t (32 - e) =
      if e ≤ 3 then beNat t * 256 ^ (3 - e) else beNat t / 256 ^ (e - 3) := by
  have hz := leadingZeros_spec t he h1 h2
  have hsp := leadingZeros_split t
  have hzi : leadingZeros t = 32 - e := by omega
  rw [hzi] at hsp
  have he32 : e ≤ 32 := by omega
  obtain ⟨d, hd⟩ : ∃ d, t.drop (32 - e) = d := ⟨_, rfl⟩
  have hdl : d.length = e := by rw [← hd]; simp [hl]; omega
  rw [hd] at hsp
  have hv : beNat t = beNat d := by
    rw [hsp, beNat_append, beNat_replicate]; simp
  have hee : 32 - (32 - e) = e := by omega
  unfold rawMantissa
  simp only [hee, hd, hv]
  split
  · rename_i h3
    have : e = 1 ∨ e = 2 ∨ e = 3 := by omega
    rcases this with rfl | rfl | rfl
    · match d, hdl with
      | [a], _ => subst hsp; simp [beNat, leNat, List.replicate, List.getD]
    · match d, hdl with
      | [a, b], _ => subst hsp; simp [beNat, leNat, List.replicate, List.getD]; omega
    · match d, hdl with
      | [a, b, c], _ => subst hsp; simp [beNat, leNat, List.replicate, List.getD]; omega
  · rename_i h3
    have h4 : 32 - (e - 3) - (32 - e) = 3 := by omega
    rw [h4, foldl_beNat, Nat.zero_mul, Nat.zero_add]
    have h5 := List.take_append_drop 3 d
    have h6 : (d.drop 3).length = e - 3 := by simp [hdl]
    have h7 := beNat_lt (d.drop 3)
    rw [h6] at h7
    conv_rhs => rw [← h5, beNat_append, h6, Nat.add_comm, Nat.add_mul_div_right _ _ (Nat.pow_pos (by omega)),
      Nat.div_eq_of_lt h7, Nat.zero_add]

theorem mantissa_lt {e : Nat} (he : 1 ≤ e) {v : Nat} (h2 : v < 256 ^ e) :
    (if e ≤ 3 then v * 256 ^ (3 - e) else v / 256 ^ (e - 3)) < 2 ^ 24 := by
  have e24 : (2 : Nat) ^ 24 = 256 ^ 3 := by decide
  split
  · rename_i h
    have : 256 ^ 3 = 256 ^ e * 256 ^ (3 - e) := by rw [← Nat.pow_add]; congr 1; omega
    rw [e24, this]
    exact (Nat.mul_lt_mul_right (Nat.pow_pos (by omega))).2 h2
  · rename_i h
    rw [Nat.div_lt_iff_lt_mul (Nat.pow_pos (by omega)), e24, ← Nat.pow_add]
    have : 3 + (e - 3) = e := by omega
    rw [this]; exact h2

theorem powToBits_eq {t : Bytes} {e : Nat} (hl : t.length = 32) (he : 1 ≤ e)
    (h1 : 256 ^ (e - 1) ≤ beNat t) (h2 : beNat t < 256 ^ e) :
    powToBits t =
      let m := if e ≤ 3 then beNat t * 256 ^ (3 - e) else beNat t / 256 ^ (e - 3)
      if 2 ^ 23 ≤ m then (e + 1) * 2 ^ 24 + m / 256 else e * 2 ^ 24 + m := by
  have hz := leadingZeros_spec t he h1 h2
  have hzi : leadingZeros t = 32 - e := by omega
  have hee : 32 - (32 - e) = e := by omega
  unfold powToBits
  simp only [hzi, hee, rawMantissa_eq hl he h1 h2]
  rw [if_neg (by omega)]
  have hb := mantissa_lt he h2
  generalize (if e ≤ 3 then beNat t * 256 ^ (3 - e) else beNat t / 256 ^ (e - 3)) = m at *
  have : m / 2 ^ 23 % 2 = 1 ↔ 2 ^ 23 ≤ m := by omega
  simp only [this]

/-- Byte length of a nonzero number. -/
theorem exists_byteLength {v : Nat} (h : 0 < v) : ∃ e, 1 ≤ e ∧ 256 ^ (e - 1) ≤ v ∧ v < 256 ^ e := by
  have hex : ∃ n, v < 256 ^ n := ⟨v, Nat.lt_pow_self (by omega)⟩
  classical
  refine ⟨Nat.find hex, ?_, ?_, Nat.find_spec hex⟩
  · rcases Nat.eq_zero_or_pos (Nat.find hex) with h0 | h0
    · have := Nat.find_spec hex
      rw [h0] at this; simp at this; omega
    · exact h0
  · rcases Nat.eq_zero_or_pos (Nat.find hex) with h0 | h0
    · have := Nat.find_spec hex
      rw [h0] at this; simp at this; omega
    · have := Nat.find_min hex (m := Nat.find hex - 1) (by omega)
      omega

theorem mantissa_ge {e v : Nat} (h1 : 256 ^ (e - 1) ≤ v) (he : 1 ≤ e) :
    2 ^ 16 ≤ (if e ≤ 3 then v * 256 ^ (3 - e) else v / 256 ^ (e - 3)) := by
  have e16 : (2 : Nat) ^ 16 = 256 ^ 2 := by decide
  split
  · rename_i h
    have : 256 ^ 2 = 256 ^ (e - 1) * 256 ^ (3 - e) := by rw [← Nat.pow_add]; congr 1; omega
    rw [e16, this]
    exact Nat.mul_le_mul_right _ h1
  · rename_i h
    rw [Nat.le_div_iff_mul_le (Nat.pow_pos (by omega)), e16, ← Nat.pow_add]
    have : 2 + (e - 3) = e - 1 := by omega
    rw [this]; exact h1

theorem bits_parts {e m : Nat} (hm : m < 2 ^ 23) :
    Difficulty.exponent (e * 2 ^ 24 + m) = e ∧ Difficulty.mantissa (e * 2 ^ 24 + m) = m ∧
    Difficulty.negative (e * 2 ^ 24 + m) = false := by
  unfold Difficulty.exponent Difficulty.mantissa Difficulty.negative
  simp only [decide_eq_false_iff_not]
  omega

/-- Everything about compressing a nonzero 256-bit target. -/
theorem powToBits_spec {t : Bytes} (hl : t.length = 32) (h0 : 0 < beNat t) :
    Difficulty.Canonical (powToBits t) ∧ powToBits t < 2 ^ 32 ∧
    Difficulty.exponent (powToBits t) ≤ 33 ∧
    Difficulty.value (powToBits t) ≤ beNat t ∧
    (beNat t - Difficulty.value (powToBits t)) * 2 ^ 15 ≤ Difficulty.value (powToBits t) := by
  obtain ⟨e, he, h1, h2⟩ := exists_byteLength h0
  have hz := leadingZeros_spec t he h1 h2
  have hle : e ≤ 32 := by omega
  have hv256 : beNat t < 2 ^ 256 := by have := beNat_lt t; rwa [hl, pow256_32] at this
  rw [powToBits_eq hl he h1 h2]
  have hmlt := mantissa_lt he h2
  have hmge := mantissa_ge h1 he
  have key : ∀ (E M : Nat), M < 2 ^ 23 → 2 ^ 15 ≤ M → 1 ≤ E → E ≤ 33 →
      ((E ≤ 3 ∧ M = beNat t * 256 ^ (3 - E)) ∨ (3 < E ∧ M = beNat t / 256 ^ (E - 3))) →
      Difficulty.Canonical (E * 2 ^ 24 + M) ∧ E * 2 ^ 24 + M < 2 ^ 32 ∧
      Difficulty.exponent (E * 2 ^ 24 + M) ≤ 33 ∧
      Difficulty.value (E * 2 ^ 24 + M) ≤ beNat t ∧
      (beNat t - Difficulty.value (E * 2 ^ 24 + M)) * 2 ^ 15 ≤ Difficulty.value (E * 2 ^ 24 + M) := by
    intro E M hM1 hM2 hE1 hE2 hc
    obtain ⟨p1, p2, p3⟩ := bits_parts (e := E) hM1
    unfold Difficulty.Canonical
    unfold Difficulty.value
    rw [p1, p2, p3]
    rcases hc with ⟨hE, hM⟩ | ⟨hE, hM⟩
    · have hd : M / 256 ^ (3 - E) = beNat t := by rw [hM, Nat.mul_div_cancel _ (Nat.pow_pos (by omega))]
      simp only [hE, if_true, hd, Nat.sub_self, Nat.zero_mul, Nat.zero_le, and_true, Nat.le_refl]
      exact ⟨⟨hM2, trivial, hE1, fun _ => ⟨beNat t, by rw [hM, Nat.mul_comm]⟩, hv256⟩, by omega, by omega⟩
    · have hE' : ¬ E ≤ 3 := by omega
      simp only [hE', if_false]
      have hP : 0 < 256 ^ (E - 3) := Nat.pow_pos (by omega)
      have hdiv := Nat.div_add_mod (beNat t) (256 ^ (E - 3))
      rw [← hM, Nat.mul_comm] at hdiv
      have hmod := Nat.mod_lt (beNat t) hP
      have hmul : 2 ^ 15 * 256 ^ (E - 3) ≤ M * 256 ^ (E - 3) := Nat.mul_le_mul_right _ hM2
      refine ⟨⟨hM2, trivial, hE1, fun h => absurd h (by omega), by omega⟩, by omega, hE2, by omega, ?_⟩
      have : beNat t - M * 256 ^ (E - 3) = beNat t % 256 ^ (E - 3) := by omega
      rw [this]
      calc _ ≤ 256 ^ (E - 3) * 2 ^ 15 := Nat.mul_le_mul_right _ (by omega)
        _ ≤ _ := by rw [Nat.mul_comm]; exact hmul
  obtain ⟨m, hm⟩ : ∃ m, m = if e ≤ 3 then beNat t * 256 ^ (3 - e) else beNat t / 256 ^ (e - 3) :=
    ⟨_, rfl⟩
  rw [← hm] at hmlt hmge ⊢
  by_cases hbig : 2 ^ 23 ≤ m
  · rw [if_pos hbig]
    apply key (e + 1) _ (by omega) (by omega) (by omega) (by omega)
    by_cases h3 : e ≤ 2
    · left
      have h3' : e ≤ 3 := by omega
      refine ⟨by omega, ?_⟩
      rw [hm, if_pos h3']
      have : 256 ^ (3 - e) = 256 ^ (3 - (e + 1)) * 256 := by
        rw [← Nat.pow_succ]; congr 1; omega
      rw [this, ← Nat.mul_assoc, Nat.mul_div_cancel _ (by omega)]
    · right
      refine ⟨by omega, ?_⟩
      rw [hm]
      by_cases h4 : e = 3
      · subst h4; simp
      · rw [if_neg (by omega), Nat.div_div_eq_div_mul, ← Nat.pow_succ]
        congr 2; omega
  · rw [if_neg hbig]
    apply key e _ (by omega) (by omega) (by omega) (by omega)
    by_cases h3 : e ≤ 3
    · left; exact ⟨h3, by rw [hm, if_pos h3]⟩
    · right; exact ⟨by omega, by rw [hm, if_neg h3]⟩

/-- Compressing the value of a canonical compact difficulty gives it back. -/
theorem powToBits_canonical {c : Nat} (hc : Difficulty.Canonical c)
    {t : Bytes} (hl : t.length = 32) (hv : beNat t = Difficulty.value c) : powToBits t = c := by
  obtain ⟨hM, hneg, hE1, hdvd, hlt⟩ := hc
  have hdec : c = Difficulty.exponent c * 2 ^ 24 + Difficulty.mantissa c := by
    unfold Difficulty.negative at hneg
    unfold Difficulty.exponent Difficulty.mantissa
    simp only [decide_eq_false_iff_not] at hneg
    omega
  have hM2 : Difficulty.mantissa c < 2 ^ 23 := Nat.mod_lt _ (by omega)
  unfold Difficulty.value at hv
  generalize Difficulty.exponent c = E at *
  generalize Difficulty.mantissa c = M at *
  rw [hdec]
  by_cases hE3 : E ≤ 3
  · -- small exponents: finitely many shapes
    rw [if_pos hE3] at hv
    have hMv : M = beNat t * 256 ^ (3 - E) := by
      by_cases h : E < 3
      · rw [hv, Nat.div_mul_cancel (hdvd h)]
      · have : E = 3 := by omega
        subst this; simpa using hv.symm
    by_cases hbig : 2 ^ 16 ≤ M
    · have b1 : 256 ^ (E - 1) ≤ beNat t := by
        have h3 : E = 1 ∨ E = 2 ∨ E = 3 := by omega
        rcases h3 with rfl | rfl | rfl <;> simp at hMv ⊢ <;> omega
      have b2 : beNat t < 256 ^ E := by
        have h3 : E = 1 ∨ E = 2 ∨ E = 3 := by omega
        rcases h3 with rfl | rfl | rfl <;> simp at hMv ⊢ <;> omega
      rw [powToBits_eq hl hE1 b1 b2]
      simp only [hE3, if_true, ← hMv]
      rw [if_neg (by omega)]
    · have hE2 : 2 ≤ E := by
        by_contra hcon
        have : E = 1 := by omega
        subst this; simp at hMv; omega
      have b1 : 256 ^ (E - 1 - 1) ≤ beNat t := by
        have h3 : E = 2 ∨ E = 3 := by omega
        rcases h3 with rfl | rfl <;> simp at hMv ⊢ <;> omega
      have b2 : beNat t < 256 ^ (E - 1) := by
        have h3 : E = 2 ∨ E = 3 := by omega
        rcases h3 with rfl | rfl <;> simp at hMv ⊢ <;> omega
      rw [powToBits_eq hl (by omega) b1 b2]
      have h3 : E = 2 ∨ E = 3 := by omega
      rcases h3 with rfl | rfl <;> simp at hMv ⊢ <;> split <;> omega
  · rw [if_neg hE3] at hv
    have hP : 0 < 256 ^ (E - 3) := Nat.pow_pos (by omega)
    by_cases hbig : 2 ^ 16 ≤ M
    · have b1 : 256 ^ (E - 1) ≤ beNat t := by
        have : 256 ^ (E - 1) = 2 ^ 16 * 256 ^ (E - 3) := by
          rw [show (2 : Nat) ^ 16 = 256 ^ 2 by decide, ← Nat.pow_add]; congr 1; omega
        rw [hv, this]; exact Nat.mul_le_mul_right _ hbig
      have b2 : beNat t < 256 ^ E := by
        have : 256 ^ E = 2 ^ 24 * 256 ^ (E - 3) := by
          rw [show (2 : Nat) ^ 24 = 256 ^ 3 by decide, ← Nat.pow_add]; congr 1; omega
        rw [hv, this]; exact (Nat.mul_lt_mul_right hP).2 (by omega)
      rw [powToBits_eq hl hE1 b1 b2]
      have hq : beNat t / 256 ^ (E - 3) = M := by rw [hv, Nat.mul_div_cancel _ hP]
      simp only [hE3, if_false, hq]
      rw [if_neg (by omega)]
    · have b1 : 256 ^ (E - 1 - 1) ≤ beNat t := by
        have h5 : 256 ^ (E - 1 - 1) = 2 ^ 8 * 256 ^ (E - 3) := by
          rw [show (2 : Nat) ^ 8 = 256 ^ 1 by decide, ← Nat.pow_add]; congr 1; omega
        rw [hv, h5]; exact Nat.mul_le_mul_right _ (by omega)
      have b2 : beNat t < 256 ^ (E - 1) := by
        have : 256 ^ (E - 1) = 2 ^ 16 * 256 ^ (E - 3) := by
          rw [show (2 : Nat) ^ 16 = 256 ^ 2 by decide, ← Nat.pow_add]; congr 1; omega
        rw [hv, this]; exact (Nat.mul_lt_mul_right hP).2 (by omega)
      rw [powToBits_eq hl (by omega) b1 b2]
      by_cases h4 : E = 4
      · subst h4
        simp at hv ⊢
        rw [hv]
        split <;> omega
      · have hq : beNat t / 256 ^ (E - 1 - 3) = M * 256 := by
          have : 256 ^ (E - 3) = 256 * 256 ^ (E - 1 - 3) := by
            rw [Nat.mul_comm, ← Nat.pow_succ]; congr 1; omega
          rw [hv, this, ← Nat.mul_assoc, Nat.mul_div_cancel _ (Nat.pow_pos (by omega))]
        have h5 : ¬ (E - 1 ≤ 3) := by omega
        simp only [h5, if_false, hq]
        rw [if_pos (by omega)]
        omega

theorem powToBits_zero {t : Bytes} (hl : t.length = 32) (h0 : beNat t = 0) : powToBits t = 0 := by
  have : t = List.replicate 32 0 := by
    apply beNat_inj (by simp [hl])
    rw [h0, beNat_replicate]
  subst this
  decide

/-! work -/

theorem getProof_eq {bits : Nat} {t : Bytes} (h : powToTarget bits = some t) :
    ∃ w, getProof bits = .ok w ∧ w.length = 32 ∧ beNat w = Difficulty.work (beNat t) := by
  have hl := powToTarget_length h
  obtain ⟨f1, f2⟩ := Bn.fromArray_spec hl
  have hlt : beNat t < 2 ^ 256 := by have := beNat_lt t; rwa [hl, pow256_32] at this
  have iw : Bn.WF (Bn.inc (Bn.fromArray t)) :=
    ⟨by rw [Bn.inc_length, f1.1], Bn.inc_small f1.2⟩
  have iv : Bn.val (Bn.inc (Bn.fromArray t)) = beNat t + 1 := by
    rw [Bn.val_inc f1.2, f1.1, f2, Bn.pow16, Nat.mod_eq_of_lt (by omega)]
  obtain ⟨s1, s2⟩ := Bn.wf_lshift (Bn.wf_fromInt 1) 256
  obtain ⟨q, q1, q2, q3⟩ := Bn.div_spec s1 iw (by omega)
  obtain ⟨a1, a2⟩ := Bn.toArray_spec q2
  refine ⟨Bn.toArray q 32, ?_, a1, ?_⟩
  · simp only [getProof, h, q1]
  · rw [a2, q3, s2, iv, Bn.val_fromInt (by omega)]
    unfold Difficulty.work
    rw [Nat.one_mul, Nat.mod_eq_of_lt (by omega : 2 ^ 256 < 2 ^ 512)]

theorem calcWork_some {bits : Nat} {t p : Bytes} (h : powToTarget bits = some t)
    (hp : p.length = 32) :
    ∃ w, calcWork bits (some p) = .ok w ∧ w.length = 32 ∧
      beNat w = (beNat p + Difficulty.work (beNat t)) % 2 ^ 256 := by
  obtain ⟨w, w1, w2, w3⟩ := getProof_eq h
  obtain ⟨f1, f2⟩ := Bn.fromArray_spec hp
  obtain ⟨g1, g2⟩ := Bn.fromArray_spec w2
  obtain ⟨a1, a2⟩ := Bn.toArray_spec (Bn.wf_add f1 g1)
  refine ⟨Bn.toArray (Bn.add (Bn.fromArray p) (Bn.fromArray w)) 32, ?_, a1, ?_⟩
  · simp only [calcWork, w1, Out.bind_ok, Out.pure_eq]
  · rw [a2, Bn.val_add f1 g1, f2, g2, w3]
    exact Nat.mod_mod_of_dvd _ ⟨2 ^ 256, by rw [← Nat.pow_add]⟩

theorem getProof_none {bits : Nat} (h : powToTarget bits = none) : getProof bits = .err () := by
  simp [getProof, h]

/-! hash preimage -/

theorem padding_congr {h g : Hdr} (hp : h.prevBlock = g.prevBlock) (hn : h.nameRoot = g.nameRoot)
    (n : Nat) : padding h n = padding g n := by simp [padding, hp, hn]

theorem padding_length (h : Hdr) (n : Nat) : (padding h n).length = n := by simp [padding]

end Verif.Header
