import Verif.Model.Addr
import Verif.Spec.Addr
import Verif.Lemmas.Bio
/-
Helper lemmas for addresses.
-/
namespace Verif.Addr
open Verif.Bio Verif.Spec.Addr

/-- A value the C type can hold. -/
structure WF (a : Addr) : Prop where
  type : a.type < 256
  ip : a.ip.length = 36
  port : a.port < 65536
  key : a.key.length = 33

theorem leNat_append (s t : Bytes) : leNat (s ++ t) = leNat s + 256 ^ s.length * leNat t := by
  induction s with
  | nil => simp [leNat]
  | cons b r ih =>
    simp only [List.cons_append, leNat, ih, List.length_cons, Nat.pow_succ]
    rw [Nat.mul_add, ← Nat.mul_assoc, Nat.mul_comm 256 (256 ^ r.length)]
    omega

theorem beNat_cons (b : UInt8) (r : Bytes) : beNat (b :: r) = b.toNat * 256 ^ r.length + beNat r := by
  simp only [beNat, List.reverse_cons, leNat_append, List.length_reverse]
  simp only [leNat]
  rw [Nat.mul_zero, Nat.add_zero, Nat.mul_comm]
  omega

theorem pow256 (n : Nat) : 256 ^ n = 2 ^ (8 * n) := by
  rw [show (256 : Nat) = 2 ^ 8 from rfl, ← Nat.pow_mul]

theorem inBlock_zero (ip pre : Bytes) : inBlock ip pre 0 ↔ True := by
  have h1 := beNat_lt ip
  have h2 := beNat_lt pre
  rw [pow256] at h1 h2
  simp only [inBlock, Nat.sub_zero, Nat.div_eq_of_lt h1, Nat.div_eq_of_lt h2]

theorem inBlock_cons (b p : UInt8) (r q : Bytes) (h : r.length = q.length) (len : Nat) (hl : len ≤ 8 * r.length) :
    inBlock (b :: r) (p :: q) (len + 8) ↔ b.toNat = p.toNat ∧ inBlock r q len := by
  have h1 := beNat_lt r
  have h2 := beNat_lt q
  simp only [inBlock, List.length_cons, beNat_cons]
  rw [← h] at h2 ⊢
  have e : 8 * (r.length + 1) - (len + 8) = 8 * r.length - len := by omega
  rw [e]
  have hp : 256 ^ r.length = 2 ^ len * 2 ^ (8 * r.length - len) := by
    rw [pow256, ← Nat.pow_add]; congr 1; omega
  rw [hp] at h1 h2 ⊢
  generalize 2 ^ (8 * r.length - len) = D at *
  generalize 2 ^ len = E at *
  have hD : 0 < D := by
    rcases Nat.eq_zero_or_pos D with h0 | h0
    · rw [h0] at h1; omega
    · exact h0
  have k1 : ∀ x y : Nat, (x * (E * D) + y) / D = x * E + y / D := by
    intro x y
    rw [← Nat.mul_assoc, Nat.mul_comm (x * E) D, Nat.mul_add_div hD]
  rw [k1, k1]
  have l1 : beNat r / D < E := by rw [Nat.div_lt_iff_lt_mul hD]; exact h1
  have l2 : beNat q / D < E := by rw [Nat.div_lt_iff_lt_mul hD]; exact h2
  constructor
  · intro he
    have hE : 0 < E := Nat.lt_of_le_of_lt (Nat.zero_le _) l1
    have a1 := congrArg (· / E) he
    have a2 := congrArg (· % E) he
    simp only [Nat.mul_comm _ E, Nat.mul_add_div hE, Nat.mul_add_mod, Nat.div_eq_of_lt l1, Nat.div_eq_of_lt l2,
      Nat.mod_eq_of_lt l1, Nat.mod_eq_of_lt l2, Nat.add_zero] at a1 a2
    exact ⟨a1, a2⟩
  · rintro ⟨e1, e2⟩
    rw [e1, e2]

theorem inBlock_part (b p : UInt8) (r q : Bytes) (h : r.length = q.length) (j : Nat) (hj : j ≤ 8) :
    inBlock (b :: r) (p :: q) j ↔ b.toNat / 2 ^ (8 - j) = p.toNat / 2 ^ (8 - j) := by
  have h1 := beNat_lt r
  have h2 := beNat_lt q
  simp only [inBlock, List.length_cons, beNat_cons]
  rw [← h] at h2 ⊢
  have e : 2 ^ (8 * (r.length + 1) - j) = 256 ^ r.length * 2 ^ (8 - j) := by
    rw [pow256, ← Nat.pow_add]; congr 1; omega
  rw [e, ← Nat.div_div_eq_div_mul, ← Nat.div_div_eq_div_mul]
  have hD : 0 < 256 ^ r.length := Nat.pow_pos (by omega)
  have k1 : ∀ x y : Nat, y < 256 ^ r.length → (x * 256 ^ r.length + y) / 256 ^ r.length = x := by
    intro x y hy
    rw [Nat.mul_comm, Nat.mul_add_div hD, Nat.div_eq_of_lt hy, Nat.add_zero]
  rw [k1 _ _ h1, k1 _ _ h2]

/-- Sixteen named bytes of an address. -/
theorem WF.bytes {a : Addr} (h : WF a) : ∃ b0 b1 b2 b3 b4 b5 b6 b7 b8 b9 b10 b11 b12 b13 b14 b15 t,
    a.ip = b0 :: b1 :: b2 :: b3 :: b4 :: b5 :: b6 :: b7 :: b8 :: b9 :: b10 :: b11 :: b12 :: b13 :: b14 :: b15 :: t := by
  obtain ⟨type, ip, port, key⟩ := a
  have hl := h.ip
  simp only at hl
  match ip, hl with
  | b0 :: b1 :: b2 :: b3 :: b4 :: b5 :: b6 :: b7 :: b8 :: b9 :: b10 :: b11 :: b12 :: b13 :: b14 :: b15 :: t, _ =>
    exact ⟨b0, b1, b2, b3, b4, b5, b6, b7, b8, b9, b10, b11, b12, b13, b14, b15, t, rfl⟩

/-- Is the address in the block? -/
def within (a : Addr) (b : Bytes × Nat) : Prop := inBlock (a.ip.take 16) b.1 b.2

theorem eq_toNat (x y : UInt8) : x = y ↔ x.toNat = y.toNat := ⟨fun h => by rw [h], UInt8.toNat.inj⟩

/-- A block given by whole bytes. -/
theorem inBlock_bytes (p : Bytes) : ∀ (s q : Bytes), s.length = (p ++ q).length →
    (inBlock s (p ++ q) (8 * p.length) ↔ s.take p.length = p) := by
  induction p with
  | nil => intro s q _; simp [inBlock_zero]
  | cons c p ih =>
    intro s q hl
    cases s with
    | nil => simp at hl
    | cons b s =>
      have hl' : s.length = (p ++ q).length := by simpa using hl
      have hle : 8 * p.length ≤ 8 * s.length := by rw [hl']; simp only [List.length_append]; omega
      have := inBlock_cons b c s (p ++ q) hl' (8 * p.length) hle
      rw [List.cons_append, List.length_cons, Nat.mul_add, Nat.mul_one, this, ih s q hl', List.take_succ_cons, List.cons.injEq, eq_toNat]

/-- A block given by whole bytes and some bits of the next. -/
theorem inBlock_bits (p : Bytes) (c : UInt8) (j : Nat) (hj : j ≤ 8) : ∀ (s q : Bytes), s.length = (p ++ c :: q).length →
    (inBlock s (p ++ c :: q) (8 * p.length + j) ↔
      s.take p.length = p ∧ (s.getD p.length 0).toNat / 2 ^ (8 - j) = c.toNat / 2 ^ (8 - j)) := by
  induction p with
  | nil =>
    intro s q hl
    cases s with
    | nil => simp at hl
    | cons b s =>
      have := inBlock_part b c s q (by simpa using hl) j hj
      simpa using this
  | cons d p ih =>
    intro s q hl
    cases s with
    | nil => simp at hl
    | cons b s =>
      have hl' : s.length = (p ++ c :: q).length := by simpa using hl
      have hle : 8 * p.length + j ≤ 8 * s.length := by
        rw [hl']; simp only [List.length_append, List.length_cons]; omega
      have := inBlock_cons b d s (p ++ c :: q) hl' (8 * p.length + j) hle
      rw [List.cons_append, List.length_cons, Nat.mul_add, Nat.mul_one, Nat.add_right_comm, this, ih s q hl', List.take_succ_cons,
        List.cons.injEq, eq_toNat]
      simp [and_assoc]

theorem take16_length {a : Addr} (h : WF a) : (a.ip.take 16).length = 16 := by
  rw [List.length_take, h.ip]; rfl

theorem within_bytes {a : Addr} (h : WF a) (p q : Bytes) (hp : p.length + q.length = 16) (n : Nat) (hn : n = 8 * p.length) :
    within a (p ++ q, n) ↔ startsWith a p = true := by
  have hle : p.length ≤ 16 := by omega
  rw [hn]
  simp only [within, startsWith, beq_iff_eq]
  rw [inBlock_bytes p _ q (by rw [take16_length h, List.length_append, hp]), List.take_take, Nat.min_eq_left hle]

theorem within_bits {a : Addr} (h : WF a) (p q : Bytes) (c : UInt8) (hp : p.length + q.length = 15) (j n : Nat) (hj : j ≤ 8)
    (hn : n = 8 * p.length + j) :
    within a (p ++ c :: q, n) ↔ startsWith a p = true ∧ byte a p.length / 2 ^ (8 - j) = c.toNat / 2 ^ (8 - j) := by
  have hle : p.length ≤ 16 := by omega
  have hlt : p.length < 16 := by omega
  rw [hn]
  simp only [within, startsWith, beq_iff_eq, byte]
  rw [inBlock_bits p c j hj _ q (by rw [take16_length h, List.length_append, List.length_cons]; omega), List.take_take, Nat.min_eq_left hle]
  simp [List.getD_eq_getElem?_getD, List.getElem?_take, hlt]

/-- The mapped prefix and more bytes. -/
theorem startsWith_mapped (a : Addr) (p : Bytes) :
    startsWith a (mapped ++ p) = true ↔ isMapped a = true ∧ (a.ip.drop 12).take p.length = p := by
  simp only [startsWith, isMapped, beq_iff_eq, List.length_append, show mapped.length = 12 from rfl]
  rw [List.take_add]
  constructor
  · intro h
    have h1 := congrArg (List.take 12) h
    have h2 := congrArg (List.drop 12) h
    by_cases hl : 12 ≤ a.ip.length
    · have e : (a.ip.take 12).length = 12 := by rw [List.length_take]; omega
      rw [List.take_append_of_le_length (by omega), List.take_of_length_le (by omega)] at h1
      rw [List.drop_append_of_le_length (by omega), List.drop_of_length_le (by omega)] at h2
      exact ⟨by simpa [mapped] using h1, by simpa [mapped] using h2⟩
    · have := congrArg List.length h
      simp [mapped] at this
      omega
  · rintro ⟨h1, h2⟩
    rw [h1, h2]

theorem drop_take_one {a : Addr} (h : WF a) (x : UInt8) :
    (a.ip.drop 12).take 1 = [x] ↔ byte a 12 = x.toNat := by
  obtain ⟨b0, b1, b2, b3, b4, b5, b6, b7, b8, b9, b10, b11, b12, b13, b14, b15, t, hb⟩ := h.bytes
  simp [byte, hb, eq_toNat]

theorem drop_take_two {a : Addr} (h : WF a) (x y : UInt8) :
    (a.ip.drop 12).take 2 = [x, y] ↔ byte a 12 = x.toNat ∧ byte a 13 = y.toNat := by
  obtain ⟨b0, b1, b2, b3, b4, b5, b6, b7, b8, b9, b10, b11, b12, b13, b14, b15, t, hb⟩ := h.bytes
  simp [byte, hb, eq_toNat]

theorem drop_take_three {a : Addr} (h : WF a) (x y z : UInt8) :
    (a.ip.drop 12).take 3 = [x, y, z] ↔ byte a 12 = x.toNat ∧ byte a 13 = y.toNat ∧ byte a 14 = z.toNat := by
  obtain ⟨b0, b1, b2, b3, b4, b5, b6, b7, b8, b9, b10, b11, b12, b13, b14, b15, t, hb⟩ := h.bytes
  simp [byte, hb, eq_toNat]

theorem drop_take_four {a : Addr} (h : WF a) (x y z w : UInt8) :
    (a.ip.drop 12).take 4 = [x, y, z, w] ↔ byte a 12 = x.toNat ∧ byte a 13 = y.toNat ∧ byte a 14 = z.toNat ∧ byte a 15 = w.toNat := by
  obtain ⟨b0, b1, b2, b3, b4, b5, b6, b7, b8, b9, b10, b11, b12, b13, b14, b15, t, hb⟩ := h.bytes
  simp [byte, hb, eq_toNat]

theorem v4_8 {a : Addr} (h : WF a) (x : UInt8) : within a (v4 x 0 0 0, 104) ↔ isMapped a = true ∧ byte a 12 = x.toNat := by
  have := within_bytes h (mapped ++ [x]) [0, 0, 0] rfl 104 rfl
  rw [startsWith_mapped, List.length_singleton, drop_take_one h] at this
  exact this

theorem v4_16 {a : Addr} (h : WF a) (x y : UInt8) :
    within a (v4 x y 0 0, 112) ↔ isMapped a = true ∧ byte a 12 = x.toNat ∧ byte a 13 = y.toNat := by
  have := within_bytes h (mapped ++ [x, y]) [0, 0] rfl 112 rfl
  rw [startsWith_mapped, show [x, y].length = 2 from rfl, drop_take_two h] at this
  exact this

theorem v4_24 {a : Addr} (h : WF a) (x y z : UInt8) :
    within a (v4 x y z 0, 120) ↔ isMapped a = true ∧ byte a 12 = x.toNat ∧ byte a 13 = y.toNat ∧ byte a 14 = z.toNat := by
  have := within_bytes h (mapped ++ [x, y, z]) [0] rfl 120 rfl
  rw [startsWith_mapped, show [x, y, z].length = 3 from rfl, drop_take_three h] at this
  exact this

theorem v4_32 {a : Addr} (h : WF a) (x y z w : UInt8) :
    within a (v4 x y z w, 128) ↔
      isMapped a = true ∧ byte a 12 = x.toNat ∧ byte a 13 = y.toNat ∧ byte a 14 = z.toNat ∧ byte a 15 = w.toNat := by
  have := within_bytes h (mapped ++ [x, y, z, w]) [] rfl 128 rfl
  rw [startsWith_mapped, show [x, y, z, w].length = 4 from rfl, drop_take_four h] at this
  exact this

theorem v4_part {a : Addr} (h : WF a) (x y : UInt8) (j n : Nat) (hj : j ≤ 8) (hn : n = 104 + j) :
    within a (v4 x y 0 0, n) ↔ isMapped a = true ∧ byte a 12 = x.toNat ∧ byte a 13 / 2 ^ (8 - j) = y.toNat / 2 ^ (8 - j) := by
  have := within_bits h (mapped ++ [x]) [0, 0] y rfl j n hj hn
  rw [startsWith_mapped, List.length_singleton, drop_take_one h, and_assoc] at this
  exact this

theorem isRfc1918_iff {a : Addr} (h : WF a) : isRfc1918 a = true ↔
    within a (v4 10 0 0 0, 104) ∨ within a (v4 192 168 0 0, 112) ∨ within a (v4 172 16 0 0, 108) := by
  rw [v4_8 h, v4_16 h, v4_part h 172 16 4 108 (by omega) rfl]
  simp only [isRfc1918, Bool.and_eq_true, Bool.or_eq_true, decide_eq_true_eq, show (10 : UInt8).toNat = 10 from rfl,
    show (192 : UInt8).toNat = 192 from rfl, show (168 : UInt8).toNat = 168 from rfl, show (172 : UInt8).toNat = 172 from rfl,
    show (16 : UInt8).toNat = 16 from rfl, show (8 - 4 : Nat) = 4 from rfl, show (2 ^ 4 : Nat) = 16 from rfl]
  cases isMapped a <;> simp <;> omega

theorem isRfc2544_iff {a : Addr} (h : WF a) : isRfc2544 a = true ↔
    within a (v4 198 18 0 0, 111) ∨ within a (v4 169 254 0 0, 112) := by
  rw [v4_16 h, v4_part h 198 18 7 111 (by omega) rfl]
  simp only [isRfc2544, Bool.and_eq_true, Bool.or_eq_true, decide_eq_true_eq, show (198 : UInt8).toNat = 198 from rfl,
    show (18 : UInt8).toNat = 18 from rfl, show (169 : UInt8).toNat = 169 from rfl, show (254 : UInt8).toNat = 254 from rfl,
    show (8 - 7 : Nat) = 1 from rfl, show (2 ^ 1 : Nat) = 2 from rfl]
  cases isMapped a <;> simp <;> omega

theorem isRfc3927_iff {a : Addr} (h : WF a) : isRfc3927 a = true ↔ within a (v4 169 254 0 0, 112) := by
  rw [v4_16 h]
  simp [isRfc3927]

theorem isRfc6598_iff {a : Addr} (h : WF a) : isRfc6598 a = true ↔ within a (v4 100 64 0 0, 106) := by
  rw [v4_part h 100 64 2 106 (by omega) rfl]
  simp only [isRfc6598, Bool.and_eq_true, Bool.or_eq_true, decide_eq_true_eq, show (100 : UInt8).toNat = 100 from rfl,
    show (64 : UInt8).toNat = 64 from rfl, show (8 - 2 : Nat) = 6 from rfl, show (2 ^ 6 : Nat) = 64 from rfl]
  cases isMapped a <;> simp <;> omega

theorem isRfc5737_iff {a : Addr} (h : WF a) : isRfc5737 a = true ↔
    within a (v4 192 0 2 0, 120) ∨ within a (v4 198 51 100 0, 120) ∨ within a (v4 203 0 113 0, 120) := by
  rw [v4_24 h, v4_24 h, v4_24 h]
  cases hm : isMapped a <;> simp [isRfc5737, hm, and_assoc, or_assoc]

theorem isBroadcast_iff {a : Addr} (h : WF a) : isBroadcast a = true ↔ within a (v4 255 255 255 255, 128) := by
  rw [v4_32 h]
  cases hm : isMapped a <;> simp [isBroadcast, hm, and_assoc]

theorem startsWith_zero_not_mapped {a : Addr} (h : WF a) (p : Bytes) (hp : p = zeroIp ∨ p = localIp) (hs : startsWith a p = true) :
    isMapped a = false := by
  obtain ⟨b0, b1, b2, b3, b4, b5, b6, b7, b8, b9, b10, b11, b12, b13, b14, b15, t, hb⟩ := h.bytes
  rcases hp with rfl | rfl
  · simp only [startsWith, zeroIp, hb, isMapped, mapped, List.length_cons, List.length_nil, List.take_succ_cons, beq_iff_eq, List.cons.injEq] at hs ⊢
    simp [hs]
  · simp only [startsWith, localIp, hb, isMapped, mapped, List.length_cons, List.length_nil, List.take_succ_cons, beq_iff_eq, List.cons.injEq] at hs ⊢
    simp [hs]

theorem isNull_iff {a : Addr} (h : WF a) : isNull a = true ↔
    within a (v4 0 0 0 0, 128) ∨ within a (v6 0 0 0 0 0 0 0 0, 128) := by
  rw [v4_32 h, show v6 0 0 0 0 0 0 0 0 = zeroIp ++ [] from rfl, within_bytes h zeroIp [] rfl 128 rfl]
  have hz := startsWith_zero_not_mapped h zeroIp (Or.inl rfl)
  unfold isNull
  cases hm : isMapped a with
  | true =>
    have : startsWith a zeroIp = false := by
      cases hs : startsWith a zeroIp with
      | false => rfl
      | true => rw [hz hs] at hm; cases hm
    simp [this, and_assoc]
  | false => simp

theorem isLocal_iff {a : Addr} (h : WF a) : isLocal a = true ↔
    within a (v4 127 0 0 0, 112) ∨ within a (loopback6, 128) := by
  rw [v4_16 h, show loopback6 = localIp ++ [] from rfl, within_bytes h localIp [] rfl 128 rfl]
  have hz := startsWith_zero_not_mapped h localIp (Or.inr rfl)
  unfold isLocal
  cases hm : isMapped a with
  | true =>
    have : startsWith a localIp = false := by
      cases hs : startsWith a localIp with
      | false => rfl
      | true => rw [hz hs] at hm; cases hm
    simp [this]
  | false => simp

theorem isRfc3849_iff {a : Addr} (h : WF a) : isRfc3849 a = true ↔ within a (v6 0x20 0x01 0x0d 0xb8 0 0 0 0, 32) := by
  rw [show v6 0x20 0x01 0x0d 0xb8 0 0 0 0 = [0x20, 0x01, 0x0d, 0xb8] ++ List.replicate 12 0 from rfl, within_bytes h _ _ rfl 32 rfl]
  obtain ⟨b0, b1, b2, b3, b4, b5, b6, b7, b8, b9, b10, b11, b12, b13, b14, b15, t, hb⟩ := h.bytes
  simp [isRfc3849, startsWith, byte, hb, eq_toNat, and_assoc]

theorem isRfc4862_iff {a : Addr} (h : WF a) : isRfc4862 a = true ↔ within a (v6 0xfe 0x80 0 0 0 0 0 0, 64) := by
  rw [show v6 0xfe 0x80 0 0 0 0 0 0 = rfc4862 ++ List.replicate 8 0 from rfl, within_bytes h _ _ rfl 64 rfl]
  rfl

theorem isOnion_iff {a : Addr} (h : WF a) : isOnion a = true ↔ within a onion := by
  rw [show onion = (torOnion ++ List.replicate 10 0, 48) from rfl, within_bytes h _ _ rfl 48 rfl]
  rfl

theorem isShifted_iff {a : Addr} (h : WF a) :
    startsWith a shifted = true ↔ within a ([0, 0, 0, 0, 0, 0, 0, 0xff, 0xff, 0, 0, 0, 0, 0, 0, 0], 72) :=
  (within_bytes h shifted (List.replicate 7 0) rfl 72 rfl).symm

theorem isRfc4193_iff {a : Addr} (h : WF a) : isRfc4193 a = true ↔ within a uniqueLocal := by
  rw [show uniqueLocal = ([] ++ 0xfc :: List.replicate 15 0, 7) from rfl, within_bits h [] _ 0xfc rfl 7 7 (by omega) rfl]
  have : byte a 0 < 256 := by unfold byte; exact UInt8.toNat_lt _
  simp [isRfc4193, startsWith]
  omega

theorem isRfc4843_iff {a : Addr} (h : WF a) : isRfc4843 a = true ↔ within a (v6 0x20 0x01 0 0x10 0 0 0 0, 28) := by
  rw [show v6 0x20 0x01 0 0x10 0 0 0 0 = [0x20, 0x01, 0] ++ 0x10 :: List.replicate 12 0 from rfl,
    within_bits h [0x20, 0x01, 0] _ 0x10 rfl 4 28 (by omega) rfl]
  obtain ⟨b0, b1, b2, b3, b4, b5, b6, b7, b8, b9, b10, b11, b12, b13, b14, b15, t, hb⟩ := h.bytes
  have : b3.toNat < 256 := UInt8.toNat_lt _
  simp [isRfc4843, startsWith, byte, hb, eq_toNat, and_assoc]
  omega

end Verif.Addr
