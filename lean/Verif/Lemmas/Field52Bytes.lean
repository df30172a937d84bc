import Verif.Lemmas.Field52Ops
/-
Reading and writing field elements of five words.
-/
namespace Verif.Field52
open Verif Verif.Spec.Secp

theorem or_shl (x y k : Nat) (h : x < 2 ^ k) : x ||| (y <<< k) = x + y * 2 ^ k := by
  rw [Nat.or_comm, Nat.shiftLeft_eq, Nat.mul_comm, ← Nat.two_pow_add_eq_or_of_lt h, Nat.add_comm]

theorem and15 (x : Nat) : x &&& 0xF = x % 2 ^ 4 := Nat.and_two_pow_sub_one_eq_mod x 4
theorem and255 (x : Nat) : x &&& 0xFF = x % 2 ^ 8 := Nat.and_two_pow_sub_one_eq_mod x 8

set_option linter.unusedVariables false in
/-- Six bytes; seven, the last of four bits; and the other way. -/
theorem six {a b c d e f : Nat} (ha : a < 256) (hb : b < 256) (hc : c < 256) (hd : d < 256) (he : e < 256) (hf : f < 256) :
    a ||| (b <<< 8) ||| (c <<< 16) ||| (d <<< 24) ||| (e <<< 32) ||| (f <<< 40) =
      a + b * 2 ^ 8 + c * 2 ^ 16 + d * 2 ^ 24 + e * 2 ^ 32 + f * 2 ^ 40 := by
  rw [or_shl a b 8 (by omega), or_shl _ c 16 (by omega), or_shl _ d 24 (by omega), or_shl _ e 32 (by omega), or_shl _ f 40 (by omega)]

theorem seven {a b c d e f g : Nat} (ha : a < 256) (hb : b < 256) (hc : c < 256) (hd : d < 256) (he : e < 256) (hf : f < 256) :
    a ||| (b <<< 8) ||| (c <<< 16) ||| (d <<< 24) ||| (e <<< 32) ||| (f <<< 40) ||| ((g &&& 0xF) <<< 48) =
      a + b * 2 ^ 8 + c * 2 ^ 16 + d * 2 ^ 24 + e * 2 ^ 32 + f * 2 ^ 40 + g % 16 * 2 ^ 48 := by
  rw [six ha hb hc hd he hf, or_shl _ _ 48 (by omega), and15, show (2 : Nat) ^ 4 = 16 from rfl]

theorem seven' {a b c d e f g : Nat} (hg : g < 256) (ha : a < 256) (hb : b < 256) (hc : c < 256) (hd : d < 256) (he : e < 256) :
    ((g >>> 4) &&& 0xF) ||| (a <<< 4) ||| (b <<< 12) ||| (c <<< 20) ||| (d <<< 28) ||| (e <<< 36) ||| (f <<< 44) =
      g / 16 + a * 2 ^ 4 + b * 2 ^ 12 + c * 2 ^ 20 + d * 2 ^ 28 + e * 2 ^ 36 + f * 2 ^ 44 := by
  rw [and15, Nat.shiftRight_eq_div_pow, Nat.mod_eq_of_lt (by omega), or_shl _ a 4 (by omega), or_shl _ b 12 (by omega), or_shl _ c 20 (by omega),
    or_shl _ d 28 (by omega), or_shl _ e 36 (by omega), or_shl _ f 44 (by omega)]

theorem inRange_spec {t : Fe} (hl : Lim t) (h4 : t.n4 < 2 ^ 48) : inRange t = decide (val t < p) := by
  obtain ⟨t0, t1, t2, t3, t4⟩ := t
  obtain ⟨h0, h1, h2, h3⟩ := hl
  dsimp only at *
  rw [inRange, ← Bool.decide_and, ← Bool.decide_and, ← decide_not]
  apply decide_eq_decide.2
  dsimp only
  rw [and3 h3 h2 h1, val, p_eq]
  dsimp only
  omega

/-- Six bytes. -/
theorem be6 (a b c d e f : UInt8) : beNat [f, e, d, c, b, a] =
    a.toNat + b.toNat * 2 ^ 8 + c.toNat * 2 ^ 16 + d.toNat * 2 ^ 24 + e.toNat * 2 ^ 32 + f.toNat * 2 ^ 40 := by
  simp only [beNat, List.reverse_cons, List.reverse_nil, List.nil_append, List.cons_append, leNat]
  omega

theorem be7 (g a b c d e f : UInt8) : g.toNat / 16 + a.toNat * 2 ^ 4 + b.toNat * 2 ^ 12 + c.toNat * 2 ^ 20 + d.toNat * 2 ^ 28 +
    e.toNat * 2 ^ 36 + f.toNat * 2 ^ 44 = g.toNat / 16 + beNat [f, e, d, c, b, a] * 16 := by
  rw [be6]; omega

theorem beNat_app (x y : Bytes) : beNat (x ++ y) = beNat x * 256 ^ y.length + beNat y := by
  have h : ∀ u v : Bytes, leNat (u ++ v) = leNat u + 256 ^ u.length * leNat v := by
    intro u v
    induction u with
    | nil => simp [leNat]
    | cons a u ih => simp only [List.cons_append, leNat, ih, List.length_cons, pow_succ]; ring
  rw [beNat, List.reverse_append, h, List.length_reverse, beNat, beNat]; ring

theorem beNat_one (x : UInt8) : beNat [x] = x.toNat := by simp [beNat, leNat]

/-- The 32 bytes in seven parts. -/
theorem parts (A B D E F : Bytes) (x y : UInt8) (hB : B.length = 6) (hD : D.length = 6) (hE : E.length = 6) (hF : F.length = 6) :
    beNat (A ++ (B ++ ([x] ++ (D ++ (E ++ ([y] ++ F)))))) = beNat A * 2 ^ 208 + beNat B * 2 ^ 160 + x.toNat * 2 ^ 152 + beNat D * 2 ^ 104 +
      beNat E * 2 ^ 56 + y.toNat * 2 ^ 48 + beNat F := by
  simp only [beNat_app, List.length_append, hB, hD, hE, hF, beNat_one, List.length_cons, List.length_nil]
  norm_num
  ring

set_option linter.unusedVariables false in
theorem limbs {A B D E F x y : Nat} (hA : A < 2 ^ 48) (hB : B < 2 ^ 48) (hD : D < 2 ^ 48) (hE : E < 2 ^ 48) (hF : F < 2 ^ 48)
    (hx : x < 256) (hy : y < 256) :
    Lim ⟨F + y % 16 * 2 ^ 48, y / 16 + E * 16, D + x % 16 * 2 ^ 48, x / 16 + B * 16, A⟩ ∧
    val ⟨F + y % 16 * 2 ^ 48, y / 16 + E * 16, D + x % 16 * 2 ^ 48, x / 16 + B * 16, A⟩ =
      A * 2 ^ 208 + B * 2 ^ 160 + x * 2 ^ 152 + D * 2 ^ 104 + E * 2 ^ 56 + y * 2 ^ 48 + F := by
  refine ⟨⟨?_, ?_, ?_, ?_⟩, ?_⟩ <;> try (dsimp only; omega)
  have g1 := Nat.div_add_mod x 16
  have g2 := Nat.div_add_mod y 16
  generalize x / 16 = q1 at *
  generalize x % 16 = r1 at *
  generalize y / 16 = q2 at *
  generalize y % 16 = r2 at *
  rw [val]
  dsimp only
  subst g1 g2
  ring

theorem uncons {s : Bytes} {k : Nat} (h : s.length = k + 1) : ∃ a r, s = a :: r ∧ r.length = k := by
  cases s with
  | nil => cases h
  | cons a r => exact ⟨a, r, rfl, by simpa using h⟩

theorem setB32_spec {s : Bytes} (hs : s.length = 32) :
    Lim (setB32 s).1 ∧ (setB32 s).1.n4 < 2 ^ 48 ∧ val (setB32 s).1 = beNat s ∧ (setB32 s).2 = decide (beNat s < p) := by
  obtain ⟨a0, s1, rfl, h1⟩ := uncons hs
  obtain ⟨a1, s2, rfl, h2⟩ := uncons h1
  obtain ⟨a2, s3, rfl, h3⟩ := uncons h2
  obtain ⟨a3, s4, rfl, h4⟩ := uncons h3
  obtain ⟨a4, s5, rfl, h5⟩ := uncons h4
  obtain ⟨a5, s6, rfl, h6⟩ := uncons h5
  obtain ⟨a6, s7, rfl, h7⟩ := uncons h6
  obtain ⟨a7, s8, rfl, h8⟩ := uncons h7
  obtain ⟨a8, s9, rfl, h9⟩ := uncons h8
  obtain ⟨a9, s10, rfl, h10⟩ := uncons h9
  obtain ⟨a10, s11, rfl, h11⟩ := uncons h10
  obtain ⟨a11, s12, rfl, h12⟩ := uncons h11
  obtain ⟨a12, s13, rfl, h13⟩ := uncons h12
  obtain ⟨a13, s14, rfl, h14⟩ := uncons h13
  obtain ⟨a14, s15, rfl, h15⟩ := uncons h14
  obtain ⟨a15, s16, rfl, h16⟩ := uncons h15
  obtain ⟨a16, s17, rfl, h17⟩ := uncons h16
  obtain ⟨a17, s18, rfl, h18⟩ := uncons h17
  obtain ⟨a18, s19, rfl, h19⟩ := uncons h18
  obtain ⟨a19, s20, rfl, h20⟩ := uncons h19
  obtain ⟨a20, s21, rfl, h21⟩ := uncons h20
  obtain ⟨a21, s22, rfl, h22⟩ := uncons h21
  obtain ⟨a22, s23, rfl, h23⟩ := uncons h22
  obtain ⟨a23, s24, rfl, h24⟩ := uncons h23
  obtain ⟨a24, s25, rfl, h25⟩ := uncons h24
  obtain ⟨a25, s26, rfl, h26⟩ := uncons h25
  obtain ⟨a26, s27, rfl, h27⟩ := uncons h26
  obtain ⟨a27, s28, rfl, h28⟩ := uncons h27
  obtain ⟨a28, s29, rfl, h29⟩ := uncons h28
  obtain ⟨a29, s30, rfl, h30⟩ := uncons h29
  obtain ⟨a30, s31, rfl, h31⟩ := uncons h30
  obtain ⟨a31, s32, rfl, h32⟩ := uncons h31
  obtain rfl := List.length_eq_zero_iff.1 h32
  clear h1 h2 h3 h4 h5 h6 h7 h8 h9 h10 h11 h12 h13 h14 h15 h16 h17 h18 h19 h20 h21 h22 h23 h24 h25 h26 h27 h28 h29 h30 h31 h32 hs
  have hh : ∀ x : UInt8, x.toNat < 256 := fun x => x.toNat_lt
  have h6 : ∀ a b c d e f : UInt8, beNat [a, b, c, d, e, f] < 2 ^ 48 := fun a b c d e f =>
    (beNat_lt [a, b, c, d, e, f]).trans_eq (by simp only [List.length_cons, List.length_nil]; norm_num)
  have hp := parts [a0, a1, a2, a3, a4, a5] [a6, a7, a8, a9, a10, a11] [a13, a14, a15, a16, a17, a18] [a19, a20, a21, a22, a23, a24]
    [a26, a27, a28, a29, a30, a31] a12 a25 rfl rfl rfl rfl
  simp only [List.cons_append, List.nil_append] at hp
  generalize hr : (setB32 [a0, a1, a2, a3, a4, a5, a6, a7, a8, a9, a10, a11, a12, a13, a14, a15, a16, a17, a18, a19, a20, a21, a22, a23, a24, a25, a26, a27, a28, a29, a30, a31]) = r
  rw [setB32] at hr
  simp only [List.getD_cons_zero, List.getD_cons_succ] at hr
  rw [seven (hh a31) (hh a30) (hh a29) (hh a28) (hh a27) (hh a26), seven (hh a18) (hh a17) (hh a16) (hh a15) (hh a14) (hh a13),
    seven' (hh a25) (hh a24) (hh a23) (hh a22) (hh a21) (hh a20), seven' (hh a12) (hh a11) (hh a10) (hh a9) (hh a8) (hh a7),
    six (hh a5) (hh a4) (hh a3) (hh a2) (hh a1) (hh a0), be7, be7, ← be6, ← be6, ← be6] at hr
  rw [hp]
  obtain ⟨l1, l2⟩ := limbs (h6 a0 a1 a2 a3 a4 a5) (h6 a6 a7 a8 a9 a10 a11) (h6 a13 a14 a15 a16 a17 a18) (h6 a19 a20 a21 a22 a23 a24)
    (h6 a26 a27 a28 a29 a30 a31) (hh a12) (hh a25)
  have h4 := h6 a0 a1 a2 a3 a4 a5
  rw [← l2, ← inRange_spec l1 h4, ← hr]
  exact ⟨l1, h4, rfl, rfl⟩

theorem byte_of (x : Nat) : UInt8.ofNat (x % 2 ^ 8) = UInt8.ofNat x := by
  apply UInt8.toNat_inj.1
  rw [UInt8.toNat_ofNat', UInt8.toNat_ofNat']; omega

/-- Six bytes of a number. -/
theorem bytes6 (x : Nat) : [(x >>> 40) &&& 0xFF, (x >>> 32) &&& 0xFF, (x >>> 24) &&& 0xFF, (x >>> 16) &&& 0xFF, (x >>> 8) &&& 0xFF,
    x &&& 0xFF].map UInt8.ofNat = beBytes 6 x := by
  simp only [and255, Nat.shiftRight_eq_div_pow, List.map_cons, List.map_nil, beBytes, leBytes, List.reverse_cons, List.reverse_nil,
    List.nil_append, List.cons_append, Nat.div_div_eq_div_mul, byte_of]

theorem bytes6' (x : Nat) : [(x >>> 44) &&& 0xFF, (x >>> 36) &&& 0xFF, (x >>> 28) &&& 0xFF, (x >>> 20) &&& 0xFF, (x >>> 12) &&& 0xFF,
    (x >>> 4) &&& 0xFF].map UInt8.ofNat = beBytes 6 (x / 16) := by
  rw [← bytes6]
  simp only [Nat.shiftRight_eq_div_pow, Nat.div_div_eq_div_mul]

theorem nib (x y : Nat) : (UInt8.ofNat (((x >>> 48) &&& 0xF) ||| ((y &&& 0xF) <<< 4))).toNat = x / 2 ^ 48 % 16 + y % 16 * 16 := by
  rw [and15, and15, or_shl _ _ 4 (Nat.mod_lt _ (by norm_num)), Nat.shiftRight_eq_div_pow, UInt8.toNat_ofNat']
  omega

theorem getB32_spec {a : Fe} (hl : Lim a) (h4 : a.n4 < 2 ^ 48) : getB32 a = beBytes 32 (val a) := by
  have hlen : (getB32 a).length = 32 := rfl
  obtain ⟨n0, n1, n2, n3, n4⟩ := a
  obtain ⟨h0, h1, h2, h3⟩ := hl
  dsimp only at *
  have hg : getB32 ⟨n0, n1, n2, n3, n4⟩ = beBytes 6 n4 ++ (beBytes 6 (n3 / 16) ++ ([UInt8.ofNat (((n2 >>> 48) &&& 0xF) ||| ((n3 &&& 0xF) <<< 4))] ++
      (beBytes 6 n2 ++ (beBytes 6 (n1 / 16) ++ ([UInt8.ofNat (((n0 >>> 48) &&& 0xF) ||| ((n1 &&& 0xF) <<< 4))] ++ beBytes 6 n0))))) := by
    rw [← bytes6 n4, ← bytes6 n2, ← bytes6 n0, ← bytes6' n3, ← bytes6' n1]; rfl
  have hv : beNat (getB32 ⟨n0, n1, n2, n3, n4⟩) = val ⟨n0, n1, n2, n3, n4⟩ := by
    rw [hg, parts _ _ _ _ _ _ _ (by simp) (by simp) (by simp) (by simp), nib, nib]
    simp only [beNat_beBytes, val]
    rw [show (256 : Nat) ^ 6 = 2 ^ 48 by norm_num, Nat.mod_eq_of_lt h4, Nat.mod_eq_of_lt (show n3 / 16 < 2 ^ 48 by omega),
      Nat.mod_eq_of_lt (show n1 / 16 < 2 ^ 48 by omega), Nat.mod_eq_of_lt (show n2 / 2 ^ 48 < 16 by omega),
      Nat.mod_eq_of_lt (show n0 / 2 ^ 48 < 16 by omega)]
    have g3 := Nat.div_add_mod n3 16
    have g1 := Nat.div_add_mod n1 16
    have g2 := Nat.div_add_mod n2 (2 ^ 48)
    have g0 := Nat.div_add_mod n0 (2 ^ 48)
    generalize n3 / 16 = q3 at *
    generalize n3 % 16 = r3 at *
    generalize n1 / 16 = q1 at *
    generalize n1 % 16 = r1 at *
    generalize n2 / 2 ^ 48 = q2 at *
    generalize n2 % 2 ^ 48 = r2 at *
    generalize n0 / 2 ^ 48 = q0 at *
    generalize n0 % 2 ^ 48 = r0 at *
    subst g3 g1 g2 g0
    ring
  rw [← hv, ← hlen, beBytes_beNat]

/-! ### Storage -/

theorem shl_word {x k : Nat} (hk : k ≤ 64) : w64 (x <<< k) = x % 2 ^ (64 - k) * 2 ^ k := by
  rw [w64, Nat.shiftLeft_eq]
  have : (2 : Nat) ^ 64 = 2 ^ (64 - k) * 2 ^ k := by rw [← pow_add]; congr 1; omega
  rw [this, Nat.mul_mod_mul_right]

theorem join (x y k : Nat) (h : x < 2 ^ k) : x ||| (y * 2 ^ k) = x + y * 2 ^ k := by
  rw [← Nat.shiftLeft_eq, or_shl x y k h, Nat.shiftLeft_eq]

/-- Four words of 64 bits. -/
def Words (s : Storage) : Prop := s.n0 < 2 ^ 64 ∧ s.n1 < 2 ^ 64 ∧ s.n2 < 2 ^ 64 ∧ s.n3 < 2 ^ 64

theorem toStorage_spec {a : Fe} (hl : Lim a) (h4 : a.n4 < 2 ^ 48) : Words (toStorage a) ∧ stored (toStorage a) = val a := by
  obtain ⟨n0, n1, n2, n3, n4⟩ := a
  obtain ⟨h0, h1, h2, h3⟩ := hl
  dsimp only at *
  have e : toStorage ⟨n0, n1, n2, n3, n4⟩ = ⟨n0 + n1 % 2 ^ 12 * 2 ^ 52, n1 / 2 ^ 12 + n2 % 2 ^ 24 * 2 ^ 40, n2 / 2 ^ 24 + n3 % 2 ^ 36 * 2 ^ 28,
      n3 / 2 ^ 36 + n4 % 2 ^ 48 * 2 ^ 16⟩ := by
    rw [toStorage]
    dsimp only
    rw [shl_word (by omega), shl_word (by omega), shl_word (by omega), shl_word (by omega), Nat.shiftRight_eq_div_pow, Nat.shiftRight_eq_div_pow,
      Nat.shiftRight_eq_div_pow, join _ _ 52 h0, join _ _ 40 (by omega), join _ _ 28 (by omega), join _ _ 16 (by omega)]
  rw [e, Words, stored, val]
  dsimp only
  refine ⟨⟨by omega, by omega, by omega, by omega⟩, ?_⟩
  have g1 := Nat.div_add_mod n1 (2 ^ 12)
  have g2 := Nat.div_add_mod n2 (2 ^ 24)
  have g3 := Nat.div_add_mod n3 (2 ^ 36)
  rw [Nat.mod_eq_of_lt h4]
  generalize n1 / 2 ^ 12 = q1 at *
  generalize n1 % 2 ^ 12 = r1 at *
  generalize n2 / 2 ^ 24 = q2 at *
  generalize n2 % 2 ^ 24 = r2 at *
  generalize n3 / 2 ^ 36 = q3 at *
  generalize n3 % 2 ^ 36 = r3 at *
  subst g1 g2 g3
  ring

theorem fromStorage_spec {a : Storage} (h : Words a) : Lim (fromStorage a) ∧ (fromStorage a).n4 < 2 ^ 48 ∧ val (fromStorage a) = stored a := by
  obtain ⟨n0, n1, n2, n3⟩ := a
  obtain ⟨h0, h1, h2, h3⟩ := h
  dsimp only at *
  have e : fromStorage ⟨n0, n1, n2, n3⟩ = ⟨n0 % 2 ^ 52, n0 / 2 ^ 52 + n1 % 2 ^ 40 * 2 ^ 12, n1 / 2 ^ 40 + n2 % 2 ^ 28 * 2 ^ 24,
      n2 / 2 ^ 28 + n3 % 2 ^ 16 * 2 ^ 36, n3 / 2 ^ 16⟩ := by
    rw [fromStorage]
    dsimp only
    have c1 : w64 (n1 <<< 12) % 2 ^ 52 = n1 % 2 ^ 40 * 2 ^ 12 := by rw [shl_word (by omega)]; omega
    have c2 : w64 (n2 <<< 24) % 2 ^ 52 = n2 % 2 ^ 28 * 2 ^ 24 := by rw [shl_word (by omega)]; omega
    have c3 : w64 (n3 <<< 36) % 2 ^ 52 = n3 % 2 ^ 16 * 2 ^ 36 := by rw [shl_word (by omega)]; omega
    rw [and_52, and_52, and_52, and_52, c1, c2, c3, Nat.shiftRight_eq_div_pow, Nat.shiftRight_eq_div_pow, Nat.shiftRight_eq_div_pow,
      Nat.shiftRight_eq_div_pow, join _ _ 12 (by omega), join _ _ 24 (by omega), join _ _ 36 (by omega)]
  rw [e, stored, val, Lim]
  dsimp only
  refine ⟨⟨by omega, by omega, by omega, by omega⟩, by omega, ?_⟩
  have g0 := Nat.div_add_mod n0 (2 ^ 52)
  have g1 := Nat.div_add_mod n1 (2 ^ 40)
  have g2 := Nat.div_add_mod n2 (2 ^ 28)
  have g3 := Nat.div_add_mod n3 (2 ^ 16)
  generalize n0 / 2 ^ 52 = q0 at *
  generalize n0 % 2 ^ 52 = r0 at *
  generalize n1 / 2 ^ 40 = q1 at *
  generalize n1 % 2 ^ 40 = r1 at *
  generalize n2 / 2 ^ 28 = q2 at *
  generalize n2 % 2 ^ 28 = r2 at *
  generalize n3 / 2 ^ 16 = q3 at *
  generalize n3 % 2 ^ 16 = r3 at *
  subst g0 g1 g2 g3
  ring

theorem storageCmov_spec {r a : Storage} (hr : Words r) (ha : Words a) : storageCmov r a 0 = r ∧ storageCmov r a 1 = a := by
  obtain ⟨r0, r1, r2, r3⟩ := hr
  obtain ⟨a0, a1, a2, a3⟩ := ha
  rw [storageCmov, storageCmov, sel_zero r0, sel_zero r1, sel_zero r2, sel_zero r3, sel_one a0, sel_one a1, sel_one a2, sel_one a3]
  exact ⟨rfl, rfl⟩

end Verif.Field52
