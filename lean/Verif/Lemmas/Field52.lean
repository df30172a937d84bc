import Verif.Spec.Field52
import Mathlib.Tactic.LinearCombination
import Mathlib.Tactic.Linarith
/-
The products of `field_5x52_int128_impl.h` are those of the integers modulo p.
-/
namespace Verif.Field52
open Verif Verif.Spec.Secp
set_option linter.unusedVariables false

theorem and_M (x : Nat) : x &&& M = x % 2 ^ 52 := Nat.and_two_pow_sub_one_eq_mod x 52
theorem and_M4 (x : Nat) : x &&& (M >>> 4) = x % 2 ^ 48 := Nat.and_two_pow_sub_one_eq_mod x 48
theorem and_52 (x : Nat) : x &&& 0xFFFFFFFFFFFFF = x % 2 ^ 52 := Nat.and_two_pow_sub_one_eq_mod x 52
theorem and_48 (x : Nat) : x &&& 0x0FFFFFFFFFFFF = x % 2 ^ 48 := Nat.and_two_pow_sub_one_eq_mod x 48
theorem shl_or (x y : Nat) (h : y < 2 ^ 4) : (x <<< 4) ||| y = 16 * x + y := by
  rw [Nat.shiftLeft_eq, Nat.mul_comm, ← Nat.two_pow_add_eq_or_of_lt h]

/-- What is below a bound is not cut. -/
theorem w128_of {x y B : Nat} (h : y = w128 x) (hx : x ≤ B) (hB : B < 2 ^ 128) : y = x ∧ y ≤ B := by
  rw [h, w128, Nat.mod_eq_of_lt (by omega)]; exact ⟨rfl, hx⟩

/-- What both routines do with the sums of products. -/
def core (P0 P1 P2 P3 P4 P5 P6 P7 P8 : Nat) : Fe :=
  let d1 := w128 P3
  let c1 := w128 P8
  let d2 := w128 (d1 + (c1 &&& M) * R)
  let c2 := c1 >>> 52
  let t3 := d2 &&& M
  let d3 := d2 >>> 52
  let d4 := w128 (d3 + P4)
  let d5 := w128 (d4 + c2 * R)
  let t4 := d5 &&& M
  let d6 := d5 >>> 52
  let tx := t4 >>> 48
  let t5 := t4 &&& (M >>> 4)
  let c3 := w128 P0
  let d7 := w128 (d6 + P5)
  let u0 := d7 &&& M
  let d8 := d7 >>> 52
  let u1 := w64 (u0 <<< 4) ||| tx
  let c4 := w128 (c3 + u1 * (R >>> 4))
  let r0 := c4 &&& M
  let c5 := c4 >>> 52
  let c6 := w128 (c5 + P1)
  let d9 := w128 (d8 + P6)
  let c7 := w128 (c6 + (d9 &&& M) * R)
  let d10 := d9 >>> 52
  let r1 := c7 &&& M
  let c8 := c7 >>> 52
  let c9 := w128 (c8 + P2)
  let d11 := w128 (d10 + P7)
  let c10 := w128 (c9 + (d11 &&& M) * R)
  let d12 := d11 >>> 52
  let r2 := c10 &&& M
  let c11 := c10 >>> 52
  let c12 := w128 (c11 + (d12 * R + t3))
  let r3 := c12 &&& M
  let c13 := c12 >>> 52
  let c14 := w128 (c13 + t5)
  ⟨r0, r1, r2, r3, w64 c14⟩

theorem b_d1 {P3 : Nat} (hP3 : P3 ≤ 20769187434139310514121985316880384) : P3 ≤ 20769187434139310514121985316880384 := by omega
theorem b_c1 {P8 : Nat} (hP8 : P8 ≤ 20282409603651670423947251286016) : P8 ≤ 20282409603651670423947251286016 := by omega
theorem b_d2 {d1 c1 : Nat} (hd1 : d1 ≤ 20769187434139310514121985316880384) (hc1 : c1 ≤ 20282409603651670423947251286016) : d1 + (c1 % 2 ^ 52) * 68719492368 ≤ 20769187743624390735736360377762544 := by omega
theorem b_c2 {c1 : Nat} (hc1 : c1 ≤ 20282409603651670423947251286016) : c1 / 2 ^ 52 ≤ 4503599627370496 := by omega
theorem b_t3 {d2 : Nat} (hd2 : d2 ≤ 20769187743624390735736360377762544) : d2 % 2 ^ 52 ≤ 4503599627370495 := by omega
theorem b_d3 {d2 : Nat} (hd2 : d2 ≤ 20769187743624390735736360377762544) : d2 / 2 ^ 52 ≤ 4611686087146880271 := by omega
theorem b_d4 {d3 P4 : Nat} (hd3 : d3 ≤ 4611686087146880271) (hP4 : P4 ≤ 16225927682921336339157801028812800) : d3 + P4 ≤ 16225927682921340950843888175693071 := by omega
theorem b_d5 {d4 c2 : Nat} (hd4 : d4 ≤ 16225927682921340950843888175693071) (hc2 : c2 ≤ 4503599627370496) : d4 + c2 * 68719492368 ≤ 16225927992406421172458331956067599 := by omega
theorem b_t4 {d5 : Nat} (hd5 : d5 ≤ 16225927992406421172458331956067599) : d5 % 2 ^ 52 ≤ 4503599627370495 := by omega
theorem b_d6 {d5 : Nat} (hd5 : d5 ≤ 16225927992406421172458331956067599) : d5 / 2 ^ 52 ≤ 3602879770615890192 := by omega
theorem b_tx {t4 : Nat} (ht4 : t4 ≤ 4503599627370495) : t4 / 2 ^ 48 ≤ 15 := by omega
theorem b_t5 {t4 : Nat} (ht4 : t4 ≤ 4503599627370495) : t4 % 2 ^ 48 ≤ 281474976710655 := by omega
theorem b_c3 {P0 : Nat} (hP0 : P0 ≤ 5192296858534827628530496329220096) : P0 ≤ 5192296858534827628530496329220096 := by omega
theorem b_d7 {d6 P5 : Nat} (hd6 : d6 ≤ 3602879770615890192) (hP5 : P5 ≤ 11033630824386508710627304699592704) : d6 + P5 ≤ 11033630824386512313507075315482896 := by omega
theorem b_u0 {d7 : Nat} (hd7 : d7 ≤ 11033630824386512313507075315482896) : d7 % 2 ^ 52 ≤ 4503599627370495 := by omega
theorem b_d8 {d7 : Nat} (hd7 : d7 ≤ 11033630824386512313507075315482896) : d7 / 2 ^ 52 ≤ 2449958197289550624 := by omega
theorem b_u1 {u0 tx : Nat} (hu0 : u0 ≤ 4503599627370495) (htx : tx ≤ 15) : 16 * u0 + tx ≤ 72057594037927935 := by omega
theorem b_c4 {c3 u1 : Nat} (hc3 : c3 ≤ 5192296858534827628530496329220096) (hu1 : u1 ≤ 72057594037927935) : c3 + u1 * 4294968273 ≤ 5192297168019907850144935814626351 := by omega
theorem b_r0 {c4 : Nat} (hc4 : c4 ≤ 5192297168019907850144935814626351) : c4 % 2 ^ 52 ≤ 4503599627370495 := by omega
theorem b_c5 {c4 : Nat} (hc4 : c4 ≤ 5192297168019907850144935814626351) : c4 / 2 ^ 52 ≤ 1152921573326339343 := by omega
theorem b_c6 {c5 P1 : Nat} (hc5 : c5 ≤ 1152921573326339343) (hP1 : P1 ≤ 10384593717069655257060992658440192) : c5 + P1 ≤ 10384593717069656409982565984779535 := by omega
theorem b_d9 {d8 P6 : Nat} (hd8 : d8 ≤ 2449958197289550624) (hP6 : P6 ≤ 5841333965851681082096808370372608) : d8 + P6 ≤ 5841333965851683532055005659923232 := by omega
theorem b_c7 {c6 d9 : Nat} (hc6 : c6 ≤ 10384593717069656409982565984779535) (hd9 : d9 ≤ 5841333965851683532055005659923232) : c6 + (d9 % 2 ^ 52) * 68719492368 ≤ 10384594026554736631596941045661695 := by omega
theorem b_d10 {d9 : Nat} (hd9 : d9 ≤ 5841333965851683532055005659923232) : d9 / 2 ^ 52 ≤ 1297036692682703392 := by omega
theorem b_r1 {c7 : Nat} (hc7 : c7 ≤ 10384594026554736631596941045661695) : c7 % 2 ^ 52 ≤ 4503599627370495 := by omega
theorem b_c8 {c7 : Nat} (hc7 : c7 ≤ 10384594026554736631596941045661695) : c7 / 2 ^ 52 ≤ 2305843077933186575 := by omega
theorem b_c9 {c8 P2 : Nat} (hc8 : c8 ≤ 2305843077933186575) (hP2 : P2 ≤ 15576890575604482885591488987660288) : c8 + P2 ≤ 15576890575604485191434566920846863 := by omega
theorem b_d11 {d10 P7 : Nat} (hd10 : d10 ≤ 1297036692682703392) (hP7 : P7 ≤ 649037107316853453566312041152512) : d10 + P7 ≤ 649037107316854750603004723855904 := by omega
theorem b_c10 {c9 d11 : Nat} (hc9 : c9 ≤ 15576890575604485191434566920846863) (hd11 : d11 ≤ 649037107316854750603004723855904) : c9 + (d11 % 2 ^ 52) * 68719492368 ≤ 15576890885089565413048941981729023 := by omega
theorem b_d12 {d11 : Nat} (hd11 : d11 ≤ 649037107316854750603004723855904) : d11 / 2 ^ 52 ≤ 144115188075856160 := by omega
theorem b_r2 {c10 : Nat} (hc10 : c10 ≤ 15576890885089565413048941981729023) : c10 % 2 ^ 52 ≤ 4503599627370495 := by omega
theorem b_c11 {c10 : Nat} (hc10 : c10 ≤ 15576890885089565413048941981729023) : c10 / 2 ^ 52 ≤ 3458764582540033808 := by omega
theorem b_c12 {c11 d12 t3 : Nat} (hc11 : c11 ≤ 3458764582540033808) (hd12 : d12 ≤ 144115188075856160) (ht3 : t3 ≤ 4503599627370495) : c11 + (d12 * 68719492368 + t3) ≤ 9903522570554950174353191183 := by omega
theorem b_r3 {c12 : Nat} (hc12 : c12 ≤ 9903522570554950174353191183) : c12 % 2 ^ 52 ≤ 4503599627370495 := by omega
theorem b_c13 {c12 : Nat} (hc12 : c12 ≤ 9903522570554950174353191183) : c12 / 2 ^ 52 ≤ 2199023756545 := by omega
theorem b_c14 {c13 t5 : Nat} (hc13 : c13 ≤ 2199023756545) (ht5 : t5 ≤ 281474976710655) : c13 + t5 ≤ 283674000467200 := by omega

theorem core_spec {P0 P1 P2 P3 P4 P5 P6 P7 P8 : Nat} (hP0 : P0 ≤ 5192296858534827628530496329220096) (hP1 : P1 ≤ 10384593717069655257060992658440192) (hP2 : P2 ≤ 15576890575604482885591488987660288) (hP3 : P3 ≤ 20769187434139310514121985316880384) (hP4 : P4 ≤ 16225927682921336339157801028812800) (hP5 : P5 ≤ 11033630824386508710627304699592704) (hP6 : P6 ≤ 5841333965851681082096808370372608) (hP7 : P7 ≤ 649037107316853453566312041152512) (hP8 : P8 ≤ 20282409603651670423947251286016) :
    Mag 1 (core P0 P1 P2 P3 P4 P5 P6 P7 P8) ∧ ∃ k, P0 + P1 * 2 ^ 52 + P2 * 2 ^ 104 + P3 * 2 ^ 156 + P4 * 2 ^ 208 + P5 * 2 ^ 260 +
      P6 * 2 ^ 312 + P7 * 2 ^ 364 + P8 * 2 ^ 416 = val (core P0 P1 P2 P3 P4 P5 P6 P7 P8) + p * k := by
  generalize hr : core P0 P1 P2 P3 P4 P5 P6 P7 P8 = r
  unfold core at hr
  extract_lets -merge d1 c1 d2 c2 t3 d3 d4 d5 t4 d6 tx t5 c3 d7 u0 d8 u1 c4 r0 c5 c6 d9 c7 d10 r1 c8 c9 d11 c10 d12 r2 c11 c12 r3 c13 c14 at hr
  have ed1 : d1 = w128 P3 := rfl
  have ec1 : c1 = w128 P8 := rfl
  have ed2 : d2 = w128 (d1 + (c1 &&& M) * R) := rfl
  have ec2 : c2 = c1 >>> 52 := rfl
  have et3 : t3 = d2 &&& M := rfl
  have ed3 : d3 = d2 >>> 52 := rfl
  have ed4 : d4 = w128 (d3 + P4) := rfl
  have ed5 : d5 = w128 (d4 + c2 * R) := rfl
  have et4 : t4 = d5 &&& M := rfl
  have ed6 : d6 = d5 >>> 52 := rfl
  have etx : tx = t4 >>> 48 := rfl
  have et5 : t5 = t4 &&& (M >>> 4) := rfl
  have ec3 : c3 = w128 P0 := rfl
  have ed7 : d7 = w128 (d6 + P5) := rfl
  have eu0 : u0 = d7 &&& M := rfl
  have ed8 : d8 = d7 >>> 52 := rfl
  have eu1 : u1 = w64 (u0 <<< 4) ||| tx := rfl
  have ec4 : c4 = w128 (c3 + u1 * (R >>> 4)) := rfl
  have er0 : r0 = c4 &&& M := rfl
  have ec5 : c5 = c4 >>> 52 := rfl
  have ec6 : c6 = w128 (c5 + P1) := rfl
  have ed9 : d9 = w128 (d8 + P6) := rfl
  have ec7 : c7 = w128 (c6 + (d9 &&& M) * R) := rfl
  have ed10 : d10 = d9 >>> 52 := rfl
  have er1 : r1 = c7 &&& M := rfl
  have ec8 : c8 = c7 >>> 52 := rfl
  have ec9 : c9 = w128 (c8 + P2) := rfl
  have ed11 : d11 = w128 (d10 + P7) := rfl
  have ec10 : c10 = w128 (c9 + (d11 &&& M) * R) := rfl
  have ed12 : d12 = d11 >>> 52 := rfl
  have er2 : r2 = c10 &&& M := rfl
  have ec11 : c11 = c10 >>> 52 := rfl
  have ec12 : c12 = w128 (c11 + (d12 * R + t3)) := rfl
  have er3 : r3 = c12 &&& M := rfl
  have ec13 : c13 = c12 >>> 52 := rfl
  have ec14 : c14 = w128 (c13 + t5) := rfl
  clear_value d1 c1 d2 c2 t3 d3 d4 d5 t4 d6 tx t5 c3 d7 u0 d8 u1 c4 r0 c5 c6 d9 c7 d10 r1 c8 c9 d11 c10 d12 r2 c11 c12 r3 c13 c14
  rw [and_M4] at et5
  rw [show R >>> 4 = 4294968273 from rfl] at ec4
  simp only [and_M, Nat.shiftRight_eq_div_pow, show R = 68719492368 from rfl] at ed2 ec2 et3 ed3 ed5 et4 ed6 etx eu0 ed8 er0 ec5 ec7 ed10 er1 ec8 ec10 ed12 er2 ec11 ec12 er3 ec13
  replace ed1 := w128_of ed1 (b_d1 hP3) (by norm_num)
  obtain ⟨ed1, hd1⟩ := ed1
  replace ec1 := w128_of ec1 (b_c1 hP8) (by norm_num)
  obtain ⟨ec1, hc1⟩ := ec1
  replace ed2 := w128_of ed2 (b_d2 hd1 hc1) (by norm_num)
  obtain ⟨ed2, hd2⟩ := ed2
  have hc2 : c2 ≤ 4503599627370496 := by rw [ec2]; exact b_c2 hc1
  have ht3 : t3 ≤ 4503599627370495 := by rw [et3]; exact b_t3 hd2
  have hd3 : d3 ≤ 4611686087146880271 := by rw [ed3]; exact b_d3 hd2
  replace ed4 := w128_of ed4 (b_d4 hd3 hP4) (by norm_num)
  obtain ⟨ed4, hd4⟩ := ed4
  replace ed5 := w128_of ed5 (b_d5 hd4 hc2) (by norm_num)
  obtain ⟨ed5, hd5⟩ := ed5
  have ht4 : t4 ≤ 4503599627370495 := by rw [et4]; exact b_t4 hd5
  have hd6 : d6 ≤ 3602879770615890192 := by rw [ed6]; exact b_d6 hd5
  have htx : tx ≤ 15 := by rw [etx]; exact b_tx ht4
  have ht5 : t5 ≤ 281474976710655 := by rw [et5]; exact b_t5 ht4
  replace ec3 := w128_of ec3 (b_c3 hP0) (by norm_num)
  obtain ⟨ec3, hc3⟩ := ec3
  replace ed7 := w128_of ed7 (b_d7 hd6 hP5) (by norm_num)
  obtain ⟨ed7, hd7⟩ := ed7
  have hu0 : u0 ≤ 4503599627370495 := by rw [eu0]; exact b_u0 hd7
  have hd8 : d8 ≤ 2449958197289550624 := by rw [ed8]; exact b_d8 hd7
  rw [w64, Nat.mod_eq_of_lt (by rw [Nat.shiftLeft_eq]; exact lt_of_le_of_lt (Nat.mul_le_mul_right _ hu0) (by norm_num)), shl_or _ _ (lt_of_le_of_lt htx (by norm_num))] at eu1
  have hu1 : u1 ≤ 72057594037927935 := by rw [eu1]; exact b_u1 hu0 htx
  replace ec4 := w128_of ec4 (b_c4 hc3 hu1) (by norm_num)
  obtain ⟨ec4, hc4⟩ := ec4
  have hr0 : r0 ≤ 4503599627370495 := by rw [er0]; exact b_r0 hc4
  have hc5 : c5 ≤ 1152921573326339343 := by rw [ec5]; exact b_c5 hc4
  replace ec6 := w128_of ec6 (b_c6 hc5 hP1) (by norm_num)
  obtain ⟨ec6, hc6⟩ := ec6
  replace ed9 := w128_of ed9 (b_d9 hd8 hP6) (by norm_num)
  obtain ⟨ed9, hd9⟩ := ed9
  replace ec7 := w128_of ec7 (b_c7 hc6 hd9) (by norm_num)
  obtain ⟨ec7, hc7⟩ := ec7
  have hd10 : d10 ≤ 1297036692682703392 := by rw [ed10]; exact b_d10 hd9
  have hr1 : r1 ≤ 4503599627370495 := by rw [er1]; exact b_r1 hc7
  have hc8 : c8 ≤ 2305843077933186575 := by rw [ec8]; exact b_c8 hc7
  replace ec9 := w128_of ec9 (b_c9 hc8 hP2) (by norm_num)
  obtain ⟨ec9, hc9⟩ := ec9
  replace ed11 := w128_of ed11 (b_d11 hd10 hP7) (by norm_num)
  obtain ⟨ed11, hd11⟩ := ed11
  replace ec10 := w128_of ec10 (b_c10 hc9 hd11) (by norm_num)
  obtain ⟨ec10, hc10⟩ := ec10
  have hd12 : d12 ≤ 144115188075856160 := by rw [ed12]; exact b_d12 hd11
  have hr2 : r2 ≤ 4503599627370495 := by rw [er2]; exact b_r2 hc10
  have hc11 : c11 ≤ 3458764582540033808 := by rw [ec11]; exact b_c11 hc10
  replace ec12 := w128_of ec12 (b_c12 hc11 hd12 ht3) (by norm_num)
  obtain ⟨ec12, hc12⟩ := ec12
  have hr3 : r3 ≤ 4503599627370495 := by rw [er3]; exact b_r3 hc12
  have hc13 : c13 ≤ 2199023756545 := by rw [ec13]; exact b_c13 hc12
  replace ec14 := w128_of ec14 (b_c14 hc13 ht5) (by norm_num)
  obtain ⟨ec14, hc14⟩ := ec14
  rw [w64, Nat.mod_eq_of_lt (lt_of_le_of_lt hc14 (by norm_num))] at hr
  subst hr
  refine ⟨⟨hr0.trans (by norm_num), hr1.trans (by norm_num), hr2.trans (by norm_num), hr3.trans (by norm_num), hc14.trans (by norm_num)⟩,
    16 * ((c1 % 2 ^ 52) * 2 ^ 156 + c2 * 2 ^ 208 + (d9 % 2 ^ 52) * 2 ^ 52 + (d11 % 2 ^ 52) * 2 ^ 104 + d12 * 2 ^ 156) + u1, ?_⟩
  have fc1 := Nat.div_add_mod c1 (2 ^ 52)
  rw [← ec2] at fc1
  have fd2 := Nat.div_add_mod d2 (2 ^ 52)
  rw [← ed3, ← et3] at fd2
  have fd5 := Nat.div_add_mod d5 (2 ^ 52)
  rw [← ed6, ← et4] at fd5
  have ft4 := Nat.div_add_mod t4 (2 ^ 48)
  rw [← etx, ← et5] at ft4
  have fd7 := Nat.div_add_mod d7 (2 ^ 52)
  rw [← ed8, ← eu0] at fd7
  have fc4 := Nat.div_add_mod c4 (2 ^ 52)
  rw [← ec5, ← er0] at fc4
  have fd9 := Nat.div_add_mod d9 (2 ^ 52)
  rw [← ed10] at fd9
  have fc7 := Nat.div_add_mod c7 (2 ^ 52)
  rw [← ec8, ← er1] at fc7
  have fd11 := Nat.div_add_mod d11 (2 ^ 52)
  rw [← ed12] at fd11
  have fc10 := Nat.div_add_mod c10 (2 ^ 52)
  rw [← ec11, ← er2] at fc10
  have fc12 := Nat.div_add_mod c12 (2 ^ 52)
  rw [← ec13, ← er3] at fc12
  clear hP0 hP1 hP2 hP3 hP4 hP5 hP6 hP7 hP8 hd1 hc1 hd2 hc2 ht3 hd3 hd4 hd5 ht4 hd6 htx ht5 hc3 hd7 hu0 hd8 hu1 hc4 hr0 hc5 hc6 hd9 hc7 hd10 hr1 hc8 hc9 hd11 hc10 hd12 hr2 hc11 hc12 hr3 hc13 hc14
  clear ec2 et3 ed3 et4 ed6 etx et5 eu0 ed8 er0 ec5 ed10 er1 ec8 ed12 er2 ec11 er3 ec13
  generalize c1 % 2 ^ 52 = m1 at *
  generalize d9 % 2 ^ 52 = m9 at *
  generalize d11 % 2 ^ 52 = m11 at *
  rw [val, show p = 0xfffffffffffffffffffffffffffffffffffffffffffffffffffffffefffffc2f from rfl]
  dsimp only
  omega

end Verif.Field52
