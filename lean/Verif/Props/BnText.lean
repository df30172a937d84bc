import Verif.Lemmas.BnText
/-
C101: big numbers as text.
-/
namespace Verif.Props.BnText
open Verif Verif.BnText Verif.Spec.BnText Verif.Bn

/-- **C101**, what holds. Missing: see the `_false` theorems. From a text of up to 128 digits, a multiple of eight of
them, whatever stands behind it, the number read is the number written. To an array of 129 bytes or more, when 128
digits are asked for, every number is written as digits that are that number, the first of them not a zero, with a
NUL behind, and the array is as long as it was. -/
theorem C101_text_partial (scan : Bytes → Nat) (hs : Scans scan) :
    (∀ (t rest : Bytes) (k : Nat), t.length = 8 * k → 0 < k → k ≤ 16 → Hex t →
      ∃ n, fromString scan (t ++ rest) t.length = .ok n ∧ WF n ∧ val n = number t) ∧
    (∀ (n : Num) (str : Bytes), WF n → 129 ≤ str.length →
      ∃ t r : Bytes, toText n str 128 = .ok (t ++ 0 :: r) ∧ Hex t ∧ t.head? ≠ some 0x30 ∧ number t = val n ∧ (t ++ 0 :: r).length = str.length) := by
  refine ⟨fun t rest k h1 h2 h3 h4 => ?_, fun n str hn hl => toText_spec n str hn hl⟩
  have := fromString_spec scan hs [] t rest k (by decide) h1 h4 h3 (by simp; omega) rfl
  simpa using this

/-- **C101** is false of a text whose length is even but not a multiple of eight: the digits in front are left out. -/
theorem C101_front_false (scan : Bytes → Nat) (hs : Scans scan) (front t rest : Bytes) (k : Nat)
    (h1 : front.length = 2 ∨ front.length = 4 ∨ front.length = 6) (h2 : t.length = 8 * k) (h3 : k ≤ 16) (h4 : Hex t) :
    ∃ n, fromString scan (front ++ (t ++ rest)) (front.length + t.length : Nat) = .ok n ∧ WF n ∧ val n = number t :=
  fromString_spec scan hs front t rest k (by omega) h2 h4 h3 (by omega) (by omega)

/-- "ff" is read as zero. -/
theorem C101_ff_false (scan : Bytes → Nat) : fromString scan [0x66, 0x66] 2 = .ok Bn.init ∧ val Bn.init = 0 ∧ number [0x66, 0x66] = 255 :=
  ⟨rfl, by decide, by decide⟩

/-- **C101** is false of zero: it is written as no digits at all. -/
theorem C101_zero_false (str : Bytes) (hl : 129 ≤ str.length) : ∃ r, toText Bn.init str 128 = .ok (0 :: r) := by
  have hw : WF Bn.init := ⟨by decide, by unfold Small; decide⟩
  obtain ⟨t, r, h1, h2, h3, h4, -⟩ := toText_spec Bn.init str hw hl
  rcases t with _ | ⟨c, t⟩
  · exact ⟨r, h1⟩
  · exfalso
    have h5 : number ((c :: t) : Bytes) = 0 := h4.trans (by decide)
    have e := number_append [c] t
    rw [List.singleton_append, h5] at e
    have e1 : number [c] = (worth c).getD 0 := by unfold number; simp
    have hz : number [c] = 0 := by
      rcases Nat.eq_zero_or_pos (number [c]) with h | h
      · exact h
      · have := Nat.mul_pos h (Nat.pow_pos (n := t.length) (show 0 < 16 by decide)); omega
    rw [e1] at hz
    have hs := h2 c (by simp)
    have key : ∀ m < 256, (worth (UInt8.ofNat m)).isSome → (worth (UInt8.ofNat m)).getD 0 = 0 → UInt8.ofNat m = 0x30 := by decide +kernel
    have := key c.toNat c.toNat_lt
    rw [UInt8.ofNat_toNat] at this
    exact h3 (by rw [List.head?_cons, this hs hz])

/-- The number one. -/
def one : Num := 1 :: List.replicate 15 0

/-- **C101** is false when fewer digits are asked for: one, in eight digits, is nothing — the *top* digits are
written, not the bottom ones — and an array with room for two digits and the NUL is overrun. -/
theorem C101_short_false : toText one (List.replicate 9 0xAA) 8 = .ok [0, 0x30, 0x30, 0x30, 0x30, 0x30, 0x30, 0x30, 0] ∧
    toText one (List.replicate 3 0xAA) 2 = .ub := by decide +kernel

/-- **C101** is false of a text of 136 digits: a seventeenth word is stored in an array of sixteen. -/
theorem C101_long_false (scan : Bytes → Nat) (t : Bytes) (h : t.length = 136) : fromString scan t 136 = .ub := by
  unfold fromString
  rw [if_neg (by decide), if_neg (by decide)]
  have step : ∀ (m fuel : Nat) (j : Nat) (n : Num), j + m = 16 → m < fuel → fromLoop scan t fuel (8 * (m : Int)) j n = .ub := by
    intro m
    induction m with
    | zero =>
      intro fuel j n hj hf
      obtain ⟨f, rfl⟩ : ∃ f, fuel = f + 1 := ⟨fuel - 1, by omega⟩
      rw [fromLoop, if_pos (by omega), if_neg (by omega)]
    | succ m ih =>
      intro fuel j n hj hf
      obtain ⟨f, rfl⟩ : ∃ f, fuel = f + 1 := ⟨fuel - 1, by omega⟩
      rw [fromLoop, if_pos (by omega), if_pos (by omega)]
      have e : 8 * ((m + 1 : Nat) : Int) - 2 * 4 = 8 * (m : Int) := by omega
      rw [e]
      exact ih f (j + 1) _ (by omega) (by omega)
  exact step 16 _ 0 _ rfl (by decide)

/-- **C101** is false of the way there and back: one is written as "1", and to read "1" aborts. -/
theorem C101_round_false (scan : Bytes → Nat) : (∃ r, toText one (List.replicate 129 0xAA) 128 = .ok (0x31 :: 0 :: r)) ∧
    fromString scan [0x31, 0] 1 = .ub := by
  refine ⟨⟨List.replicate 125 0x30 ++ [0x31, 0], by decide +kernel⟩, rfl⟩

/-! Non-vacuity. -/

/-- A `scan` as wanted. -/
example : Scans fun s => number (s.take 8) := fun d r h _ => by
  show number ((d ++ r).take 8) = _
  rw [← h, List.take_left]

/-- "0000001f" is 31. -/
example : fromString (fun s => number (s.take 8)) [0x30, 0x30, 0x30, 0x30, 0x30, 0x30, 0x31, 0x66, 0] 8 = .ok (31 :: List.replicate 15 0) := by decide +kernel

/-- Sixteen digits, two words, the high one first. -/
example : Hex [0x64, 0x65, 0x61, 0x64, 0x62, 0x65, 0x65, 0x66, 0x30, 0x30, 0x30, 0x30, 0x30, 0x30, 0x30, 0x31] ∧
    number [0x64, 0x65, 0x61, 0x64, 0x62, 0x65, 0x65, 0x66, 0x30, 0x30, 0x30, 0x30, 0x30, 0x30, 0x30, 0x31] = 0xdeadbeef00000001 := by decide +kernel

example : WF one ∧ val one = 1 := ⟨⟨by decide, by unfold Small; decide⟩, by decide⟩

/-- 0x2c0000000a. -/
example : (match toText (10 :: 44 :: List.replicate 14 0) (List.replicate 129 0xAA) 128 with
    | .ok s => s.take 11
    | _ => []) = [0x32, 0x63, 0x30, 0x30, 0x30, 0x30, 0x30, 0x30, 0x30, 0x61, 0] := by decide +kernel

end Verif.Props.BnText
