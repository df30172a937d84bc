import Mathlib.NumberTheory.LucasPrimality
import Mathlib.Tactic.NormNum.Prime
/-
The order of the field and the order of the group of secp256r1 are prime (by Lucas' test, with the factors of each
number less one).
-/
namespace Verif.Lemmas.EccPrime

/-- `a ^ e` modulo `m`, by squaring; `f` bounds the bits of `e`. -/
def powMod (m : Nat) : Nat → Nat → Nat → Nat
  | 0, _, _ => 1 % m
  | f + 1, a, e => if e % 2 = 1 then a * powMod m f (a * a % m) (e / 2) % m else powMod m f (a * a % m) (e / 2)

theorem powMod_spec (m : Nat) (f : Nat) : ∀ a e : Nat, e < 2 ^ f → ((powMod m f a e : Nat) : ZMod m) = (a : ZMod m) ^ e := by
  induction f with
  | zero =>
    intro a e h
    have : e = 0 := by omega
    subst this
    simp [powMod]
  | succ f ih =>
    intro a e h
    have ih := ih (a * a % m) (e / 2) (by rw [Nat.pow_succ] at h; omega)
    have e1 : ((a * a % m : Nat) : ZMod m) = (a : ZMod m) ^ 2 := by simp [pow_two]
    rw [e1, ← pow_mul] at ih
    simp only [powMod]
    split
    · rename_i hb
      have : e = 2 * (e / 2) + 1 := by omega
      conv => rhs; rw [this, pow_succ']
      simp [ih]
    · rename_i hb
      have : e = 2 * (e / 2) := by omega
      conv => rhs; rw [this]
      exact ih

/-- The test, as a computation. -/
def test (p a : Nat) (qs : List Nat) : Bool :=
  decide (1 < p) && decide (qs.prod = p - 1) && decide (powMod p 256 a (p - 1) = 1) &&
    qs.all fun q => decide (powMod p 256 a ((p - 1) / q) ≠ 1)

theorem powMod_lt {m : Nat} (hm : 1 < m) (f a e : Nat) : powMod m f a e < m := by
  induction f generalizing a e with
  | zero => simp only [powMod]; exact Nat.mod_lt _ (by omega)
  | succ f ih =>
    simp only [powMod]
    split
    · exact Nat.mod_lt _ (by omega)
    · exact ih _ _

theorem lucas {p a : Nat} {qs : List Nat} (hq : ∀ q ∈ qs, Nat.Prime q) (hlt : p < 2 ^ 256) (h : test p a qs = true) :
    Nat.Prime p := by
  simp only [test, Bool.and_eq_true, decide_eq_true_eq, List.all_eq_true] at h
  obtain ⟨⟨⟨h0, h1⟩, h2⟩, h3⟩ := h
  refine lucas_primality p (a : ZMod p) ?_ ?_
  · rw [← powMod_spec p 256 a (p - 1) (by omega), h2]; simp
  · intro q hqp hqd hc
    rw [← h1] at hqd
    obtain ⟨r, hr, hd⟩ := (Nat.Prime.prime hqp).dvd_prod_iff.1 hqd
    have : q = r := (Nat.prime_dvd_prime_iff_eq hqp (hq r hr)).1 hd
    subst this
    have hlt' : (p - 1) / q < 2 ^ 256 := Nat.lt_of_le_of_lt (Nat.div_le_self _ _) (by omega)
    refine h3 q hr ?_
    rw [← powMod_spec p 256 a _ hlt'] at hc
    have : ((powMod p 256 a ((p - 1) / q) : Nat) : ZMod p) = ((1 : Nat) : ZMod p) := by rw [hc]; simp
    rw [ZMod.natCast_eq_natCast_iff', Nat.mod_eq_of_lt (powMod_lt h0 _ _ _), Nat.mod_eq_of_lt h0] at this
    exact this

theorem p2 : Nat.Prime 2 := by norm_num
theorem p3 : Nat.Prime 3 := by norm_num
theorem p5 : Nat.Prime 5 := by norm_num
theorem p7 : Nat.Prime 7 := by norm_num
theorem p11 : Nat.Prime 11 := by norm_num
theorem p13 : Nat.Prime 13 := by norm_num
theorem p17 : Nat.Prime 17 := by norm_num
theorem p19 : Nat.Prime 19 := by norm_num
theorem p23 : Nat.Prime 23 := by norm_num
theorem p29 : Nat.Prime 29 := by norm_num
theorem p31 : Nat.Prime 31 := by norm_num
theorem p37 : Nat.Prime 37 := by norm_num
theorem p41 : Nat.Prime 41 := by norm_num
theorem p43 : Nat.Prime 43 := by norm_num
theorem p53 : Nat.Prime 53 := by norm_num
theorem p71 : Nat.Prime 71 := by norm_num
theorem p97 : Nat.Prime 97 := by norm_num
theorem p107 : Nat.Prime 107 := by norm_num
theorem p127 : Nat.Prime 127 := by norm_num
theorem p131 : Nat.Prime 131 := by norm_num
theorem p151 : Nat.Prime 151 := by norm_num
theorem p157 : Nat.Prime 157 := by norm_num
theorem p173 : Nat.Prime 173 := by norm_num
theorem p181 : Nat.Prime 181 := by norm_num
theorem p197 : Nat.Prime 197 := by norm_num
theorem p229 : Nat.Prime 229 := by norm_num
theorem p241 : Nat.Prime 241 := by norm_num
theorem p257 : Nat.Prime 257 := by norm_num
theorem p263 : Nat.Prime 263 := by norm_num
theorem p311 : Nat.Prime 311 := by norm_num
theorem p313 : Nat.Prime 313 := by norm_num
theorem p337 : Nat.Prime 337 := by norm_num
theorem p373 : Nat.Prime 373 := by norm_num
theorem p641 : Nat.Prime 641 := by norm_num
theorem p661 : Nat.Prime 661 := by norm_num
theorem p727 : Nat.Prime 727 := by norm_num
theorem p757 : Nat.Prime 757 := by norm_num
theorem p919 : Nat.Prime 919 := by norm_num

theorem p3407 : Nat.Prime 3407 :=
  lucas (a := 5) (qs := [2, 13, 131]) (by
    simp only [List.forall_mem_cons]
    exact ⟨p2, p13, p131, by simp⟩) (by decide +kernel) (by decide +kernel)

theorem p17449 : Nat.Prime 17449 :=
  lucas (a := 14) (qs := [2, 2, 2, 3, 727]) (by
    simp only [List.forall_mem_cons]
    exact ⟨p2, p2, p2, p3, p727, by simp⟩) (by decide +kernel) (by decide +kernel)

theorem p9547 : Nat.Prime 9547 :=
  lucas (a := 2) (qs := [2, 3, 37, 43]) (by
    simp only [List.forall_mem_cons]
    exact ⟨p2, p3, p37, p43, by simp⟩) (by decide +kernel) (by decide +kernel)

theorem p38189 : Nat.Prime 38189 :=
  lucas (a := 2) (qs := [2, 2, 9547]) (by
    simp only [List.forall_mem_cons]
    exact ⟨p2, p2, p9547, by simp⟩) (by decide +kernel) (by decide +kernel)

theorem p1201 : Nat.Prime 1201 :=
  lucas (a := 11) (qs := [2, 2, 2, 2, 3, 5, 5]) (by
    simp only [List.forall_mem_cons]
    exact ⟨p2, p2, p2, p2, p3, p5, p5, by simp⟩) (by decide +kernel) (by decide +kernel)

theorem p9350987 : Nat.Prime 9350987 :=
  lucas (a := 2) (qs := [2, 17, 229, 1201]) (by
    simp only [List.forall_mem_cons]
    exact ⟨p2, p17, p229, p1201, by simp⟩) (by decide +kernel) (by decide +kernel)

theorem p187019741 : Nat.Prime 187019741 :=
  lucas (a := 2) (qs := [2, 2, 5, 9350987]) (by
    simp only [List.forall_mem_cons]
    exact ⟨p2, p2, p5, p9350987, by simp⟩) (by decide +kernel) (by decide +kernel)

theorem p311245691 : Nat.Prime 311245691 :=
  lucas (a := 2) (qs := [2, 5, 7, 17, 29, 29, 311]) (by
    simp only [List.forall_mem_cons]
    exact ⟨p2, p5, p7, p17, p29, p29, p311, by simp⟩) (by decide +kernel) (by decide +kernel)

theorem p622491383 : Nat.Prime 622491383 :=
  lucas (a := 5) (qs := [2, 311245691]) (by
    simp only [List.forall_mem_cons]
    exact ⟨p2, p311245691, by simp⟩) (by decide +kernel) (by decide +kernel)

theorem p126241 : Nat.Prime 126241 :=
  lucas (a := 7) (qs := [2, 2, 2, 2, 2, 3, 5, 263]) (by
    simp only [List.forall_mem_cons]
    exact ⟨p2, p2, p2, p2, p2, p3, p5, p263, by simp⟩) (by decide +kernel) (by decide +kernel)

theorem p104471 : Nat.Prime 104471 :=
  lucas (a := 11) (qs := [2, 5, 31, 337]) (by
    simp only [List.forall_mem_cons]
    exact ⟨p2, p5, p31, p337, by simp⟩) (by decide +kernel) (by decide +kernel)

theorem p3969899 : Nat.Prime 3969899 :=
  lucas (a := 2) (qs := [2, 19, 104471]) (by
    simp only [List.forall_mem_cons]
    exact ⟨p2, p19, p104471, by simp⟩) (by decide +kernel) (by decide +kernel)

theorem p1002328039319 : Nat.Prime 1002328039319 :=
  lucas (a := 19) (qs := [2, 126241, 3969899]) (by
    simp only [List.forall_mem_cons]
    exact ⟨p2, p126241, p3969899, by simp⟩) (by decide +kernel) (by decide +kernel)

theorem p1297 : Nat.Prime 1297 :=
  lucas (a := 10) (qs := [2, 2, 2, 2, 3, 3, 3, 3]) (by
    simp only [List.forall_mem_cons]
    exact ⟨p2, p2, p2, p2, p3, p3, p3, p3, by simp⟩) (by decide +kernel) (by decide +kernel)

theorem p16879 : Nat.Prime 16879 :=
  lucas (a := 3) (qs := [2, 3, 29, 97]) (by
    simp only [List.forall_mem_cons]
    exact ⟨p2, p3, p29, p97, by simp⟩) (by decide +kernel) (by decide +kernel)

theorem p1511 : Nat.Prime 1511 :=
  lucas (a := 11) (qs := [2, 5, 151]) (by
    simp only [List.forall_mem_cons]
    exact ⟨p2, p5, p151, by simp⟩) (by decide +kernel) (by decide +kernel)

theorem p3023 : Nat.Prime 3023 :=
  lucas (a := 5) (qs := [2, 1511]) (by
    simp only [List.forall_mem_cons]
    exact ⟨p2, p1511, by simp⟩) (by decide +kernel) (by decide +kernel)

theorem p155317 : Nat.Prime 155317 :=
  lucas (a := 5) (qs := [2, 2, 3, 7, 43, 43]) (by
    simp only [List.forall_mem_cons]
    exact ⟨p2, p2, p3, p7, p43, p43, by simp⟩) (by decide +kernel) (by decide +kernel)

theorem p191039911 : Nat.Prime 191039911 :=
  lucas (a := 3) (qs := [2, 3, 5, 41, 155317]) (by
    simp only [List.forall_mem_cons]
    exact ⟨p2, p3, p5, p41, p155317, by simp⟩) (by decide +kernel) (by decide +kernel)

theorem p208150935158385979 : Nat.Prime 208150935158385979 :=
  lucas (a := 2) (qs := [2, 3, 11, 43, 127, 3023, 191039911]) (by
    simp only [List.forall_mem_cons]
    exact ⟨p2, p3, p11, p43, p127, p3023, p191039911, by simp⟩) (by decide +kernel) (by decide +kernel)

theorem p2624747550333869278416773953 : Nat.Prime 2624747550333869278416773953 :=
  lucas (a := 7) (qs := [2, 2, 2, 2, 2, 2, 3, 3, 1297, 16879, 208150935158385979]) (by
    simp only [List.forall_mem_cons]
    exact ⟨p2, p2, p2, p2, p2, p2, p3, p3, p1297, p16879, p208150935158385979, by simp⟩) (by decide +kernel) (by decide +kernel)

theorem prime_n : Nat.Prime 115792089210356248762697446949407573529996955224135760342422259061068512044369 :=
  lucas (a := 7) (qs := [2, 2, 2, 2, 3, 71, 131, 373, 3407, 17449, 38189, 187019741, 622491383, 1002328039319, 2624747550333869278416773953]) (by
    simp only [List.forall_mem_cons]
    exact ⟨p2, p2, p2, p2, p3, p71, p131, p373, p3407, p17449, p38189, p187019741, p622491383, p1002328039319, p2624747550333869278416773953, by simp⟩) (by decide +kernel) (by decide +kernel)

theorem p1531 : Nat.Prime 1531 :=
  lucas (a := 2) (qs := [2, 3, 3, 5, 17]) (by
    simp only [List.forall_mem_cons]
    exact ⟨p2, p3, p3, p5, p17, by simp⟩) (by decide +kernel) (by decide +kernel)

theorem p65537 : Nat.Prime 65537 :=
  lucas (a := 3) (qs := [2, 2, 2, 2, 2, 2, 2, 2, 2, 2, 2, 2, 2, 2, 2, 2]) (by
    simp only [List.forall_mem_cons]
    exact ⟨p2, p2, p2, p2, p2, p2, p2, p2, p2, p2, p2, p2, p2, p2, p2, p2, by simp⟩) (by decide +kernel) (by decide +kernel)

theorem p490463 : Nat.Prime 490463 :=
  lucas (a := 14) (qs := [2, 7, 53, 661]) (by
    simp only [List.forall_mem_cons]
    exact ⟨p2, p7, p53, p661, by simp⟩) (by decide +kernel) (by decide +kernel)

theorem p6700417 : Nat.Prime 6700417 :=
  lucas (a := 5) (qs := [2, 2, 2, 2, 2, 2, 2, 3, 17449]) (by
    simp only [List.forall_mem_cons]
    exact ⟨p2, p2, p2, p2, p2, p2, p2, p3, p17449, by simp⟩) (by decide +kernel) (by decide +kernel)

theorem p2411 : Nat.Prime 2411 :=
  lucas (a := 6) (qs := [2, 5, 241]) (by
    simp only [List.forall_mem_cons]
    exact ⟨p2, p5, p241, by simp⟩) (by decide +kernel) (by decide +kernel)

theorem p3769 : Nat.Prime 3769 :=
  lucas (a := 7) (qs := [2, 2, 2, 3, 157]) (by
    simp only [List.forall_mem_cons]
    exact ⟨p2, p2, p2, p3, p157, by simp⟩) (by decide +kernel) (by decide +kernel)

theorem p204061199 : Nat.Prime 204061199 :=
  lucas (a := 11) (qs := [2, 11, 23, 107, 3769]) (by
    simp only [List.forall_mem_cons]
    exact ⟨p2, p11, p23, p107, p3769, by simp⟩) (by decide +kernel) (by decide +kernel)

theorem p34282281433 : Nat.Prime 34282281433 :=
  lucas (a := 17) (qs := [2, 2, 2, 3, 7, 204061199]) (by
    simp only [List.forall_mem_cons]
    exact ⟨p2, p2, p2, p3, p7, p204061199, by simp⟩) (by decide +kernel) (by decide +kernel)

theorem p3677 : Nat.Prime 3677 :=
  lucas (a := 2) (qs := [2, 2, 919]) (by
    simp only [List.forall_mem_cons]
    exact ⟨p2, p2, p919, by simp⟩) (by decide +kernel) (by decide +kernel)

theorem p66417393611 : Nat.Prime 66417393611 :=
  lucas (a := 6) (qs := [2, 5, 53, 173, 197, 3677]) (by
    simp only [List.forall_mem_cons]
    exact ⟨p2, p5, p53, p173, p197, p3677, by simp⟩) (by decide +kernel) (by decide +kernel)

theorem p11290956913871 : Nat.Prime 11290956913871 :=
  lucas (a := 13) (qs := [2, 5, 17, 66417393611]) (by
    simp only [List.forall_mem_cons]
    exact ⟨p2, p5, p17, p66417393611, by simp⟩) (by decide +kernel) (by decide +kernel)

theorem p18169 : Nat.Prime 18169 :=
  lucas (a := 11) (qs := [2, 2, 2, 3, 757]) (by
    simp only [List.forall_mem_cons]
    exact ⟨p2, p2, p2, p3, p757, by simp⟩) (by decide +kernel) (by decide +kernel)

theorem p1087 : Nat.Prime 1087 :=
  lucas (a := 3) (qs := [2, 3, 181]) (by
    simp only [List.forall_mem_cons]
    exact ⟨p2, p3, p181, by simp⟩) (by decide +kernel) (by decide +kernel)

theorem p4349 : Nat.Prime 4349 :=
  lucas (a := 2) (qs := [2, 2, 1087]) (by
    simp only [List.forall_mem_cons]
    exact ⟨p2, p2, p1087, by simp⟩) (by decide +kernel) (by decide +kernel)

theorem p78283 : Nat.Prime 78283 :=
  lucas (a := 3) (qs := [2, 3, 3, 4349]) (by
    simp only [List.forall_mem_cons]
    exact ⟨p2, p3, p3, p4349, by simp⟩) (by decide +kernel) (by decide +kernel)

theorem p704251 : Nat.Prime 704251 :=
  lucas (a := 2) (qs := [2, 3, 3, 5, 5, 5, 313]) (by
    simp only [List.forall_mem_cons]
    exact ⟨p2, p3, p3, p5, p5, p5, p313, by simp⟩) (by decide +kernel) (by decide +kernel)

theorem p46076956964474543 : Nat.Prime 46076956964474543 :=
  lucas (a := 5) (qs := [2, 23, 18169, 78283, 704251]) (by
    simp only [List.forall_mem_cons]
    exact ⟨p2, p23, p18169, p78283, p704251, by simp⟩) (by decide +kernel) (by decide +kernel)

theorem p774023187263532362759620327192479577272145303 : Nat.Prime 774023187263532362759620327192479577272145303 :=
  lucas (a := 3) (qs := [2, 3, 3, 2411, 34282281433, 11290956913871, 46076956964474543]) (by
    simp only [List.forall_mem_cons]
    exact ⟨p2, p3, p3, p2411, p34282281433, p11290956913871, p46076956964474543, by simp⟩) (by decide +kernel) (by decide +kernel)

theorem p835945042244614951780389953367877943453916927241 : Nat.Prime 835945042244614951780389953367877943453916927241 :=
  lucas (a := 11) (qs := [2, 2, 2, 3, 3, 3, 5, 774023187263532362759620327192479577272145303]) (by
    simp only [List.forall_mem_cons]
    exact ⟨p2, p2, p2, p3, p3, p3, p5, p774023187263532362759620327192479577272145303, by simp⟩) (by decide +kernel) (by decide +kernel)

theorem prime_p : Nat.Prime 115792089210356248762697446949407573530086143415290314195533631308867097853951 :=
  lucas (a := 6) (qs := [2, 3, 5, 5, 17, 257, 641, 1531, 65537, 490463, 6700417, 835945042244614951780389953367877943453916927241]) (by
    simp only [List.forall_mem_cons]
    exact ⟨p2, p3, p5, p5, p17, p257, p641, p1531, p65537, p490463, p6700417, p835945042244614951780389953367877943453916927241, by simp⟩) (by decide +kernel) (by decide +kernel)

end Verif.Lemmas.EccPrime
