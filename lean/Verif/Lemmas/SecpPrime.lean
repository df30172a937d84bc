import Verif.Lemmas.EccPrime
/-
The order of the field and the order of the group of secp256k1 are prime (by Lucas' test).
-/
namespace Verif.Lemmas.SecpPrime
open Verif.Lemmas.EccPrime (lucas)

theorem p2 : Nat.Prime 2 := by norm_num
theorem p3 : Nat.Prime 3 := by norm_num
theorem p5 : Nat.Prime 5 := by norm_num
theorem p7 : Nat.Prime 7 := by norm_num
theorem p11 : Nat.Prime 11 := by norm_num
theorem p13 : Nat.Prime 13 := by norm_num
theorem p17 : Nat.Prime 17 := by norm_num
theorem p19 : Nat.Prime 19 := by norm_num
theorem p23 : Nat.Prime 23 := by norm_num
theorem p29 : Nat.Prime 29 := by norm_num
theorem p31 : Nat.Prime 31 := by norm_num
theorem p41 : Nat.Prime 41 := by norm_num
theorem p53 : Nat.Prime 53 := by norm_num
theorem p59 : Nat.Prime 59 := by norm_num
theorem p67 : Nat.Prime 67 := by norm_num
theorem p83 : Nat.Prime 83 := by norm_num
theorem p97 : Nat.Prime 97 := by norm_num
theorem p101 : Nat.Prime 101 := by norm_num
theorem p103 : Nat.Prime 103 := by norm_num
theorem p109 : Nat.Prime 109 := by norm_num
theorem p113 : Nat.Prime 113 := by norm_num
theorem p131 : Nat.Prime 131 := by norm_num
theorem p149 : Nat.Prime 149 := by norm_num
theorem p239 : Nat.Prime 239 := by norm_num
theorem p271 : Nat.Prime 271 := by norm_num
theorem p293 : Nat.Prime 293 := by norm_num
theorem p419 : Nat.Prime 419 := by norm_num
theorem p443 : Nat.Prime 443 := by norm_num
theorem p461 : Nat.Prime 461 := by norm_num
theorem p631 : Nat.Prime 631 := by norm_num
theorem p797 : Nat.Prime 797 := by norm_num
theorem p887 : Nat.Prime 887 := by norm_num
theorem p971 : Nat.Prime 971 := by norm_num

theorem p13441 : Nat.Prime 13441 :=
  lucas (a := 11) (qs := [2, 2, 2, 2, 2, 2, 2, 3, 5, 7]) (by
    simp only [List.forall_mem_cons]
    exact ⟨p2, p2, p2, p2, p2, p2, p2, p3, p5, p7, by simp⟩) (by decide +kernel) (by decide +kernel)

theorem p7723 : Nat.Prime 7723 :=
  lucas (a := 3) (qs := [2, 3, 3, 3, 11, 13]) (by
    simp only [List.forall_mem_cons]
    exact ⟨p2, p3, p3, p3, p11, p13, by simp⟩) (by decide +kernel) (by decide +kernel)

theorem p5323 : Nat.Prime 5323 :=
  lucas (a := 5) (qs := [2, 3, 887]) (by
    simp only [List.forall_mem_cons]
    exact ⟨p2, p3, p887, by simp⟩) (by decide +kernel) (by decide +kernel)

theorem p2621 : Nat.Prime 2621 :=
  lucas (a := 2) (qs := [2, 2, 5, 131]) (by
    simp only [List.forall_mem_cons]
    exact ⟨p2, p2, p5, p131, by simp⟩) (by decide +kernel) (by decide +kernel)

theorem p24809 : Nat.Prime 24809 :=
  lucas (a := 6) (qs := [2, 2, 2, 7, 443]) (by
    simp only [List.forall_mem_cons]
    exact ⟨p2, p2, p2, p7, p443, by simp⟩) (by decide +kernel) (by decide +kernel)

theorem p1373 : Nat.Prime 1373 :=
  lucas (a := 2) (qs := [2, 2, 7, 7, 7]) (by
    simp only [List.forall_mem_cons]
    exact ⟨p2, p2, p7, p7, p7, by simp⟩) (by decide +kernel) (by decide +kernel)

theorem p13331831 : Nat.Prime 13331831 :=
  lucas (a := 13) (qs := [2, 5, 971, 1373]) (by
    simp only [List.forall_mem_cons]
    exact ⟨p2, p5, p971, p1373, by simp⟩) (by decide +kernel) (by decide +kernel)

theorem p173378833005251801 : Nat.Prime 173378833005251801 :=
  lucas (a := 6) (qs := [2, 2, 2, 5, 5, 2621, 24809, 13331831]) (by
    simp only [List.forall_mem_cons]
    exact ⟨p2, p2, p2, p5, p5, p2621, p24809, p13331831, by simp⟩) (by decide +kernel) (by decide +kernel)

theorem p22149492674086928081353 : Nat.Prime 22149492674086928081353 :=
  lucas (a := 5) (qs := [2, 2, 2, 3, 5323, 173378833005251801]) (by
    simp only [List.forall_mem_cons]
    exact ⟨p2, p2, p2, p3, p5323, p173378833005251801, by simp⟩) (by decide +kernel) (by decide +kernel)

theorem p132896956044521568488119 : Nat.Prime 132896956044521568488119 :=
  lucas (a := 6) (qs := [2, 3, 22149492674086928081353]) (by
    simp only [List.forall_mem_cons]
    exact ⟨p2, p3, p22149492674086928081353, by simp⟩) (by decide +kernel) (by decide +kernel)

theorem p1627 : Nat.Prime 1627 :=
  lucas (a := 3) (qs := [2, 3, 271]) (by
    simp only [List.forall_mem_cons]
    exact ⟨p2, p3, p271, by simp⟩) (by decide +kernel) (by decide +kernel)

theorem p2657 : Nat.Prime 2657 :=
  lucas (a := 3) (qs := [2, 2, 2, 2, 2, 83]) (by
    simp only [List.forall_mem_cons]
    exact ⟨p2, p2, p2, p2, p2, p83, by simp⟩) (by decide +kernel) (by decide +kernel)

theorem p4423 : Nat.Prime 4423 :=
  lucas (a := 3) (qs := [2, 3, 11, 67]) (by
    simp only [List.forall_mem_cons]
    exact ⟨p2, p3, p11, p67, by simp⟩) (by decide +kernel) (by decide +kernel)

theorem p41201 : Nat.Prime 41201 :=
  lucas (a := 3) (qs := [2, 2, 2, 2, 5, 5, 103]) (by
    simp only [List.forall_mem_cons]
    exact ⟨p2, p2, p2, p2, p5, p5, p103, by simp⟩) (by decide +kernel) (by decide +kernel)

theorem p96557 : Nat.Prime 96557 :=
  lucas (a := 2) (qs := [2, 2, 101, 239]) (by
    simp only [List.forall_mem_cons]
    exact ⟨p2, p2, p101, p239, by simp⟩) (by decide +kernel) (by decide +kernel)

theorem p20113 : Nat.Prime 20113 :=
  lucas (a := 10) (qs := [2, 2, 2, 2, 3, 419]) (by
    simp only [List.forall_mem_cons]
    exact ⟨p2, p2, p2, p2, p3, p419, by simp⟩) (by decide +kernel) (by decide +kernel)

theorem p1206781 : Nat.Prime 1206781 :=
  lucas (a := 10) (qs := [2, 2, 3, 5, 20113]) (by
    simp only [List.forall_mem_cons]
    exact ⟨p2, p2, p3, p5, p20113, by simp⟩) (by decide +kernel) (by decide +kernel)

theorem p7240687 : Nat.Prime 7240687 :=
  lucas (a := 3) (qs := [2, 3, 1206781]) (by
    simp only [List.forall_mem_cons]
    exact ⟨p2, p3, p1206781, by simp⟩) (by decide +kernel) (by decide +kernel)

theorem p107590001 : Nat.Prime 107590001 :=
  lucas (a := 3) (qs := [2, 2, 2, 2, 5, 5, 5, 5, 7, 29, 53]) (by
    simp only [List.forall_mem_cons]
    exact ⟨p2, p2, p2, p2, p5, p5, p5, p5, p7, p29, p53, by simp⟩) (by decide +kernel) (by decide +kernel)

theorem p255515944373312847190720520512484175977 : Nat.Prime 255515944373312847190720520512484175977 :=
  lucas (a := 3) (qs := [2, 2, 2, 7, 7, 11, 1627, 2657, 4423, 41201, 96557, 7240687, 107590001]) (by
    simp only [List.forall_mem_cons]
    exact ⟨p2, p2, p2, p7, p7, p11, p1627, p2657, p4423, p41201, p96557, p7240687, p107590001, by simp⟩) (by decide +kernel) (by decide +kernel)

theorem p205115282021455665897114700593932402728804164701536103180137503955397371 : Nat.Prime 205115282021455665897114700593932402728804164701536103180137503955397371 :=
  lucas (a := 10) (qs := [2, 3, 5, 29, 29, 31, 7723, 132896956044521568488119, 255515944373312847190720520512484175977]) (by
    simp only [List.forall_mem_cons]
    exact ⟨p2, p3, p5, p29, p29, p31, p7723, p132896956044521568488119, p255515944373312847190720520512484175977, by simp⟩) (by decide +kernel) (by decide +kernel)

theorem prime_p : Nat.Prime 0xfffffffffffffffffffffffffffffffffffffffffffffffffffffffefffffc2f :=
  lucas (a := 3) (qs := [2, 3, 7, 13441, 205115282021455665897114700593932402728804164701536103180137503955397371]) (by
    simp only [List.forall_mem_cons]
    exact ⟨p2, p3, p7, p13441, p205115282021455665897114700593932402728804164701536103180137503955397371, by simp⟩) (by decide +kernel) (by decide +kernel)

theorem p16699 : Nat.Prime 16699 :=
  lucas (a := 3) (qs := [2, 3, 11, 11, 23]) (by
    simp only [List.forall_mem_cons]
    exact ⟨p2, p3, p11, p11, p23, by simp⟩) (by decide +kernel) (by decide +kernel)

theorem p2861 : Nat.Prime 2861 :=
  lucas (a := 2) (qs := [2, 2, 5, 11, 13]) (by
    simp only [List.forall_mem_cons]
    exact ⟨p2, p2, p5, p11, p13, by simp⟩) (by decide +kernel) (by decide +kernel)

theorem p85831 : Nat.Prime 85831 :=
  lucas (a := 3) (qs := [2, 3, 5, 2861]) (by
    simp only [List.forall_mem_cons]
    exact ⟨p2, p3, p5, p2861, by simp⟩) (by decide +kernel) (by decide +kernel)

theorem p2011 : Nat.Prime 2011 :=
  lucas (a := 3) (qs := [2, 3, 5, 67]) (by
    simp only [List.forall_mem_cons]
    exact ⟨p2, p3, p5, p67, by simp⟩) (by decide +kernel) (by decide +kernel)

theorem p4681609 : Nat.Prime 4681609 :=
  lucas (a := 23) (qs := [2, 2, 2, 3, 97, 2011]) (by
    simp only [List.forall_mem_cons]
    exact ⟨p2, p2, p2, p3, p97, p2011, by simp⟩) (by decide +kernel) (by decide +kernel)

theorem p107361793816595537 : Nat.Prime 107361793816595537 :=
  lucas (a := 3) (qs := [2, 2, 2, 2, 16699, 85831, 4681609]) (by
    simp only [List.forall_mem_cons]
    exact ⟨p2, p2, p2, p2, p16699, p85831, p4681609, by simp⟩) (by decide +kernel) (by decide +kernel)

theorem p4051 : Nat.Prime 4051 :=
  lucas (a := 10) (qs := [2, 3, 3, 3, 3, 5, 5]) (by
    simp only [List.forall_mem_cons]
    exact ⟨p2, p3, p3, p3, p3, p5, p5, by simp⟩) (by decide +kernel) (by decide +kernel)

theorem p120233 : Nat.Prime 120233 :=
  lucas (a := 3) (qs := [2, 2, 2, 7, 19, 113]) (by
    simp only [List.forall_mem_cons]
    exact ⟨p2, p2, p2, p7, p19, p113, by simp⟩) (by decide +kernel) (by decide +kernel)

theorem p9349 : Nat.Prime 9349 :=
  lucas (a := 2) (qs := [2, 2, 3, 19, 41]) (by
    simp only [List.forall_mem_cons]
    exact ⟨p2, p2, p3, p19, p41, by simp⟩) (by decide +kernel) (by decide +kernel)

theorem p44706919 : Nat.Prime 44706919 :=
  lucas (a := 6) (qs := [2, 3, 797, 9349]) (by
    simp only [List.forall_mem_cons]
    exact ⟨p2, p3, p797, p9349, by simp⟩) (by decide +kernel) (by decide +kernel)

theorem p174723607534414371449 : Nat.Prime 174723607534414371449 :=
  lucas (a := 3) (qs := [2, 2, 2, 17, 59, 4051, 120233, 44706919]) (by
    simp only [List.forall_mem_cons]
    exact ⟨p2, p2, p2, p17, p59, p4051, p120233, p44706919, by simp⟩) (by decide +kernel) (by decide +kernel)

theorem p2731 : Nat.Prime 2731 :=
  lucas (a := 3) (qs := [2, 3, 5, 7, 13]) (by
    simp only [List.forall_mem_cons]
    exact ⟨p2, p3, p5, p7, p13, by simp⟩) (by decide +kernel) (by decide +kernel)

theorem p305873 : Nat.Prime 305873 :=
  lucas (a := 3) (qs := [2, 2, 2, 2, 7, 2731]) (by
    simp only [List.forall_mem_cons]
    exact ⟨p2, p2, p2, p2, p7, p2731, by simp⟩) (by decide +kernel) (by decide +kernel)

theorem p1409 : Nat.Prime 1409 :=
  lucas (a := 3) (qs := [2, 2, 2, 2, 2, 2, 2, 11]) (by
    simp only [List.forall_mem_cons]
    exact ⟨p2, p2, p2, p2, p2, p2, p2, p11, by simp⟩) (by decide +kernel) (by decide +kernel)

theorem p28181 : Nat.Prime 28181 :=
  lucas (a := 2) (qs := [2, 2, 5, 1409]) (by
    simp only [List.forall_mem_cons]
    exact ⟨p2, p2, p5, p1409, by simp⟩) (by decide +kernel) (by decide +kernel)

theorem p545358713 : Nat.Prime 545358713 :=
  lucas (a := 5) (qs := [2, 2, 2, 41, 59, 28181]) (by
    simp only [List.forall_mem_cons]
    exact ⟨p2, p2, p2, p41, p59, p28181, by simp⟩) (by decide +kernel) (by decide +kernel)

theorem p1871 : Nat.Prime 1871 :=
  lucas (a := 14) (qs := [2, 5, 11, 17]) (by
    simp only [List.forall_mem_cons]
    exact ⟨p2, p5, p11, p17, by simp⟩) (by decide +kernel) (by decide +kernel)

theorem p1627771 : Nat.Prime 1627771 :=
  lucas (a := 3) (qs := [2, 3, 5, 29, 1871]) (by
    simp only [List.forall_mem_cons]
    exact ⟨p2, p3, p5, p29, p1871, by simp⟩) (by decide +kernel) (by decide +kernel)

theorem p297159362677 : Nat.Prime 297159362677 :=
  lucas (a := 2) (qs := [2, 2, 3, 3, 11, 461, 1627771]) (by
    simp only [List.forall_mem_cons]
    exact ⟨p2, p2, p3, p3, p11, p461, p1627771, by simp⟩) (by decide +kernel) (by decide +kernel)

theorem p29047611873442575647497758179 : Nat.Prime 29047611873442575647497758179 :=
  lucas (a := 2) (qs := [2, 293, 305873, 545358713, 297159362677]) (by
    simp only [List.forall_mem_cons]
    exact ⟨p2, p293, p305873, p545358713, p297159362677, by simp⟩) (by decide +kernel) (by decide +kernel)

theorem p341948486974166000522343609283189 : Nat.Prime 341948486974166000522343609283189 :=
  lucas (a := 2) (qs := [2, 2, 3, 3, 3, 109, 29047611873442575647497758179]) (by
    simp only [List.forall_mem_cons]
    exact ⟨p2, p2, p3, p3, p3, p109, p29047611873442575647497758179, by simp⟩) (by decide +kernel) (by decide +kernel)

theorem prime_n : Nat.Prime 0xfffffffffffffffffffffffffffffffebaaedce6af48a03bbfd25e8cd0364141 :=
  lucas (a := 7) (qs := [2, 2, 2, 2, 2, 2, 3, 149, 631, 107361793816595537, 174723607534414371449, 341948486974166000522343609283189]) (by
    simp only [List.forall_mem_cons]
    exact ⟨p2, p2, p2, p2, p2, p2, p3, p149, p631, p107361793816595537, p174723607534414371449, p341948486974166000522343609283189, by simp⟩) (by decide +kernel) (by decide +kernel)

end Verif.Lemmas.SecpPrime
