import Verif.Lemmas.Header
import Verif.Lemmas.Mem
import Verif.Model.Chain
import Verif.Spec.ChainView
/-
The rule functions of src/chain.c against the specification: median time,
suitable block, retarget.
-/
namespace Verif.Chain
open Verif.Header Verif.Spec Verif.Spec.Chain

theorem toI64_of_lt {n : Nat} (h : n < 2 ^ 63) : toI64 n = n := by
  unfold toI64; rw [if_pos h]

/-! median -/

theorem sorted_median (s : List Int) (hs : s.Pairwise (· ≤ ·)) (i : Nat) (hi : i < s.length) :
    s.countP (· < s[i]) ≤ i ∧ i < s.countP (· ≤ s[i]) := by
  have hsplit : s = s.take i ++ s.drop i := (List.take_append_drop i s).symm
  have hp := List.pairwise_iff_getElem.1 hs
  constructor
  · have h1 : s.countP (· < s[i]) = (s.take i).countP (· < s[i]) + (s.drop i).countP (· < s[i]) := by
      rw [← List.countP_append, List.take_append_drop]
    have h2 : (s.drop i).countP (· < s[i]) = 0 := by
      rw [List.countP_eq_zero]
      intro a ha
      obtain ⟨j, hj, rfl⟩ := List.mem_iff_getElem.1 ha
      rw [List.getElem_drop]
      simp only [decide_eq_true_eq, not_lt]
      rcases Nat.eq_zero_or_pos j with rfl | hj0
      · simp
      · exact hp i (i + j) hi (by simp at hj; omega) (by omega)
    have h3 := List.countP_le_length (p := (· < s[i])) (l := s.take i)
    rw [List.length_take] at h3
    omega
  · have h1 : s.countP (· ≤ s[i]) = (s.take (i+1)).countP (· ≤ s[i]) + (s.drop (i+1)).countP (· ≤ s[i]) := by
      rw [← List.countP_append, List.take_append_drop]
    have h2 : (s.take (i+1)).countP (· ≤ s[i]) = (s.take (i+1)).length := by
      rw [List.countP_eq_length]
      intro a ha
      obtain ⟨j, hj, rfl⟩ := List.mem_iff_getElem.1 ha
      rw [List.getElem_take]
      simp only [List.length_take] at hj
      simp only [decide_eq_true_eq]
      rcases Nat.lt_or_ge j i with h | h
      · exact hp j i (by omega) hi h
      · have : j = i := by omega
        subst this; simp
    rw [List.length_take] at h2
    omega

theorem orderedInsert_perm (a : Int) (l : List Int) : (orderedInsert a l).Perm (a :: l) := by
  induction l with
  | nil => exact List.Perm.refl _
  | cons b l ih =>
    simp only [orderedInsert]
    split
    · exact List.Perm.refl _
    · exact (List.Perm.cons b ih).trans (List.Perm.swap a b l)

theorem isort_perm (l : List Int) : (isort l).Perm l := by
  induction l with
  | nil => exact List.Perm.refl _
  | cons a l ih => exact (orderedInsert_perm a _).trans (List.Perm.cons a ih)

theorem orderedInsert_sorted (a : Int) (l : List Int) (h : l.Pairwise (· ≤ ·)) :
    (orderedInsert a l).Pairwise (· ≤ ·) := by
  induction l with
  | nil => simp [orderedInsert]
  | cons b l ih =>
    simp only [orderedInsert]
    have hb := List.pairwise_cons.1 h
    split
    · rename_i hab
      refine List.pairwise_cons.2 ⟨?_, h⟩
      intro c hc
      rcases List.mem_cons.1 hc with rfl | hc
      · exact hab
      · have := hb.1 c hc; omega
    · rename_i hab
      refine List.pairwise_cons.2 ⟨?_, ih hb.2⟩
      intro c hc
      rcases List.mem_cons.1 ((orderedInsert_perm a l).mem_iff.1 hc) with rfl | hc
      · omega
      · exact hb.1 c hc

theorem isort_sorted (l : List Int) : (isort l).Pairwise (· ≤ ·) := by
  induction l with
  | nil => exact List.Pairwise.nil
  | cons a l ih => exact orderedInsert_sorted a _ ih

theorem isMedian_isort (l : List Nat) (h0 : l ≠ []) :
    ∃ m : Nat, (isort (l.map (fun n : Nat => (n : Int)))).getD
        (l.length / 2) 0 = (m : Int) ∧ IsMedian m l := by
  generalize hs : isort (l.map (fun n : Nat => (n : Int))) = s
  have hperm : s.Perm (l.map (fun n : Nat => (n : Int))) := by
    rw [← hs]; exact isort_perm _
  have hsort : s.Pairwise (· ≤ ·) := by
    rw [← hs]; exact isort_sorted _
  have hlen : s.length = l.length := by rw [hperm.length_eq, List.length_map]
  have hpos : 0 < l.length := List.length_pos_iff.2 h0
  have hi : l.length / 2 < s.length := by omega
  obtain ⟨m1, m2⟩ := sorted_median s hsort (l.length / 2) hi
  have hmem : s[l.length / 2] ∈ l.map (fun n : Nat => (n : Int)) := hperm.mem_iff.1 (List.getElem_mem hi)
  obtain ⟨m, hm, hme⟩ := List.mem_map.1 hmem
  refine ⟨m, by rw [List.getD_eq_getElem?_getD, List.getElem?_eq_getElem hi, hme]; rfl, hm, ?_, ?_⟩
  · rw [hperm.countP_eq, List.countP_map] at m1
    rw [← hme] at m1
    simpa [Function.comp_def] using m1
  · rw [hperm.countP_eq, List.countP_map] at m2
    rw [← hme] at m2
    simpa [Function.comp_def] using m2

/-! suitable block -/

theorem blk_pickMiddle (x y z : Entry) : blk (pickMiddle x y z) = middle (blk x) (blk y) (blk z) := by
  unfold pickMiddle middle
  have hx : (blk x).time = x.hdr.time := rfl
  have hy : (blk y).time = y.hdr.time := rfl
  have hz : (blk z).time = z.hdr.time := rfl
  rw [hx, hy, hz]
  by_cases h1 : x.hdr.time > z.hdr.time
  · simp only [h1, if_true]
    by_cases h2 : z.hdr.time > y.hdr.time
    · simp only [h2, if_true]
      by_cases h3 : z.hdr.time > x.hdr.time
      · omega
      · simp only [h3, if_false]
        rw [if_neg (by omega), if_neg (by omega), if_neg (by omega)]
    · simp only [h2, if_false]
      by_cases h3 : y.hdr.time > x.hdr.time
      · simp only [h3, if_true]
        rw [if_neg (by omega), if_neg (by omega)]
      · simp only [h3, if_false]
        rw [if_pos (by omega)]
  · simp only [h1, if_false]
    by_cases h2 : x.hdr.time > y.hdr.time
    · simp only [h2, if_true]
      by_cases h3 : x.hdr.time > z.hdr.time
      · omega
      · simp only [h3, if_false]
        rw [if_neg (by omega), if_neg (by omega), if_pos (by omega)]
    · simp only [h2, if_false]
      by_cases h3 : y.hdr.time > z.hdr.time
      · simp only [h3, if_true]
        rw [if_neg (by omega), if_pos (by omega), if_pos (by omega)]
      · simp only [h3, if_false]
        rw [if_pos (by omega)]

theorem pickMiddle_mem (x y z : Entry) :
    pickMiddle x y z = x ∨ pickMiddle x y z = y ∨ pickMiddle x y z = z := by
  unfold pickMiddle
  by_cases h1 : x.hdr.time > z.hdr.time
  · simp only [h1, if_true]
    by_cases h2 : z.hdr.time > y.hdr.time
    · simp only [h2, if_true]
      split <;> simp
    · simp only [h2, if_false]
      split <;> simp
  · simp only [h1, if_false]
    by_cases h2 : x.hdr.time > y.hdr.time
    · simp only [h2, if_true]
      split <;> simp
    · simp only [h2, if_false]
      split <;> simp

/-! retarget -/

theorem powToBits_isCompact {t : Bytes} (hl : t.length = 32) : IsCompact (beNat t) (powToBits t) := by
  rcases Nat.eq_zero_or_pos (beNat t) with h0 | h0
  · exact .inl ⟨h0, powToBits_zero hl h0⟩
  · obtain ⟨e, he, h1, h2⟩ := exists_byteLength h0
    exact .inr ⟨e, _, he, h1, h2, rfl, powToBits_eq hl he h1 h2⟩

theorem clampActual_eq {a b : Nat} (ha : a < 2 ^ 63) (hb : b < 2 ^ 63) :
    clampActual a b = clampSpan ((a : Int) - b) := by
  have h : toI64 ((a + 2 ^ 64 - b) % 2 ^ 64) = (a : Int) - b := by
    unfold toI64
    split <;> omega
  unfold clampActual clampSpan
  rw [h]
  dsimp only
  congr 1
  split <;> split <;> omega

theorem clampSpan_bounds (s : Int) : 21600 ≤ clampSpan s ∧ clampSpan s ≤ 345600 := by
  unfold clampSpan; omega

theorem bnDiv_spec {a b : Bn.Num} (ha : Bn.WF a) (hb : Bn.WF b) (h0 : 0 < Bn.val b) :
    ∃ c, bnDiv a b = .ok c ∧ Bn.WF c ∧ Bn.val c = Bn.val a / Bn.val b := by
  obtain ⟨c, h1, h2⟩ := Bn.div_spec ha hb h0
  exact ⟨c, by simp [bnDiv, h1], h2⟩

theorem retarget_spec (P : Params) {first last : Entry} (hlim : P.limit.length = 32)
    (hf : first.work.length = 32) (hl : last.work.length = 32)
    (ft : first.hdr.time < 2 ^ 63) (lt : last.hdr.time < 2 ^ 63) (hh : first.height ≤ last.height) :
    ∃ b, retarget P first last = .ok b ∧ Retarget (rules P) (blk first) (blk last) b := by
  obtain ⟨f1, f2⟩ := Bn.fromArray_spec hf
  obtain ⟨l1, l2⟩ := Bn.fromArray_spec hl
  obtain ⟨m1, m2⟩ := Bn.fromArray_spec hlim
  have fl : beNat first.work < 2 ^ 256 := by have := beNat_lt first.work; rwa [hf, pow256_32] at this
  have ll : beNat last.work < 2 ^ 256 := by have := beNat_lt last.work; rwa [hl, pow256_32] at this
  have lml : beNat P.limit < 2 ^ 256 := by have := beNat_lt P.limit; rwa [hlim, pow256_32] at this
  rw [← f2] at fl; rw [← l2] at ll
  have sw := Bn.wf_sub l1 f1
  have sv := Bn.val_sub l1 f1
  have w600 := Bn.wf_fromInt 600
  have v600 := Bn.val_fromInt (i := 600) (by decide)
  have mw := Bn.wf_mul sw w600
  have mv := Bn.val_mul sw w600
  rw [sv, v600] at mv
  have hspan := clampActual_eq lt ft
  obtain ⟨c1, c2⟩ := clampSpan_bounds ((last.hdr.time : Int) - first.hdr.time)
  rw [← hspan] at c1 c2
  have aw := Bn.wf_fromInt (clampActual last.hdr.time first.hdr.time)
  have av := Bn.val_fromInt (i := clampActual last.hdr.time first.hdr.time) (by omega)
  obtain ⟨q, q1, q2, q3⟩ := bnDiv_spec mw aw (by rw [av]; omega)
  rw [mv, av] at q3
  unfold retarget
  rw [if_pos hh]
  simp only [q1, Out.bind_ok]
  have one_w := Bn.wf_fromInt 1
  have one_v := Bn.val_fromInt (i := 1) (by decide)
  obtain ⟨s1, s2⟩ := Bn.wf_lshift one_w 256
  have s2' : Bn.val (Bn.lshift (Bn.fromInt 1) 256) = 2 ^ 256 := by
    rw [s2, one_v, Nat.one_mul, Nat.mod_eq_of_lt (by omega : 2 ^ 256 < 2 ^ 512)]
  -- the specification's quotient
  have hspec : ∀ b, (Bn.val q = 0 → b = P.bits) →
      (Bn.val q ≠ 0 → if 2 ^ 256 / Bn.val q = 0 ∨ beNat P.limit < 2 ^ 256 / Bn.val q - 1 then b = P.bits
        else IsCompact (2 ^ 256 / Bn.val q - 1) b) →
      Retarget (rules P) (blk first) (blk last) b := by
    intro b hz hnz
    show (if (beNat last.work - beNat first.work) * 600 /
          clampSpan ((last.hdr.time : Int) - first.hdr.time) = 0 ∨
        beNat P.limit < 2 ^ 256 / ((beNat last.work - beNat first.work) * 600 /
          clampSpan ((last.hdr.time : Int) - first.hdr.time)) - 1 then b = P.bits
      else IsCompact (2 ^ 256 / ((beNat last.work - beNat first.work) * 600 /
          clampSpan ((last.hdr.time : Int) - first.hdr.time)) - 1) b)
    rw [← hspan]
    by_cases hle : beNat first.work ≤ beNat last.work
    · have hq : Bn.val q = (beNat last.work - beNat first.work) * 600 / clampActual last.hdr.time first.hdr.time := by
        rw [q3]
        congr 1
        rw [← f2, ← l2] at *
        rw [Nat.mod_eq_of_lt (a := _ * 600)]
        · congr 1; omega
        · omega
      rw [← hq]
      by_cases h0 : Bn.val q = 0
      · rw [if_pos (.inl h0)]; exact hz h0
      · have := hnz h0
        have hqlt : Bn.val q < 2 ^ 256 := by
          rw [hq]
          have : (beNat last.work - beNat first.work) * 600 / clampActual last.hdr.time first.hdr.time
              ≤ (beNat last.work - beNat first.work) * 600 / 21600 :=
            Nat.div_le_div_left c1 (by omega)
          rw [← f2, ← l2] at *
          omega
        have hpos : 2 ^ 256 / Bn.val q ≠ 0 := by
          have := Nat.div_pos (Nat.le_of_lt hqlt) (by omega)
          omega
        by_cases hb : beNat P.limit < 2 ^ 256 / Bn.val q - 1
        · rw [if_pos (.inr hb)] at this
          rw [if_pos (.inr hb)]; exact this
        · rw [if_neg (by simp only [not_or]; exact ⟨hpos, hb⟩)] at this
          rw [if_neg (by simp only [not_or]; exact ⟨h0, hb⟩)]; exact this
    · have h0 : beNat last.work - beNat first.work = 0 := by omega
      rw [h0, if_pos (.inl (by simp))]
      by_cases hq0 : Bn.val q = 0
      · exact hz hq0
      · have := hnz hq0
        have hbig : 2 ^ 256 < Bn.val q := by
          rw [q3]
          have hx : (Bn.val (Bn.fromArray last.work) + 2 ^ 512 - Bn.val (Bn.fromArray first.work)) % 2 ^ 512 * 600 % 2 ^ 512
              ≥ 2 ^ 511 := by
            have hlt : Bn.val (Bn.fromArray last.work) < Bn.val (Bn.fromArray first.work) := by
              rw [f2, l2]; omega
            generalize Bn.val (Bn.fromArray last.work) = L at *
            generalize Bn.val (Bn.fromArray first.work) = F at *
            have e1 : (L + 2 ^ 512 - F) % 2 ^ 512 = 2 ^ 512 - (F - L) := by
              rw [Nat.mod_eq_of_lt] <;> omega
            rw [e1]
            have e2 : (2 ^ 512 - (F - L)) * 600 = (2 ^ 512 - 600 * (F - L)) + 2 ^ 512 * 599 := by omega
            rw [e2, Nat.add_mul_mod_self_left, Nat.mod_eq_of_lt] <;> omega
          have := Nat.div_le_div hx c2 (by omega)
          omega
        rw [if_pos (.inl (Nat.div_eq_of_lt hbig))] at this
        exact this
  by_cases hz : Bn.isZero q = true
  · rw [if_pos hz]
    refine ⟨P.bits, rfl, hspec _ (fun _ => rfl) (fun h => absurd ((Bn.isZero_spec q).1 hz) h)⟩
  · rw [if_neg hz]
    have hqz : Bn.val q ≠ 0 := fun h => hz ((Bn.isZero_spec q).2 h)
    obtain ⟨t, t1, t2, t3⟩ := bnDiv_spec s1 q2 (by omega)
    rw [s2'] at t3
    simp only [t1, Out.bind_ok]
    have tw := Bn.wf_sub t2 one_w
    have tv := Bn.val_sub t2 one_w
    rw [one_v, t3] at tv
    have hdl : 2 ^ 256 / Bn.val q ≤ 2 ^ 256 := Nat.div_le_self _ _
    by_cases hc : Bn.cmp (Bn.sub t (Bn.fromInt 1)) (Bn.fromArray P.limit) > 0
    · rw [if_pos hc]
      refine ⟨P.bits, rfl, hspec _ (fun _ => rfl) (fun _ => ?_)⟩
      rw [Bn.cmp_pos tw m1, m2, tv] at hc
      rw [if_pos]
      by_cases h0 : 2 ^ 256 / Bn.val q = 0
      · exact .inl h0
      · right; omega
    · rw [if_neg hc]
      refine ⟨_, rfl, hspec _ (fun h => absurd h hqz) (fun _ => ?_)⟩
      rw [Bn.cmp_pos tw m1, m2, tv] at hc
      have h0 : 2 ^ 256 / Bn.val q ≠ 0 := by
        intro h0
        rw [h0] at hc
        omega
      rw [if_neg]
      · obtain ⟨a1, a2⟩ := Bn.toArray_spec tw
        have hv : beNat (Bn.toArray (Bn.sub t (Bn.fromInt 1)) 32) = 2 ^ 256 / Bn.val q - 1 := by
          rw [a2, tv]; omega
        rw [← hv]
        exact powToBits_isCompact a1
      · simp only [not_or]
        refine ⟨h0, ?_⟩
        omega

end Verif.Chain
