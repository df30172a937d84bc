import Verif.Model.Stub
import Verif.Spec.Stub
import Verif.Lemmas.AddrText
import Verif.Props.Addr
/-
Lemmas for C95.
-/
namespace Verif.Lemmas.Stub
open Verif Verif.Addr Verif.Stub Verif.Spec.Stub

theorem parse_value : ∀ (s : Bytes) (i n m : Nat), parsePort i n s = some m → s.foldl (fun n c => 10 * n + (c.toNat - 48)) n = m
  | [], i, n, m, h => by simpa [parsePort] using h
  | c :: s, i, n, m, h => by
    rw [parsePort] at h
    split at h
    · cases h
    · split at h
      · cases h
      · have := parse_value s _ _ _ h
        rw [List.foldl_cons, Nat.mul_comm]
        exact this

theorem decimal_ne (n : Nat) : decimal 5 n ≠ [] := by
  rw [decimal]
  split <;> simp

theorem port_fromSa (s : Sa) : (fromSa s).port = port s := by cases s <;> rfl

/-- The text of an address of IPv4. -/
theorem at4 (I : Inet) (hI : InetOK I) (ip : Bytes) (p : Nat) (hl : ip.length = 4) (hp : p < 65536) (h0 : p ≠ 0) :
    ∃ t, saToAt I (.in4 ip p) maxHost nsPort = .ok t ∧ t.length < 128 ∧ Denotes I t (.in4 ip p) := by
  obtain ⟨d1, d2, d3⟩ := decimal_port p hp
  have len4 := hI.len4 _ hl
  have hf : getAf (fromSa (.in4 ip p)) = .inet := by
    match ip, hl with
    | [a, b, c, d], _ => rfl
  have hg : getIp (fromSa (.in4 ip p)) = ip ++ List.replicate 20 0 := by
    match ip, hl with
    | [a, b, c, d], _ => rfl
  refine ⟨I.ntop4 ip ++ [0x40] ++ decimal 5 p, ?_, ?_, I.ntop4 ip, decimal 5 p, by simp, fun c hc => (hI.chars4 _ hl c hc).1,
    d3, decimal_ne p, hI.v4 _ hl, parse_value _ _ _ _ d1⟩
  · unfold saToAt toAt
    rw [hf, hg, ntop]
    simp only
    rw [memSlice_ok (by simp [hl]), List.drop_zero, List.take_append_of_le_length (by omega), List.take_of_length_le (by omega)]
    simp only [Out.bind]
    rw [if_pos (by simp only [maxHost]; omega)]
    simp only
    rw [if_neg (by decide), if_neg (by simp only [maxHost]; omega), port_fromSa, port, if_neg h0]
    exact strcpy_twice (by simp only [List.length_append, List.length_singleton, maxHost]; omega)
      (by simp only [List.length_append, List.length_singleton, maxHost]; omega)
  · simp only [List.length_append, List.length_singleton]; omega

/-- The text of an address of IPv6. -/
theorem at6 (I : Inet) (hI : InetOK I) (ip : Bytes) (p : Nat) (hl : ip.length = 16) (hp : p < 65536) (h0 : p ≠ 0)
    (hm : ip.take 12 ≠ mapped) (ho : ip.take 6 ≠ torOnion) :
    ∃ t, saToAt I (.in6 ip p) maxHost nsPort = .ok t ∧ t.length < 128 ∧ Denotes I t (.in6 ip p) := by
  obtain ⟨d1, d2, d3⟩ := decimal_port p hp
  have len6 := hI.len6 _ hl
  have hi : (fromSa (.in6 ip p)).ip = ip ++ List.replicate 20 0 := by
    simp [fromSa, setIp, List.take_of_length_le (show ip.length ≤ 16 by omega)]
  have h1 : isMapped (fromSa (.in6 ip p)) = false := by
    simp only [isMapped, startsWith, hi]
    rw [List.take_append_of_le_length (by simp [mapped, hl])]
    simpa [mapped] using hm
  have h2 : isOnion (fromSa (.in6 ip p)) = false := by
    simp only [isOnion, startsWith, hi]
    rw [List.take_append_of_le_length (by simp [torOnion, hl])]
    simpa [torOnion] using ho
  have hf : getAf (fromSa (.in6 ip p)) = .inet6 := by simp [getAf, h1]
  have hg : getIp (fromSa (.in6 ip p)) = ip ++ List.replicate 20 0 := by simp [getIp, isIp6, h1, h2, hi]
  refine ⟨I.ntop6 ip ++ [0x40] ++ decimal 5 p, ?_, ?_, I.ntop6 ip, decimal 5 p, by simp, fun c hc => (hI.chars6 _ hl c hc).1,
    d3, decimal_ne p, (hI.v6 _ hl).2, (hI.v6 _ hl).1, parse_value _ _ _ _ d1⟩
  · unfold saToAt toAt
    rw [hf, hg, ntop]
    simp only
    rw [memSlice_ok (by simp [hl]), List.drop_zero, List.take_append_of_le_length (by omega), List.take_of_length_le (by omega)]
    simp only [Out.bind]
    rw [if_pos (by simp only [maxHost]; omega)]
    simp only
    rw [if_neg (by decide), if_neg (by simp only [maxHost]; omega), port_fromSa, port, if_neg h0]
    exact strcpy_twice (by simp only [List.length_append, List.length_singleton, maxHost]; omega)
      (by simp only [List.length_append, List.length_singleton, maxHost]; omega)
  · simp only [List.length_append, List.length_singleton]; omega

theorem localize4 (ip : Bytes) (p : Nat) (hl : ip.length = 4) : saLocalize (.in4 ip p) = some (reach (.in4 ip p)) := by
  match ip, hl with
  | [a, b, c, d], _ =>
    by_cases h : a = 0 ∧ b = 0 ∧ c = 0 ∧ d = 0
    · obtain ⟨rfl, rfl, rfl, rfl⟩ := h
      rfl
    · have hn : isNull (fromSa (.in4 [a, b, c, d] p)) = false := by
        have e : isNull (fromSa (.in4 [a, b, c, d] p)) =
          (decide (a.toNat = 0) && decide (b.toNat = 0) && decide (c.toNat = 0) && decide (d.toNat = 0)) := rfl
        rw [e]
        have z : ∀ x : UInt8, x.toNat = 0 → x = 0 := fun x hx => UInt8.toNat.inj hx
        rw [Bool.eq_false_iff]
        intro hh
        simp only [Bool.and_eq_true, decide_eq_true_eq] at hh
        exact h ⟨z _ hh.1.1.1, z _ hh.1.1.2, z _ hh.1.2, z _ hh.2⟩
      have e : localize (fromSa (.in4 [a, b, c, d] p)) = (fromSa (.in4 [a, b, c, d] p), true) := by
        rw [localize, if_neg (by simp [fromSa, setIp, init]), hn]
        rfl
      unfold saLocalize
      rw [e]
      have hr : reach4 [a, b, c, d] = [a, b, c, d] := by
        rw [reach4, if_neg]
        intro hh
        simp only [List.cons.injEq, and_true] at hh
        exact h hh
      simp only [reach, hr, if_true]
      exact congrArg some ((Verif.Props.Addr.C40_socket_round_trip [a, b, c, d] p).1 rfl)

/-- A mapped address is the one of IPv4. -/
theorem from_mapped (ip : Bytes) (p : Nat) (hl : ip.length = 16) (hm : ip.take 12 = mapped) :
    fromSa (.in6 ip p) = fromSa (.in4 (ip.drop 12) p) := by
  have e : ip = mapped ++ ip.drop 12 := by rw [← hm, List.take_append_drop]
  have l : (ip.drop 12).length = 4 := by rw [List.length_drop, hl]
  generalize ip.drop 12 = q at e l
  subst e
  match q, l with
  | [a, b, c, d], _ => rfl

theorem localize6 (ip : Bytes) (p : Nat) (hl : ip.length = 16) : saLocalize (.in6 ip p) = some (reach (.in6 ip p)) := by
  by_cases hm : ip.take 12 = mapped
  · have l : (ip.drop 12).length = 4 := by rw [List.length_drop, hl]
    have := localize4 (ip.drop 12) p l
    unfold saLocalize at this ⊢
    rw [from_mapped ip p hl hm, this, reach, reach,
      if_pos (show ip.take 12 = [0, 0, 0, 0, 0, 0, 0, 0, 0, 0, 0xff, 0xff] from hm)]
  · by_cases hz : ip = List.replicate 16 0
    · subst hz
      rfl
    · have hi : (fromSa (.in6 ip p)).ip = ip ++ List.replicate 20 0 := by
        simp [fromSa, setIp, List.take_of_length_le (show ip.length ≤ 16 by omega)]
      have h1 : isMapped (fromSa (.in6 ip p)) = false := by
        simp only [isMapped, startsWith, hi]
        rw [List.take_append_of_le_length (by simp [mapped, hl])]
        simpa [mapped] using hm
      have hn : isNull (fromSa (.in6 ip p)) = false := by
        rw [isNull, h1]
        simp only [Bool.false_eq_true, if_false, startsWith, hi]
        rw [List.take_append_of_le_length (by simp [zeroIp, hl]), List.take_of_length_le (by simp [zeroIp, hl])]
        simpa [zeroIp] using hz
      have e : localize (fromSa (.in6 ip p)) = (fromSa (.in6 ip p), true) := by
        rw [localize, if_neg (by simp [fromSa, setIp, init]), hn]
        rfl
      unfold saLocalize
      rw [e]
      simp only [if_true]
      rw [(Verif.Props.Addr.C40_socket_round_trip ip p).2.1 hl hm, reach,
        if_neg (show ¬ip.take 12 = [0, 0, 0, 0, 0, 0, 0, 0, 0, 0, 0xff, 0xff] from hm), if_neg hz]

theorem stub_reach (I : Inet) (s : Sa) (h : Ok s) : stubText I s = saToAt I (reach s) maxHost nsPort := by
  have e : saLocalize s = some (reach s) := by
    cases s with
    | in4 ip p => exact localize4 ip p h.1
    | in6 ip p => exact localize6 ip p h.1
  rw [stubText, e]

theorem reach_ok (s : Sa) (h : Ok s) : Ok (reach s) := by
  have r4 : ∀ q : Bytes, q.length = 4 → (reach4 q).length = 4 := by
    intro q hq
    rw [reach4]
    split
    · rfl
    · exact hq
  cases s with
  | in4 ip p => exact ⟨r4 _ h.1, h.2⟩
  | in6 ip p =>
    rw [reach]
    split
    · exact ⟨r4 _ (by rw [List.length_drop, h.1]), h.2⟩
    · refine ⟨?_, h.2⟩
      split
      · rfl
      · exact h.1

end Verif.Lemmas.Stub
