import Verif.Lemmas.ChainAdd
/-
hsk_chain_get_locator.
-/
namespace Verif.Chain

/-- Once eleven hashes are written the step doubles every round. -/
theorem locatorLoop_doubling (s : State) (fuel height step k : Nat) (acc : List Bytes)
    (hf : height < fuel) (hh : height < 2 ^ 32) (ha : 10 < acc.length) (hk : k ≤ 32)
    (hs : 2 ^ (32 - k) ≤ step) (hb : acc.length + k + 1 ≤ 45) :
    ∃ r, locatorLoop s fuel height step acc = .ok r ∧ r.length ≤ acc.length + k + 1 := by
  induction fuel generalizing height step k acc with
  | zero => omega
  | succ f ih =>
    unfold locatorLoop
    by_cases h0 : height > 0
    · rw [if_pos h0]
      dsimp only
      rw [if_pos ha, if_neg (by omega)]
      have hpos : 0 < 2 ^ (32 - k) := Nat.two_pow_pos _
      cases k with
      | zero =>
        have hz : height - step = 0 := by simp at hs; omega
        rw [hz]
        have hend : ∀ acc : List Bytes, locatorLoop s f 0 (step * 2) acc = .ok acc.reverse := by
          intro acc
          obtain ⟨g, rfl⟩ : ∃ g, f = g + 1 := ⟨f - 1, by omega⟩
          simp [locatorLoop]
        cases getByHeight s 0 with
        | none => exact ⟨_, hend _, by simp⟩
        | some e =>
          simp only
          rw [if_pos (by omega)]
          exact ⟨_, hend _, by simp⟩
      | succ k =>
        have hs' : 2 ^ (32 - k) ≤ step * 2 := by
          have : 32 - k = (32 - (k + 1)) + 1 := by omega
          rw [this, Nat.pow_succ]; omega
        cases getByHeight s (height - step) with
        | none =>
          obtain ⟨r, r1, r2⟩ := ih (height - step) (step * 2) k acc (by omega) (by omega) ha (by omega) hs' (by omega)
          exact ⟨r, r1, by omega⟩
        | some e =>
          simp only
          rw [if_pos (by omega)]
          obtain ⟨r, r1, r2⟩ := ih (height - step) (step * 2) k (e.hash :: acc) (by omega) (by omega)
            (by simp; omega) (by omega) hs' (by simp; omega)
          exact ⟨r, r1, by simp at r2; omega⟩
    · rw [if_neg h0]
      exact ⟨_, rfl, by simp; omega⟩

theorem locatorLoop_bounded (s : State) (fuel height step : Nat) (acc : List Bytes)
    (hf : height < fuel) (hh : height < 2 ^ 32) (ha : acc.length ≤ 11) (hs : 1 ≤ step) :
    ∃ r, locatorLoop s fuel height step acc = .ok r ∧ r.length ≤ 44 := by
  induction fuel generalizing height acc with
  | zero => omega
  | succ f ih =>
    by_cases h10 : 10 < acc.length
    · obtain ⟨r, r1, r2⟩ := locatorLoop_doubling s (f + 1) height step 32 acc hf hh h10 (by omega) (by simpa using hs) (by omega)
      exact ⟨r, r1, by omega⟩
    · unfold locatorLoop
      by_cases h0 : height > 0
      · rw [if_pos h0]
        dsimp only
        rw [if_neg h10, if_neg (by omega)]
        cases getByHeight s (height - step) with
        | none => exact ih _ acc (by omega) (by omega) ha
        | some e =>
          simp only
          rw [if_pos (by omega)]
          exact ih _ (e.hash :: acc) (by omega) (by omega) (by simp; omega)
      · rw [if_neg h0]
        exact ⟨_, rfl, by simp; omega⟩

/-- Heights visited when every height has an entry. -/
theorem locatorLoop_heights (s : State) (hall : ∀ n ≤ s.height, ∃ e, getByHeight s n = some e)
    (fuel height : Nat) (acc : List Bytes) (hf : height < fuel) (hh : height ≤ s.height)
    {r : List Bytes} (hr : locatorLoop s fuel height (2 ^ (acc.length - 11)) acc = .ok r) :
    ∃ t : List Nat, r.map some = acc.reverse.map some ++ t.map (fun n => (getByHeight s n).map (·.hash)) ∧
      (height :: t).getLast? = some 0 ∧
      (∀ n ∈ t, n < height) ∧ t.Pairwise (· > ·) ∧
      ∀ i a b, (height :: t)[i]? = some a → t[i]? = some b → b = a - 2 ^ (acc.length + i - 11) := by
  induction fuel generalizing height acc with
  | zero => omega
  | succ f ih =>
    unfold locatorLoop at hr
    by_cases h0 : height > 0
    · rw [if_pos h0] at hr
      dsimp only at hr
      have hpos : 0 < 2 ^ (acc.length - 11) := Nat.two_pow_pos _
      by_cases hfull : acc.length < 64
      · rw [if_neg (c := acc.length = _) (by omega)] at hr
        obtain ⟨e, he⟩ := hall (height - 2 ^ (acc.length - 11)) (by omega)
        simp only [he, hfull, if_true] at hr
        have hstep : (if acc.length > 10 then 2 ^ (acc.length - 11) * 2 else 2 ^ (acc.length - 11))
            = 2 ^ ((e.hash :: acc).length - 11) := by
          simp only [List.length_cons]
          split
          · rw [← Nat.pow_succ]; congr 1; omega
          · rw [show acc.length - 11 = 0 by omega, show acc.length + 1 - 11 = 0 by omega]
        rw [hstep] at hr
        obtain ⟨t, t1, t2, t3, t4, t5⟩ := ih _ (e.hash :: acc) (by omega) (by omega) hr
        refine ⟨(height - 2 ^ (acc.length - 11)) :: t, ?_, ?_, ?_, ?_, ?_⟩
        · rw [t1]; simp [he]
        · rw [List.getLast?_cons_cons]; exact t2
        · intro n hn
          rcases List.mem_cons.1 hn with rfl | hn
          · omega
          · have := t3 n hn; omega
        · exact List.pairwise_cons.2 ⟨fun n hn => t3 n hn, t4⟩
        · intro i a b ha hb
          cases i with
          | zero =>
            simp at ha hb
            subst ha; subst hb; simp
          | succ i =>
            have := t5 i a b (by simpa using ha) (by simpa using hb)
            rw [this]
            simp only [List.length_cons]
            congr 2
            omega
      · exfalso
        -- the buffer would be full
        by_cases hbig : acc.length = 64 * 32 - 1
        · rw [if_pos hbig] at hr
          obtain ⟨e, he⟩ := hall 0 (by omega)
          simp only [he] at hr
          rw [if_neg hfull] at hr
          cases hr
        · rw [if_neg hbig] at hr
          obtain ⟨e, he⟩ := hall (height - 2 ^ (acc.length - 11)) (by omega)
          simp only [he] at hr
          rw [if_neg hfull] at hr
          cases hr
    · rw [if_neg h0] at hr
      simp only [Out.ok.injEq] at hr
      have : height = 0 := by omega
      subst this
      exact ⟨[], by simp [← hr], rfl, by simp, by simp, by intro i a b _ hb; simp at hb⟩

end Verif.Chain
