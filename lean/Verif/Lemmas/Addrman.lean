import Verif.Model.Addrman
/-
Helper lemmas for the address manager.
-/
namespace Verif.Addrman
open Verif.Addr (Addr Netaddr)

/-- What every reachable state satisfies: within the limit, the map finds exactly the
entries (so no address has two), reference counts in range. -/
structure Inv (m : Man) : Prop where
  small : m.addrs.length ≤ 2000
  idx : ∀ k i, m.map.get k = some i ↔ ∃ e, m.addrs[i]? = some e ∧ keyOf e.addr = k
  refs : ∀ e ∈ m.addrs, 1 ≤ e.refCount ∧ e.refCount ≤ 8

theorem Inv.init : Inv init := by
  refine ⟨by simp [Addrman.init], ?_, by simp [Addrman.init]⟩
  intro k i; simp [Addrman.init]

theorem Inv.entry {m : Man} (h : Inv m) {k : Key} {i : Nat} (hg : m.map.get k = some i) :
    ∃ e, m.addrs[i]? = some e ∧ keyOf e.addr = k := (h.idx k i).1 hg

/-- Changing an entry without its address. -/
theorem Inv.set {m : Man} (h : Inv m) {i : Nat} {e e' : Entry} (he : m.addrs[i]? = some e)
    (ha : keyOf e'.addr = keyOf e.addr) (hr : 1 ≤ e'.refCount ∧ e'.refCount ≤ 8) (b : AMap Key Int) :
    Inv { m with addrs := m.addrs.set i e', banned := b } := by
  have hi : i < m.addrs.length := by
    rcases Nat.lt_or_ge i m.addrs.length with h | h
    · exact h
    · rw [List.getElem?_eq_none h] at he; cases he
  refine ⟨by simpa using h.small, ?_, ?_⟩
  · intro k j
    rw [h.idx k j]
    simp only [List.getElem?_set]
    by_cases hj : i = j
    · subst hj
      simp only [hi, if_true]
      rw [he]
      constructor
      · rintro ⟨x, hx, hk⟩
        cases hx
        exact ⟨e', rfl, by rw [ha]; exact hk⟩
      · rintro ⟨x, hx, hk⟩
        cases hx
        exact ⟨e, rfl, by rw [← ha]; exact hk⟩
    · simp only [hj, if_false]
  · intro x hx
    rcases List.mem_or_eq_of_mem_set hx with hx | rfl
    · exact h.refs x hx
    · exact hr

theorem findStale_lt {now : Int} {rnd : Nat → Nat} {addrs : List Entry} {n i j : Nat}
    (h : findStale now rnd addrs n i = some j) : ∃ e, addrs[j]? = some e ∧ isStale now e = true := by
  induction n generalizing i with
  | zero => cases h
  | succ n ih =>
    rw [findStale] at h
    split at h
    · rename_i e he
      split at h
      · rename_i hs
        simp only [Option.some.injEq] at h
        subst h
        exact ⟨e, he, hs⟩
      · exact ih h
    · cases h

theorem sawAgain_spec {e : Entry} {na : Netaddr} {rnd : Nat → Nat}
    (hr : 1 ≤ e.refCount ∧ e.refCount ≤ 8) :
    ∃ e' b, sawAgain e na rnd = .ok (e', b) ∧ e'.addr = e.addr ∧ 1 ≤ e'.refCount ∧ e'.refCount ≤ 8 := by
  unfold sawAgain
  split
  · exact ⟨_, _, rfl, rfl, hr⟩
  split
  · exact ⟨_, _, rfl, rfl, hr⟩
  split
  · omega
  split
  · exact ⟨_, _, rfl, rfl, hr⟩
  split
  · omega
  split
  · exact ⟨_, _, rfl, rfl, hr⟩
  · exact ⟨_, _, rfl, rfl, by simp only; omega⟩

theorem Inv.unique {m : Man} (h : Inv m) {i j : Nat} {e f : Entry} (he : m.addrs[i]? = some e) (hf : m.addrs[j]? = some f)
    (hk : keyOf e.addr = keyOf f.addr) : i = j := by
  have h1 := (h.idx (keyOf e.addr) i).2 ⟨e, he, rfl⟩
  have h2 := (h.idx (keyOf e.addr) j).2 ⟨f, hf, hk.symm⟩
  rw [h1] at h2
  exact Option.some.inj h2

theorem Inv.add {m : Man} (h : Inv m) (na : Netaddr) (src : Bool) (now : Int) (rnd : Nat → Nat) :
    ∃ m' b, addEntry m na src now rnd = .ok (m', b) ∧ Inv m' ∧ m'.banned = m.banned := by
  unfold addEntry
  cases hg : m.map.get (keyOf na.addr) with
  | some i =>
    obtain ⟨e, he, hk⟩ := h.entry hg
    simp only [he]
    obtain ⟨e', b, hs, ha, hr⟩ := sawAgain_spec (e := refresh e na src now) (na := na) (rnd := rnd) (h.refs e (List.mem_of_getElem? he))
    rw [hs]
    exact ⟨_, _, rfl, h.set he (by rw [ha]; rfl) hr m.banned, rfl⟩
  | none =>
    have hnew : ∀ (i : Nat) (e : Entry), m.addrs[i]? = some e → keyOf e.addr ≠ keyOf na.addr := by
      intro i e he hk
      have := (h.idx (keyOf na.addr) i).2 ⟨e, he, hk⟩
      rw [hg] at this; cases this
    simp only [allocEntry]
    by_cases hfull : m.addrs.length = maxAddrs
    · rw [if_pos hfull]
      cases hs : findStale now rnd m.addrs (min m.addrs.length 10) 0 with
      | none => exact ⟨_, _, rfl, h, rfl⟩
      | some i =>
        obtain ⟨e, he, _⟩ := findStale_lt hs
        simp only [he, Out.bind]
        refine ⟨_, _, rfl, ?_, rfl⟩
        have hi : i < m.addrs.length := by
          rcases Nat.lt_or_ge i m.addrs.length with h | h
          · exact h
          · rw [List.getElem?_eq_none h] at he; cases he
        refine ⟨by simp only [put, if_pos hi, List.length_set]; exact h.small, ?_, ?_⟩
        · intro k j
          simp only [put, if_pos hi, List.getElem?_set]
          rw [AMap.get_set]
          by_cases hk : keyOf na.addr = k
          · subst hk
            simp only [if_true, Option.some.injEq]
            constructor
            · rintro rfl
              exact ⟨fresh na, by simp [hi], rfl⟩
            · rintro ⟨x, hx, hxk⟩
              by_cases hj : i = j
              · exact hj
              · simp only [hj, if_false] at hx
                exact absurd hxk (hnew j x hx)
          · rw [if_neg hk, AMap.get_del]
            by_cases hek : keyOf e.addr = k
            · rw [if_pos hek]
              constructor
              · intro hc; cases hc
              · rintro ⟨x, hx, hxk⟩
                by_cases hj : i = j
                · subst hj
                  simp only [hi, if_true, Option.some.injEq] at hx
                  subst hx
                  exact absurd hxk hk
                · simp only [hj, if_false] at hx
                  exact absurd (h.unique he hx (hek.trans hxk.symm)) hj
            · rw [if_neg hek, h.idx k j]
              by_cases hj : i = j
              · subst hj
                simp only [hi, if_true, he, Option.some.injEq]
                constructor
                · rintro ⟨x, rfl, hxk⟩; exact absurd hxk hek
                · rintro ⟨x, rfl, hxk⟩; exact absurd hxk hk
              · simp only [hj, if_false]
        · intro x hx
          simp only [put, if_pos hi] at hx
          rcases List.mem_or_eq_of_mem_set hx with hx | rfl
          · exact h.refs x hx
          · simp [fresh]
    · rw [if_neg hfull, if_pos (by have := h.small; simp only [maxAddrs] at *; omega)]
      simp only [Out.bind]
      refine ⟨_, _, rfl, ?_, rfl⟩
      refine ⟨by have := h.small; simp only [put, Nat.lt_irrefl, if_false, List.length_append, List.length_singleton, maxAddrs] at *; omega, ?_, ?_⟩
      · intro k j
        simp only [put, Nat.lt_irrefl, if_false, List.getElem?_append]
        rw [AMap.get_set]
        by_cases hk : keyOf na.addr = k
        · subst hk
          simp only [if_true, Option.some.injEq]
          constructor
          · rintro rfl
            exact ⟨fresh na, by simp, rfl⟩
          · rintro ⟨x, hx, hxk⟩
            split at hx
            · exact absurd hxk (hnew j x hx)
            · rename_i hj
              rw [List.getElem?_singleton] at hx
              split at hx
              · omega
              · cases hx
        · rw [if_neg hk, h.idx k j]
          constructor
          · rintro ⟨x, hx, hxk⟩
            have : j < m.addrs.length := by
              rcases Nat.lt_or_ge j m.addrs.length with h | h
              · exact h
              · rw [List.getElem?_eq_none h] at hx; cases hx
            exact ⟨x, by rw [if_pos this]; exact hx, hxk⟩
          · rintro ⟨x, hx, hxk⟩
            split at hx
            · exact ⟨x, hx, hxk⟩
            · rw [List.getElem?_singleton] at hx
              split at hx
              · simp only [Option.some.injEq] at hx
                subst hx
                exact absurd hxk hk
              · cases hx
      · intro x hx
        simp only [put, Nat.lt_irrefl, if_false, List.mem_append, List.mem_singleton] at hx
        rcases hx with hx | rfl
        · exact h.refs x hx
        · simp [fresh]

theorem Inv.update {m : Man} (h : Inv m) (a : Addr) (f : Entry → Entry)
    (hf : ∀ e, (f e).addr = e.addr ∧ (f e).refCount = e.refCount) :
    ∃ m' b, update m a f = .ok (m', b) ∧ Inv m' ∧ m'.banned = m.banned := by
  unfold Addrman.update
  cases hg : m.map.get (keyOf a) with
  | none => exact ⟨_, _, rfl, h, rfl⟩
  | some i =>
    obtain ⟨e, he, hk⟩ := h.entry hg
    simp only [he]
    refine ⟨_, _, rfl, h.set he (by rw [(hf e).1]) ?_ m.banned, rfl⟩
    rw [(hf e).2]
    exact h.refs e (List.mem_of_getElem? he)

theorem Inv.bans {m : Man} (h : Inv m) (b : AMap Key Int) : Inv { m with banned := b } := ⟨h.small, h.idx, h.refs⟩

theorem isBanned_man (m : Man) (a : Addr) (clock : Int) : ∃ b, (isBanned m a clock).1 = { m with banned := b } := by
  unfold isBanned
  split
  · exact ⟨m.banned, rfl⟩
  · split
    · exact ⟨_, rfl⟩
    · exact ⟨m.banned, rfl⟩

theorem pickLoop_man (choice : Nat → Nat) (conn : Key → Bool) (now clock : Int) (n i : Nat) (m : Man) :
    ∃ b, (pickLoop choice conn now clock n i m).1 = { m with banned := b } := by
  induction n generalizing i m with
  | zero => exact ⟨m.banned, rfl⟩
  | succ n ih =>
    rw [pickLoop]
    split
    · exact ⟨m.banned, rfl⟩
    · iterate 7 (split; exact ih _ _)
      split
      · simp only
        obtain ⟨b, hb⟩ := isBanned_man m (_ : Entry).addr clock
        split
        · rw [hb]
          obtain ⟨b', hb'⟩ := ih (i + 1) { m with banned := b }
          exact ⟨b', by rw [hb']⟩
        · exact ⟨b, hb⟩
      · exact ⟨m.banned, rfl⟩

/-- What a picked entry satisfies. -/
theorem pickLoop_spec (choice : Nat → Nat) (conn : Key → Bool) (now clock : Int) (n i : Nat) (m : Man) (e : Entry)
    (h : (pickLoop choice conn now clock n i m).2 = some e) :
    e ∈ m.addrs ∧ e.removed = false ∧ conn (keyOf e.addr) = false ∧ Addr.isValid e.addr = true ∧ e.services % 2 = 1 ∧
      Addr.isOnion e.addr = false := by
  induction n generalizing i m with
  | zero => cases h
  | succ n ih =>
    rw [pickLoop] at h
    split at h
    · cases h
    · rename_i x hx
      have hmem := List.mem_of_getElem? hx
      split at h
      · exact ih _ _ h
      rename_i h1
      split at h
      · exact ih _ _ h
      rename_i h2
      split at h
      · exact ih _ _ h
      rename_i h3
      split at h
      · exact ih _ _ h
      rename_i h4
      split at h
      · exact ih _ _ h
      rename_i h5
      have good : x ∈ m.addrs ∧ x.removed = false ∧ conn (keyOf x.addr) = false ∧ Addr.isValid x.addr = true ∧ x.services % 2 = 1 ∧
          Addr.isOnion x.addr = false := by
        refine ⟨hmem, by simpa using h1, by simpa using h2, by simpa using h3, by omega, by simpa using h5⟩
      split at h
      · exact ih _ _ h
      split at h
      · exact ih _ _ h
      split at h
      · simp only at h
        split at h
        · obtain ⟨b, hb⟩ := isBanned_man m x.addr clock
          have := ih _ _ h
          rw [hb] at this
          exact this
        · simp only [Option.some.injEq] at h
          subst h; exact good
      · simp only [Option.some.injEq] at h
        subst h; exact good

end Verif.Addrman
