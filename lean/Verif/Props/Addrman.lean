import Verif.Lemmas.Addrman
import Verif.Spec.Addrman
/-
C41: the address manager is bounded and bans expire on time.
-/
namespace Verif.Props.Addrman
open Verif.Addrman Verif.Spec.Addrman
open Verif.Addr (Addr Netaddr)

theorem step_inv {m : Man} (h : Inv m) (o : Op) : ∃ m', step m o = .ok m' ∧ Inv m' := by
  cases o with
  | add na src now rnd =>
    obtain ⟨m', b, h1, h2, _⟩ := h.add na src now rnd
    exact ⟨m', by simp only [step, h1, Out.bind], h2⟩
  | remove a =>
    obtain ⟨m', b, h1, h2, _⟩ := h.update a (fun e => { e with removed := true }) (fun e => ⟨rfl, rfl⟩)
    exact ⟨m', by simp only [step, removeAddr, h1, Out.bind], h2⟩
  | attempt a now =>
    obtain ⟨m', b, h1, h2, _⟩ := h.update a (fun e => { e with attempts := e.attempts + 1, lastAttempt := now }) (fun e => ⟨rfl, rfl⟩)
    exact ⟨m', by simp only [step, markAttempt, h1, Out.bind], h2⟩
  | success a now =>
    obtain ⟨m', b, h1, h2, _⟩ := h.update a (fun e => if u64 (now - e.time) > 1200 then { e with time := u64 now } else e)
      (fun e => by split <;> exact ⟨rfl, rfl⟩)
    exact ⟨m', by simp only [step, markSuccess, h1, Out.bind], h2⟩
  | ack a s now =>
    obtain ⟨m', b, h1, h2, _⟩ := h.update a (fun e => { e with services := e.services ||| s, lastSuccess := now, lastAttempt := now, attempts := 0, used := true }) (fun e => ⟨rfl, rfl⟩)
    exact ⟨m', by simp only [step, markAck, h1, Out.bind], h2⟩
  | clearBans => exact ⟨_, rfl, h.bans _⟩
  | ban a clock => exact ⟨_, rfl, h.bans _⟩
  | query a clock =>
    obtain ⟨b, hb⟩ := isBanned_man m a clock
    exact ⟨_, rfl, by rw [hb]; exact h.bans b⟩
  | pick choice conn now clock =>
    obtain ⟨b, hb⟩ := pickLoop_man choice conn now clock 100 0 m
    exact ⟨_, rfl, by rw [Verif.Addrman.pick, hb]; exact h.bans b⟩

theorem run_inv {m : Man} (h : Inv m) (ops : List Op) : ∃ m', run m ops = .ok m' ∧ Inv m' := by
  induction ops generalizing m with
  | nil => exact ⟨m, rfl, h⟩
  | cons o r ih =>
    obtain ⟨m1, h1, h2⟩ := step_inv h o
    obtain ⟨m2, h3, h4⟩ := ih h2
    exact ⟨m2, by rw [run, h1]; exact h3, h4⟩

/-- C41: after any history, whatever the clocks and random values, no assertion has failed,
there are at most 2000 entries, and two entries with the same address are one entry. -/
theorem C41_bounded (ops : List Op) :
    ∃ m, run init ops = .ok m ∧ m.addrs.length ≤ 2000 ∧
      ∀ (i j : Nat) (e f : Entry), m.addrs[i]? = some e → m.addrs[j]? = some f →
        e.addr.type = f.addr.type → e.addr.ip = f.addr.ip → e.addr.port = f.addr.port → i = j := by
  obtain ⟨m, h1, h2⟩ := run_inv Inv.init ops
  refine ⟨m, h1, h2.small, ?_⟩
  intro i j e f he hf h3 h4 h5
  exact h2.unique he hf (by simp only [keyOf, h3, h4, h5])

/-- C41: the manager finds an address exactly if one of its entries has it, and then finds
that entry. -/
theorem C41_finds (ops : List Op) (m : Man) (h : run init ops = .ok m) (a : Addr) (i : Nat) :
    m.map.get (keyOf a) = some i ↔
      ∃ e, m.addrs[i]? = some e ∧ e.addr.type = a.type ∧ e.addr.ip = a.ip ∧ e.addr.port = a.port := by
  obtain ⟨m', h1, h2⟩ := run_inv Inv.init ops
  rw [h] at h1
  cases h1
  rw [h2.idx]
  simp [keyOf]

/-- C41: an entry is only ever replaced when the manager is full, and only by a fresh one in
place of a stale one; every other entry keeps its address. -/
theorem C41_eviction (ops : List Op) (m : Man) (h : run init ops = .ok m) (na : Netaddr) (src : Bool) (now : Int)
    (rnd : Nat → Nat) (m' : Man) (b : Bool) (h' : addEntry m na src now rnd = .ok (m', b)) :
    ∀ (i : Nat) (e : Entry), m.addrs[i]? = some e →
      (∃ e', m'.addrs[i]? = some e' ∧ e'.addr = e.addr) ∨
      (m.addrs.length = 2000 ∧ isStale now e = true ∧ m'.addrs[i]? = some (fresh na) ∧ b = true) := by
  obtain ⟨m1, h1, hI⟩ := run_inv Inv.init ops
  rw [h] at h1
  cases h1
  intro i e he
  have hi : i < m.addrs.length := by
    rcases Nat.lt_or_ge i m.addrs.length with h | h
    · exact h
    · rw [List.getElem?_eq_none h] at he; cases he
  unfold addEntry at h'
  cases hg : m.map.get (keyOf na.addr) with
  | some j =>
    obtain ⟨x, hx, hk⟩ := hI.entry hg
    rw [hg] at h'
    simp only [hx] at h'
    obtain ⟨e', b', hs, ha, hr⟩ := sawAgain_spec (e := refresh x na src now) (na := na) (rnd := rnd) (hI.refs x (List.mem_of_getElem? hx))
    rw [hs] at h'
    simp only [Out.bind, Out.ok.injEq, Prod.mk.injEq] at h'
    obtain ⟨rfl, rfl⟩ := h'
    left
    simp only [List.getElem?_set]
    by_cases hj : j = i
    · subst hj
      rw [hx] at he
      cases he
      exact ⟨e', by simp [hi], ha⟩
    · exact ⟨e, by simp [hj, he], rfl⟩
  | none =>
    rw [hg] at h'
    simp only [allocEntry] at h'
    by_cases hfull : m.addrs.length = maxAddrs
    · rw [if_pos hfull] at h'
      cases hs : findStale now rnd m.addrs (min m.addrs.length 10) 0 with
      | none =>
        rw [hs] at h'
        simp only [Out.bind, Out.ok.injEq, Prod.mk.injEq] at h'
        obtain ⟨rfl, rfl⟩ := h'
        exact Or.inl ⟨e, he, rfl⟩
      | some j =>
        obtain ⟨x, hx, hst⟩ := findStale_lt hs
        rw [hs] at h'
        simp only [hx, Out.bind, Out.ok.injEq, Prod.mk.injEq] at h'
        obtain ⟨rfl, rfl⟩ := h'
        have hj' : j < m.addrs.length := by
          rcases Nat.lt_or_ge j m.addrs.length with h | h
          · exact h
          · rw [List.getElem?_eq_none h] at hx; cases hx
        simp only [put, if_pos hj', List.getElem?_set]
        by_cases hj : j = i
        · subst hj
          rw [hx] at he
          cases he
          exact Or.inr ⟨hfull, hst, by simp [hi], trivial⟩
        · exact Or.inl ⟨e, by simp [hj, he], rfl⟩
    · rw [if_neg hfull, if_pos (by have := hI.small; simp only [maxAddrs] at *; omega)] at h'
      simp only [Out.bind, Out.ok.injEq, Prod.mk.injEq] at h'
      obtain ⟨rfl, rfl⟩ := h'
      left
      refine ⟨e, ?_, rfl⟩
      simp only [put, Nat.lt_irrefl, if_false]
      rw [List.getElem?_append_left hi, he]

/-- C41: a picked address belongs to an entry of the manager that is not removed, is not
already connected, is valid, offers the network service and is not a Tor address. -/
theorem C41_pick (m : Man) (choice : Nat → Nat) (connected : Key → Bool) (now clock : Int) (e : Entry)
    (h : (Verif.Addrman.pick m choice connected now clock).2 = some e) :
    e ∈ m.addrs ∧ e.removed = false ∧ connected (keyOf e.addr) = false ∧ Addr.isValid e.addr = true ∧ e.services % 2 = 1 ∧
      Addr.isOnion e.addr = false :=
  pickLoop_spec choice connected now clock 100 0 m e h

/-! ### Bans -/

/-- Every recorded ban is the latest one, and every latest ban that is not recorded has
expired by `now`. -/
def BanInv (m : Man) (hist : List Op) (now : Int) : Prop :=
  ∀ k, (∀ t, m.banned.get k = some t → lastBan k hist = some t) ∧
    (∀ t, m.banned.get k = none → lastBan k hist = some t → t + 86400 < now)

theorem BanInv.mono {m : Man} {hist : List Op} {a b : Int} (h : BanInv m hist a) (hab : a ≤ b) : BanInv m hist b :=
  fun k => ⟨(h k).1, fun t h1 h2 => by have := (h k).2 t h1 h2; omega⟩

theorem isBanned_inv {m : Man} {hist : List Op} {clock : Int} (h : BanInv m hist clock) (a : Addr) :
    BanInv (isBanned m a clock).1 hist clock := by
  unfold isBanned
  split
  · exact h
  · rename_i t ht
    split
    · intro k
      refine ⟨?_, ?_⟩
      · intro t' h1
        rw [AMap.get_del] at h1
        split at h1
        · cases h1
        · exact (h k).1 t' h1
      · intro t' h1 h2
        rw [AMap.get_del] at h1
        split at h1
        · rename_i hk
          subst hk
          have := (h _).1 t ht
          rw [this] at h2
          cases h2
          omega
        · exact (h k).2 t' h1 h2
    · exact h

theorem pickLoop_ban {hist : List Op} {clock : Int} (choice : Nat → Nat) (conn : Key → Bool) (now : Int) (n i : Nat) {m : Man}
    (h : BanInv m hist clock) : BanInv (pickLoop choice conn now clock n i m).1 hist clock := by
  induction n generalizing i m with
  | zero => exact h
  | succ n ih =>
    rw [pickLoop]
    split
    · exact h
    · rename_i e _
      iterate 7 (split; exact ih _ h)
      split
      · simp only
        split
        · exact ih _ (isBanned_inv h e.addr)
        · exact isBanned_inv h e.addr
      · exact h

/-- The largest clock value of a history, or `d`. -/
def lastClock (d : Int) : List Op → Int
  | [] => d
  | o :: r => match clockOf o with
    | some c => c
    | none => lastClock d r

theorem run_append (m : Man) (a b : List Op) : run m (a ++ b) = (run m a).bind fun m => run m b := by
  induction a generalizing m with
  | nil => rfl
  | cons o r ih =>
    rw [List.cons_append, run, run]
    cases step m o with
    | ok m1 => simp only [Out.bind]; exact ih m1
    | err _ => rfl
    | ub => rfl

theorem update_banned {m m' : Man} {a : Addr} {f : Entry → Entry} {b : Bool} (h : update m a f = .ok (m', b)) : m'.banned = m.banned := by
  unfold update at h
  split at h
  · split at h
    · cases h; rfl
    · cases h
  · cases h; rfl

theorem BanInv.of_eq {m m' : Man} {hist hist' : List Op} {now : Int} (h : BanInv m hist now) (hb : m'.banned = m.banned)
    (hl : ∀ k, lastBan k hist' = lastBan k hist) : BanInv m' hist' now := by
  intro k
  rw [hb, hl]
  exact h k

/-- `hist` is latest call first; the bans are right for every clock value at or after all
those seen. -/
theorem ban_inv (hist : List Op) (hm : Monotone hist) (m : Man) (h : run init hist.reverse = .ok m) (now : Int)
    (hn : Before now hist) : BanInv m hist now := by
  induction hist generalizing m now with
  | nil =>
    simp only [List.reverse_nil, run, Out.ok.injEq] at h
    subst h
    intro k
    exact ⟨fun t ht => by simp [init] at ht, fun t _ ht => by simp [lastBan] at ht⟩
  | cons o r ih =>
    obtain ⟨hc, hm'⟩ := hm
    rw [List.reverse_cons, run_append] at h
    obtain ⟨m0, h0, h⟩ := Out.bind_eq_ok.1 h
    have hn' : Before now r := fun x hx c hc => hn x (List.mem_cons_of_mem _ hx) c hc
    obtain ⟨mI, e1, hI⟩ := run_inv Inv.init r.reverse
    rw [h0] at e1
    cases e1
    simp only [run] at h
    obtain ⟨m1, h1, h2⟩ := Out.bind_eq_ok.1 h
    cases h2
    have base := ih hm' m0 h0 now hn'
    cases o with
    | add na src now' rnd =>
      obtain ⟨x, b, e, _, hb⟩ := hI.add na src now' rnd
      simp only [step, e, Out.bind, Out.ok.injEq] at h1
      subst h1
      exact base.of_eq hb (fun k => rfl)
    | remove a =>
      simp only [step, removeAddr] at h1
      obtain ⟨q, hq, hq'⟩ := Out.bind_eq_ok.1 h1
      cases hq'
      exact base.of_eq (update_banned hq) (fun k => rfl)
    | attempt a t =>
      simp only [step, markAttempt] at h1
      obtain ⟨q, hq, hq'⟩ := Out.bind_eq_ok.1 h1
      cases hq'
      exact base.of_eq (update_banned hq) (fun k => rfl)
    | success a t =>
      simp only [step, markSuccess] at h1
      obtain ⟨q, hq, hq'⟩ := Out.bind_eq_ok.1 h1
      cases hq'
      exact base.of_eq (update_banned hq) (fun k => rfl)
    | ack a s t =>
      simp only [step, markAck] at h1
      obtain ⟨q, hq, hq'⟩ := Out.bind_eq_ok.1 h1
      cases hq'
      exact base.of_eq (update_banned hq) (fun k => rfl)
    | clearBans =>
      simp only [step, Out.ok.injEq] at h1
      subst h1
      intro k
      exact ⟨fun t ht => by simp [clearBanned] at ht, fun t _ ht => by simp [lastBan] at ht⟩
    | ban a c =>
      simp only [step, Out.ok.injEq] at h1
      subst h1
      intro k
      simp only [addBan, AMap.get_set, lastBan]
      by_cases hk : keyOf a = k
      · simp only [hk, if_true]
        exact ⟨fun t ht => ht, fun t ht => by cases ht⟩
      · simp only [hk, if_false]
        exact base k
    | query a c =>
      simp only [step, Out.ok.injEq] at h1
      subst h1
      have hcn : c ≤ now := hn _ List.mem_cons_self c rfl
      have := isBanned_inv (ih hm' m0 h0 c (hc c rfl)) a
      exact (this.mono hcn).of_eq rfl (fun k => rfl)
    | pick choice conn now' c =>
      simp only [step, Out.ok.injEq] at h1
      subst h1
      have hcn : c ≤ now := hn _ List.mem_cons_self c rfl
      have := pickLoop_ban choice conn now' 100 0 (ih hm' m0 h0 c (hc c rfl))
      exact (this.mono hcn).of_eq rfl (fun k => rfl)

/-- C41: as long as the clock does not go back, an address is reported banned exactly if
its latest ban (since bans were last cleared) is at most 24 hours old. -/
theorem C41_ban (hist : List Op) (hm : Monotone hist) (m : Man) (h : run init hist.reverse = .ok m) (a : Addr) (now : Int)
    (hn : Before now hist) :
    (isBanned m a now).2 = true ↔ ∃ t, lastBan (keyOf a) hist = some t ∧ now ≤ t + 24 * 60 * 60 := by
  have inv := ban_inv hist hm m h now hn (keyOf a)
  unfold isBanned
  cases hg : m.banned.get (keyOf a) with
  | none =>
    simp only [Bool.false_eq_true, false_iff]
    rintro ⟨t, h1, h2⟩
    have := inv.2 t hg h1
    omega
  | some t =>
    have hl := inv.1 t hg
    simp only
    split
    · rename_i hgt
      simp only [Bool.false_eq_true, false_iff]
      rintro ⟨t', h1, h2⟩
      rw [hl] at h1
      cases h1
      omega
    · rename_i hle
      simp only [true_iff]
      exact ⟨t, hl, by omega⟩

/-- Two addresses and a history with bans, an expiry and a clear. -/
def exA : Addr := { type := 0, ip := [0, 0, 0, 0, 0, 0, 0, 0, 0, 0, 0xff, 0xff, 1, 2, 3, 4] ++ List.replicate 20 0, port := 44806, key := List.replicate 33 0 }
def exB : Addr := { exA with port := 12038 }

example : Monotone [.query exA 200, .ban exA 150, .ban exB 100] ∧ Before 86550 [.query exA 200, .ban exA 150, .ban exB 100] ∧
    lastBan (keyOf exA) [.query exA 200, .ban exA 150, .ban exB 100] = some 150 ∧ (86550 : Int) ≤ 150 + 24 * 60 * 60 ∧
    ¬ (86551 : Int) ≤ 150 + 24 * 60 * 60 := by
  simp [Monotone, Before, clockOf, lastBan, exA, exB, keyOf]

/-- An entry for `exA`, banned at 100. -/
def exM : Man := addBan { addrs := [fresh { time := 5, services := 1, addr := exA }], map := [(keyOf exA, 0)], banned := [] } exA 100

example : run init [.add { time := 5, services := 1, addr := exA } true 7 (fun _ => 0), .ban exA 100] = .ok exM := by rfl

/-- C41: a banned address can still be picked: the last five of the hundred tries do not
look at bans. -/
theorem C41_banned_pick :
    (isBanned exM exA 100).2 = true ∧
    (Verif.Addrman.pick exM (fun _ => 0) (fun _ => false) 1000 100).2.map (·.addr) = some exA := by
  decide +kernel

/-- C41: in the first 95 tries a banned address is skipped: a picked address that is still
banned came from a later try. -/
theorem C41_early_pick_not_banned (m : Man) (choice : Nat → Nat) (connected : Key → Bool) (now clock : Int) (n : Nat) (hn : n ≤ 95)
    (e : Entry) (h : (pickLoop choice connected now clock n 0 m).2 = some e) :
    (isBanned (pickLoop choice connected now clock n 0 m).1 e.addr clock).2 = false := by
  have key : ∀ (n i : Nat) (m : Man), n + i ≤ 95 → (pickLoop choice connected now clock n i m).2 = some e →
      (isBanned (pickLoop choice connected now clock n i m).1 e.addr clock).2 = false := by
    intro n
    induction n with
    | zero => intro i m _ h; cases h
    | succ n ih =>
      intro i m hi h
      rw [pickLoop] at h ⊢
      split at h
      · cases h
      · rename_i x hx
        iterate 7
          split at h
          · rename_i hc; rw [if_pos hc]; exact ih _ _ (by omega) h
          rename_i hc; rw [if_neg hc]; clear hc
        rw [if_pos (by omega)] at h ⊢
        simp only at h ⊢
        split at h
        · rename_i hc; rw [if_pos hc]; exact ih _ _ (by omega) h
        · rename_i hc
          rw [if_neg hc]
          simp only [Option.some.injEq] at h
          subst h
          unfold isBanned at hc ⊢
          cases hb : m.banned.get (keyOf x.addr) with
          | none => simp [hb]
          | some t =>
            simp only [hb] at hc ⊢
            split at hc
            · rename_i ht
              simp [ht, AMap.get_del]
            · simp at hc
  exact key n 0 m (by omega) h

/-- C41: which entries may be replaced: none tried within the last minute, and otherwise those
never heard of, last heard of more than 30 days ago or in the future, tried three times
without any success, or ten times without success in the last week. -/
theorem C41_stale (now : Int) (e : Entry) (h0 : 0 ≤ now) (h1 : now < 2 ^ 62) (h2 : e.time < 2 ^ 62) :
    isStale now e = true ↔ ¬ (e.lastAttempt ≠ 0 ∧ now ≤ e.lastAttempt + 60) ∧
      (e.time = 0 ∨ (e.time : Int) > now ∨ now > e.time + 30 * 24 * 60 * 60 ∨ (e.lastSuccess = 0 ∧ e.attempts ≥ 3) ∨
        (now > e.lastSuccess + 7 * 24 * 60 * 60 ∧ e.attempts ≥ 10)) := by
  have ht : (u64 (now + 600) : Int) = now + 600 := by
    unfold u64
    rw [Int.emod_eq_of_lt (by omega) (by omega)]
    omega
  have ha : u64 (now - e.time) = if (e.time : Int) > now then (2 ^ 64 + (now - e.time)).toNat else (now - e.time).toNat := by
    unfold u64
    split
    · rw [← Int.add_emod_left, Int.emod_eq_of_lt (by omega) (by omega)]
    · rw [Int.emod_eq_of_lt (by omega) (by omega)]
  unfold isStale
  rw [ha]
  constructor
  · intro h
    split at h
    · cases h
    · refine ⟨by omega, ?_⟩
      by_cases hf : (e.time : Int) > now
      · omega
      · rw [if_neg hf] at h
        split at h
        · omega
        split at h
        · omega
        split at h
        · omega
        split at h
        · omega
        split at h
        · omega
        · cases h
  · rintro ⟨h3, h4⟩
    rw [if_neg (by omega)]
    by_cases hf : (e.time : Int) > now
    · rw [if_pos hf]
      split
      · rfl
      split
      · rfl
      rw [if_pos (by omega)]
    · rw [if_neg hf]
      split
      · rfl
      split
      · rfl
      split
      · rfl
      split
      · rfl
      rw [if_pos (by omega)]

example : isStale 1700000000 ⟨⟨0, [], 0, []⟩, 1700000000 - 31 * 86400, 1, 0, 0, 0, 0, false, false⟩ = true := by decide +kernel

end Verif.Props.Addrman
