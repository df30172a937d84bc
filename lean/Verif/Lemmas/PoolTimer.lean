import Verif.Lemmas.Pool
/-
What hsk_pool_resolve observes, and the deadline the timer enforces.
-/
namespace Verif.Pool
open Verif.Spec.Pool
open Verif.Msg (Msg)

/-! ### Resolving -/

/-- A write: what it leaves alone, and when it calls back. -/
theorem send_log (e : Env) (p : Pool) (id : Nat) (m : Msg) :
    (send e p id m).2.chain = p.chain ∧ (send e p id m).2.td = p.td ∧ (send e p id m).2.pending = p.pending ∧
    ∃ l, (send e p id m).2.log = p.log ++ l ∧ (∀ a ∈ l, Quiet a) ∧ ((send e p id m).1 = true → ∀ a ∈ l, ¬ AnyCall a) := by
  unfold send
  cases p.peers.find? fun q => q.id = id with
  | none => exact ⟨rfl, rfl, rfl, [], (List.append_nil _).symm, (fun a h => by cases h), fun _ a h => by cases h⟩
  | some q =>
    dsimp only
    split
    · split
      · refine ⟨rfl, rfl, rfl, [.wrote id m], rfl, fun a h => ?_, fun _ a h => ?_⟩
        · rw [List.mem_singleton.1 h]; trivial
        · rw [List.mem_singleton.1 h]; rintro ⟨_, _, hc⟩; cases hc
      · exact ⟨rfl, rfl, rfl, [], (List.append_nil _).symm, (fun a h => by cases h), fun _ a h => by cases h⟩
      · exact ⟨rfl, rfl, rfl, [], (List.append_nil _).symm, (fun a h => by cases h), fun _ a h => by cases h⟩
      · unfold close
        dsimp only [bump]
        split
        · exact ⟨rfl, rfl, rfl, [], (List.append_nil _).symm, (fun a h => by cases h), fun h => by cases h⟩
        · rename_i q' _
          refine ⟨rfl, rfl, rfl, timeouts q', rfl, fun a h => ?_, fun h => by cases h⟩
          unfold timeouts at h
          obtain ⟨r, _, rfl⟩ := List.mem_map.1 h
          trivial
    · exact ⟨rfl, rfl, rfl, [], (List.append_nil _).symm, (fun a h => by cases h), fun _ a h => by cases h⟩

/-- Giving a request to a peer. -/
theorem assign_log {e : Env} {p p' : Pool} {q : Peer} {r : Req} (h : assign e p q r = .ok p') :
    p'.chain = p.chain ∧ p'.td = p.td ∧ ∃ (r' : Req) (mid : List Act) (b : Bool),
      r'.name = r.name ∧ r'.root = r.root ∧ r'.arg = r.arg ∧
      p'.log = p.log ++ Act.asked r' (some q.id) :: (mid ++ [.returned r.arg b]) ∧ (∀ a ∈ mid, Quiet a) ∧
      (b = true → ∀ a ∈ mid, ¬ AnyCall a) := by
  unfold assign at h
  split at h
  · rename_i h0 l0 _
    cases Out.ok.inj h
    exact ⟨rfl, rfl, { r with time := h0.time }, [], true, rfl, rfl, rfl, List.append_assoc p.log _ _,
      (fun a h => by cases h), fun _ a h => by cases h⟩
  · cases h
  · obtain ⟨s1, s2, _, l, s4, s5, s6⟩ := send_log e (file p q.id r []) q.id (.getproof r.root r.hash)
    cases Out.ok.inj h
    refine ⟨s1, s2, r, l, (send e (file p q.id r []) q.id (.getproof r.root r.hash)).1, rfl, rfl, rfl, ?_, s5, s6⟩
    show (send e (file p q.id r []) q.id (.getproof r.root r.hash)).2.log ++ _ = _
    rw [s4]
    show p.log ++ _ ++ _ ++ _ = _
    simp

/-- A call of hsk_pool_resolve. -/
theorem resolve_log {e : Env} {p p' : Pool} {name : Bytes} {arg : Nat} (h : resolve e p name arg = .ok p') :
    (p'.chain = p.chain ∧ p'.td = p.td) ∧
    (p.chain.synced = false → p' = note p [.unsynced arg]) ∧
    (p.chain.synced = true → ∃ (root : Bytes) (r : Req) (at_ : Option Nat) (mid : List Act) (b : Bool),
      Chain.safeRoot e.P p.chain = .ok root ∧ r.name = name ∧ r.root = root ∧ r.arg = arg ∧
      p'.log = p.log ++ Act.asked r at_ :: (mid ++ [.returned arg b]) ∧ (∀ a ∈ mid, Quiet a) ∧
      (b = true → ∀ a ∈ mid, ¬ AnyCall a)) := by
  unfold resolve at h
  by_cases hs : p.chain.synced = false
  · rw [if_pos hs] at h
    cases Out.ok.inj h
    exact ⟨⟨rfl, rfl⟩, fun _ => rfl, fun hc => by rw [hs] at hc; cases hc⟩
  · rw [if_neg hs] at h
    split at h
    · cases h
    obtain ⟨root, hroot, h⟩ := Out.bind_eq_ok.1 h
    dsimp only at h
    have key : (p'.chain = p.chain ∧ p'.td = p.td) ∧ (∃ (r : Req) (at_ : Option Nat) (mid : List Act) (b : Bool),
        r.name = name ∧ r.root = root ∧ r.arg = arg ∧
        p'.log = p.log ++ Act.asked r at_ :: (mid ++ [.returned arg b]) ∧ (∀ a ∈ mid, Quiet a) ∧
        (b = true → ∀ a ∈ mid, ¬ AnyCall a)) := by
      split at h
      · cases Out.ok.inj h
        exact ⟨⟨rfl, rfl⟩, _, none, [], true, rfl, rfl, rfl, rfl, (fun a h => by cases h), fun _ a h => by cases h⟩
      · rename_i q _
        obtain ⟨h1, h2, r, mid, b, h3, h4, h5, h6, h7⟩ := assign_log h
        exact ⟨⟨h1, h2⟩, r, some q.id, mid, b, h3, h4, h5, h6, h7⟩
    refine ⟨key.1, fun hc => absurd hc hs, fun _ => ?_⟩
    obtain ⟨r, at_, mid, b, k⟩ := key.2
    exact ⟨root, r, at_, mid, b, hroot, k⟩

/-- Requests held for want of a peer stay. -/
theorem resolve_pending {e : Env} {p p' : Pool} {name : Bytes} {arg : Nat} (h : resolve e p name arg = .ok p') :
    ∀ r ∈ p.pending, r ∈ p'.pending := by
  intro r hr
  unfold resolve at h
  split at h
  · cases Out.ok.inj h; exact hr
  split at h
  · cases h
  obtain ⟨root, _, h⟩ := Out.bind_eq_ok.1 h
  dsimp only at h
  split at h
  · cases Out.ok.inj h; exact List.mem_cons_of_mem _ hr
  · unfold assign at h
    split at h
    · cases Out.ok.inj h; exact hr
    · cases h
    · cases Out.ok.inj h
      show r ∈ (send e _ _ _).2.pending
      rw [(send_log e _ _ _).2.2.1]
      exact hr

/-! ### The chain over histories -/

theorem fedAll_trans {e : Env} {a b c : Pool} (h1 : FedAll e a b) (h2 : FedAll e b c) (hl : ∃ l, c.log = b.log ++ l) : FedAll e a c := by
  intro ht
  obtain ⟨t1, o1, r1, f1⟩ := h1 ht
  obtain ⟨t2, o2, r2, f2⟩ := h2 t1
  obtain ⟨l, hl⟩ := hl
  refine ⟨t2, o1 ++ o2, run_append o1 r1 r2, fun op hop => ?_⟩
  rcases List.mem_append.1 hop with hop | hop
  · rw [hl]; exact fed_mono (f1 op hop)
  · exact f2 op hop

theorem fed_step {e : Env} {p p' : Pool} (h : Inv e p) {ev : Ev} (hx : step e p ev = .ok p') :
    FedAll e p p' ∧ ∃ l, p'.log = p.log ++ l := by
  by_cases hr : ∃ name arg, ev = .resolve name arg
  · obtain ⟨name, arg, rfl⟩ := hr
    obtain ⟨⟨h1, h2⟩, h3, h4⟩ := resolve_log hx
    have hl : ∃ l, p'.log = p.log ++ l := by
      by_cases hs : p.chain.synced = true
      · obtain ⟨_, _, _, _, _, _, _, _, _, hl, _⟩ := h4 hs
        exact ⟨_, hl⟩
      · rw [h3 (by simpa using hs)]; exact ⟨_, rfl⟩
    exact ⟨fedAll_ext (good_refl h).since.fed h1 h2 hl, hl⟩
  · have hg := keep_event (good_refl h) hx fun name arg hc => hr ⟨name, arg, hc⟩
    obtain ⟨l, hl, _⟩ := hg.since.ext
    exact ⟨hg.since.fed, l, hl⟩

theorem fed_run {e : Env} : ∀ (l : List Ev) {p p' : Pool}, Inv e p → run e p l = .ok p' → FedAll e p p' ∧ ∃ l, p'.log = p.log ++ l
  | [], p, p', h, hx => by cases Out.ok.inj hx; exact ⟨(good_refl h).since.fed, [], (List.append_nil _).symm⟩
  | ev :: l, p, p', h, hx => by
    obtain ⟨p1, h1, hx⟩ := Out.bind_eq_ok.1 hx
    obtain ⟨f1, l1, e1⟩ := fed_step h h1
    obtain ⟨f2, l2, e2⟩ := fed_run l (keep_step h h1) hx
    exact ⟨fedAll_trans f1 f2 ⟨l2, e2⟩, l1 ++ l2, by rw [e2, e1, List.append_assoc]⟩

/-! ### The deadline -/

/-- Peers listed later were listed before, in the same state and with the same requests. -/
def Calm (p p' : Pool) : Prop := ∀ q ∈ p'.peers, ∃ q0 ∈ p.peers, q0.id = q.id ∧ q0.st = q.st ∧ q0.names = q.names

theorem calm_refl (p : Pool) : Calm p p := fun q hq => ⟨q, hq, rfl, rfl, rfl⟩

theorem calm_trans {a b c : Pool} (h1 : Calm a b) (h2 : Calm b c) : Calm a c := by
  intro q hq
  obtain ⟨q1, hq1, e1, e2, e3⟩ := h2 q hq
  obtain ⟨q0, hq0, f1, f2, f3⟩ := h1 q1 hq1
  exact ⟨q0, hq0, f1.trans e1, f2.trans e2, f3.trans e3⟩

theorem calm_edit {p : Pool} {id : Nat} {f : Peer → Peer} (hf : ∀ q, (f q).id = q.id ∧ (f q).st = q.st ∧ (f q).names = q.names) :
    Calm p (edit p id f) := by
  intro q hq
  obtain ⟨q0, hq0, rfl⟩ := List.mem_map.1 hq
  refine ⟨q0, hq0, ?_⟩
  unfold editPeer
  split
  · exact ⟨(hf q0).1.symm, (hf q0).2.1.symm, (hf q0).2.2.symm⟩
  · exact ⟨rfl, rfl, rfl⟩

theorem calm_close (p : Pool) (id : Nat) : Calm p (close p id) ∧ ∀ q ∈ (close p id).peers, q.id ≠ id := by
  unfold close
  cases hf : p.peers.find? fun q => q.id = id with
  | none => exact ⟨calm_refl p, find_none hf⟩
  | some q =>
    refine ⟨fun x hx => ⟨x, (List.mem_filter.1 hx).1, rfl, rfl, rfl⟩, fun x hx => ?_⟩
    simpa using (List.mem_filter.1 hx).2

theorem calm_send (e : Env) (p : Pool) (id : Nat) (m : Msg) : Calm p (send e p id m).2 := by
  unfold send
  cases p.peers.find? fun q => q.id = id with
  | none => exact calm_refl p
  | some q =>
    dsimp only
    split
    · split
      · exact calm_edit (p := note p [.wrote id m]) fun q => ⟨rfl, rfl, rfl⟩
      · exact calm_refl p
      · exact calm_refl p
      · exact (calm_close (bump p) id).1
    · exact calm_refl p

theorem calm_ping (e : Env) (now : Int) (p : Pool) (q : Peer) : Calm p (ping e now p q) := by
  unfold ping
  split
  · split
    · exact calm_edit fun q => ⟨rfl, rfl, rfl⟩
    · dsimp only
      refine calm_trans (b := bump (edit p q.id fun q' => { q' with pingTimer := now, challenge := e.rnd p.tick 0, lastPing := now })) ?_ (calm_send _ _ _ _)
      exact calm_edit fun q => ⟨rfl, rfl, rfl⟩
  · exact calm_refl p

theorem overdue_false {now : Int} : ∀ {m : AMap Bytes (List Req)}, overdue now m = .ok false →
    ∀ x ∈ m, ∃ r l, x.2 = r :: l ∧ now ≤ r.time + 5
  | [], _, x, hx => by cases hx
  | (_, []) :: _, h, _, _ => by cases h
  | (_, r :: l) :: m, h, x, hx => by
    unfold overdue at h
    split at h
    · cases h
    · rcases List.mem_cons.1 hx with rfl | hx
      · exact ⟨r, l, rfl, by omega⟩
      · exact overdue_false h x hx

/-- Each request of the peer is at most five seconds old at `T`. -/
def Timely (T : Int) (q : Peer) : Prop := ∀ r ∈ reqsOf q, T ≤ r.time + 5

theorem timely_of {T now : Int} {q : Peer} (hp : PeerInv q) (h : overdue now q.names = .ok false) (hT : T ≤ now) : Timely T q := by
  intro r hr
  obtain ⟨x, hx, hrx⟩ := List.mem_flatMap.1 hr
  obtain ⟨r0, l, h1, h2⟩ := overdue_false h x hx
  have h3 := ((hp.ent x hx).2 r hrx).2
  rw [h1] at h3
  have : r0.time = r.time := by simpa using h3
  omega

theorem tend_calm {e : Env} {p p' : Pool} {now : Int} {id : Nat} (hx : tend e now p id = .ok p') : Calm p p' := by
  unfold tend at hx
  cases hf : p.peers.find? fun q => q.id = id with
  | none => rw [hf] at hx; cases Out.ok.inj hx; exact calm_refl p
  | some q =>
    rw [hf] at hx
    dsimp only at hx
    split at hx
    · split at hx
      · cases Out.ok.inj hx; exact (calm_close p id).1
      · refine calm_trans (calm_ping e now p q) ?_
        unfold judge at hx
        generalize ping e now p q = p1 at hx ⊢
        cases hf : p1.peers.find? fun q => q.id = id with
        | none => rw [hf] at hx; cases Out.ok.inj hx; exact calm_refl _
        | some q1 =>
          rw [hf] at hx
          dsimp only at hx
          split at hx
          · cases Out.ok.inj hx; exact (calm_close p1 id).1
          · obtain ⟨b, _, hx⟩ := Out.bind_eq_ok.1 hx
            cases Out.ok.inj hx
            split
            · exact (calm_close (bump p1) id).1
            · exact calm_refl p1
    · cases Out.ok.inj hx; exact calm_refl p

theorem tend_timely {e : Env} {p p' : Pool} {now T : Int} {id : Nat} (hi : Inv e p) (hT : ∀ t, p.tick ≤ t → T ≤ e.clock t)
    (hx : tend e now p id = .ok p') : ∀ q ∈ p'.peers, q.id = id → q.st = .handshake → Timely T q := by
  intro q hq hid hst
  unfold tend at hx
  cases hf : p.peers.find? fun q => q.id = id with
  | none =>
    rw [hf] at hx; cases Out.ok.inj hx
    exact absurd hid (find_none hf q hq)
  | some q0 =>
    rw [hf] at hx
    dsimp only at hx
    obtain ⟨hq0, hid0⟩ := find_some hf
    split at hx
    · split at hx
      · cases Out.ok.inj hx
        exact absurd hid ((calm_close p id).2 q hq)
      · have hg := keep_ping (good_refl hi) now q0
        unfold judge at hx
        generalize ping e now p q0 = p1 at hx hg
        cases hf : p1.peers.find? fun q => q.id = id with
        | none =>
          rw [hf] at hx; cases Out.ok.inj hx
          exact absurd hid (find_none hf q hq)
        | some q1 =>
          rw [hf] at hx
          dsimp only at hx
          obtain ⟨hq1, hid1⟩ := find_some hf
          split at hx
          · cases Out.ok.inj hx
            exact absurd hid ((calm_close p1 id).2 q hq)
          · obtain ⟨b, hb, hx⟩ := Out.bind_eq_ok.1 hx
            cases Out.ok.inj hx
            cases b with
            | true => exact absurd hid ((calm_close (bump p1) id).2 q hq)
            | false =>
              have : q = q1 := hg.toInv.peer_unique hq hq1 (hid.trans hid1.symm)
              subst this
              exact timely_of (hg.toInv.peer q hq) hb (hT _ hg.since.tick)
    · rename_i hn
      cases Out.ok.inj hx
      have : q = q0 := hi.peer_unique hq hq0 (hid.trans hid0.symm)
      subst this
      exact absurd hst hn

theorem tendAll_calm {e : Env} {now : Int} : ∀ (l : List Nat) {p p' : Pool}, tendAll e now l p = .ok p' → Calm p p'
  | [], p, p', hx => by cases Out.ok.inj hx; exact calm_refl p
  | id :: l, p, p', hx => by
    obtain ⟨p1, h1, hx⟩ := Out.bind_eq_ok.1 hx
    exact calm_trans (tend_calm h1) (tendAll_calm l hx)

theorem tendAll_timely {e : Env} {now T : Int} : ∀ (l : List Nat) {p p' : Pool}, Inv e p → (∀ t, p.tick ≤ t → T ≤ e.clock t) →
    tendAll e now l p = .ok p' → ∀ q ∈ p'.peers, q.id ∈ l → q.st = .handshake → Timely T q
  | [], p, p', hi, hT, hx, q, hq, hm, _ => by cases hm
  | id :: l, p, p', hi, hT, hx, q, hq, hm, hst => by
    obtain ⟨p1, h1, hx⟩ := Out.bind_eq_ok.1 hx
    have hg := keep_tend (good_refl hi) h1
    rcases List.mem_cons.1 hm with hid | hm
    · obtain ⟨q1, hq1, e1, e2, e3⟩ := tendAll_calm l hx q hq
      have := tend_timely hi hT h1 q1 hq1 (e1.trans hid) (e2.trans hst)
      intro r hr
      refine this r ?_
      unfold reqsOf at hr ⊢
      rw [e3]; exact hr
    · exact tendAll_timely l hg.toInv (fun t ht => hT t (Nat.le_trans hg.since.tick ht)) hx q hq hm hst

/-- After the timer, a request at a peer that was ready before it is at most five seconds
old. -/
theorem timer_timely {e : Env} {p p' : Pool} {T : Int} (hi : Inv e p) (hT : ∀ t, p.tick ≤ t → T ≤ e.clock t)
    (hx : timer e p = .ok p') {q : Peer} (hq : q ∈ p.peers) (hst : q.st = .handshake) {r : Req}
    (hr : Held p' (some q.id) r) : T ≤ r.time + 5 := by
  unfold timer at hx
  obtain ⟨p1, h1, hx⟩ := Out.bind_eq_ok.1 hx
  obtain ⟨p2, h2, hx⟩ := Out.bind_eq_ok.1 hx
  have g1 := keep_tendAll _ (keep_bump (good_refl hi)) h1
  have g2 := keep_refill (keep_askAgain (good_refl g1.toInv) h2) hx
  obtain ⟨q', hq', hid', hr'⟩ := hr
  have hlt : q'.id < p1.nextId := by
    rw [hid']
    exact Nat.lt_of_lt_of_le (hi.idlt q (List.mem_append_left _ hq)) g1.since.id
  obtain ⟨q1, hq1, e1, e2⟩ := g2.since.sub q' hq' hlt
  have hc := tendAll_calm _ h1 q1 hq1
  obtain ⟨q0, hq0, f1, f2, f3⟩ := hc
  have hqq : q0 = q := hi.peer_unique hq0 hq (f1.trans (e1.trans hid'))
  subst hqq
  refine tendAll_timely _ (inv_bump hi) (fun t ht => hT t (Nat.le_trans (Nat.le_succ _) ht)) h1 q1 hq1 ?_ (f2.symm.trans hst) r ?_
  · exact List.mem_map.2 ⟨q0, hq, f1⟩
  · obtain ⟨x, hx, hrx⟩ := List.mem_flatMap.1 hr'
    exact List.mem_flatMap.2 ⟨x, e2 x hx, hrx⟩

end Verif.Pool
