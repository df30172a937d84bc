import Verif.Lemmas.RsWorker
/-
The worker and the event loop always get to a state in which nothing is left to do.
-/
namespace Verif.RsWorker
open Verif.Spec.RsWorker

attribute [local grind] wHeld wRm mHeld mSub mRet mCall resolving ending isDrain

def mRank : MPc → Nat
  | .idle => 0
  | .enq _ => 400
  | .submit _ => 300
  | .ret _ => 100
  | .fail _ => 50
  | .exit => 30
  | .deq => 1
  | .call _ => 2
  | .join => 3
  | .reset => 2
  | .drain _ => 1

def wRank (out : List Nat) : WPc → Nat
  | .none => 0
  | .asleep => 0
  | .check => 25
  | .waiting => if out = [] then 28 else 20
  | .rm _ => 70
  | .enq _ => 60
  | .send => 40
  | .quit => 10
  | .leaving => 2
  | .done => 1

/-- What is left to do. -/
def left (s : St) (q : List Nat) : Nat :=
  mRank s.m + wRank s.out s.w + 100 * s.out.length + 10 * q.length + 2 * s.rsSig.toNat + 4 * s.quitSig.toNat

theorem wRank_le (o : List Nat) (w : WPc) (a : Nat) : wRank (a :: o) w ≤ wRank o w := by
  cases w <;> simp [wRank]; split <;> omega

theorem wRank_signal (s : St) (o : List Nat) : wRank o (signal s).w ≤ wRank o s.w + 25 := by
  unfold signal
  split
  · rename_i h; rw [h]; simp [wRank]
  · omega

theorem signal_rest (s : St) : (signal s).m = s.m ∧ (signal s).out = s.out ∧ (signal s).rsSig = s.rsSig ∧ (signal s).quitSig = s.quitSig ∧
    (signal s).exit = s.exit ∧ (signal s).ub = s.ub := by
  unfold signal; split <;> simp

/-- While the event loop's thread is busy and not blocked, its steps get it on. -/
theorem main_left {s : St} {pend q : List Nat} (inv : Inv s pend q) (h1 : s.m ≠ .idle) (h2 : s.m = .join → s.w = .done) :
    ∃ s' p' q', mainStep s true = .ok s' ∧ Inv s' p' q' ∧ left s' q' < left s q := by
  cases hm : s.m with
  | idle => exact absurd hm h1
  | enq a =>
    obtain ⟨s', e, i⟩ := main_enq inv hm true
    refine ⟨s', _, _, e, i, ?_⟩
    unfold mainStep at e
    rw [hm] at e
    dsimp only at e
    cases hx : enqueue s.heap s.pending a with
    | ok x =>
      rw [hx] at e
      cases Out.ok.inj e
      have k := wRank_signal { s with heap := x.1, pending := x.2, m := .submit a } s.out
      have k2 := signal_rest { s with heap := x.1, pending := x.2, m := .submit a }
      unfold left
      rw [k2.1, k2.2.1, k2.2.2.1, k2.2.2.2.1, hm]
      dsimp only [mRank] at *
      omega
    | err x => rw [hx] at e; cases e
    | ub => rw [hx] at e; cases e
  | submit a =>
    obtain ⟨s', e, i⟩ := main_submit inv hm true
    refine ⟨s', _, _, e, i, ?_⟩
    unfold mainStep at e
    rw [hm] at e
    dsimp only at e
    cases hx : s.heap a with
    | some n =>
      rw [hx] at e
      cases Out.ok.inj e
      have := wRank_le s.out s.w a
      unfold left
      rw [hm]
      simp only [say, mRank, List.length_cons, reduceIte] at *
      omega
    | none => rw [hx] at e; cases e
  | fail a =>
    obtain ⟨s', p', e, i⟩ := main_fail inv hm true
    refine ⟨s', _, _, e, i, ?_⟩
    unfold mainStep at e
    rw [hm] at e
    dsimp only at e
    cases hx : s.heap a with
    | some n =>
      rw [hx] at e
      dsimp only at e
      cases hy : remove s.heap s.pending a with
      | ok x =>
        rw [hy] at e
        cases Out.ok.inj e
        unfold left
        rw [hm]
        simp only [say, mRank]
        omega
      | err x => rw [hy] at e; cases e
      | ub => rw [hy] at e; cases e
    | none => rw [hx] at e; cases e
  | ret a =>
    obtain ⟨s', e, i⟩ := main_ret inv hm true
    refine ⟨s', _, _, e, i, ?_⟩
    unfold mainStep at e
    rw [hm] at e
    dsimp only at e
    cases hx : s.heap a with
    | some n =>
      rw [hx] at e
      cases Out.ok.inj e
      unfold left
      rw [hm]
      simp only [say, mRank]
      omega
    | none => rw [hx] at e; cases e
  | exit =>
    obtain ⟨s', e, i⟩ := main_exit inv hm true
    refine ⟨s', _, _, e, i, ?_⟩
    unfold mainStep at e
    rw [hm] at e
    cases Out.ok.inj e
    have k := wRank_signal { s with exit := true, m := .idle } s.out
    have k2 := signal_rest { s with exit := true, m := .idle }
    unfold left
    rw [k2.1, k2.2.1, k2.2.2.1, k2.2.2.2.1, hm]
    dsimp only [mRank] at *
    omega
  | deq =>
    have ha : s.alive = true := by
      cases hb : s.alive with
      | true => rfl
      | false => have := inv.ctl.dead hb; grind
    have hq := inv.mem.hq (by rw [hm]; rfl) ha
    obtain ⟨s', e, i⟩ := main_deq inv hm true
    refine ⟨s', _, _, e, i, ?_⟩
    unfold mainStep at e
    rw [hm] at e
    dsimp only at e
    cases q with
    | nil =>
      rw [dequeue_nil hq] at e
      cases Out.ok.inj e
      unfold left; rw [hm]; simp only [mRank, List.tail_nil]; omega
    | cons a l =>
      obtain ⟨h', q'', e1, -⟩ := dequeue_spec hq
      rw [e1] at e
      cases Out.ok.inj e
      unfold left
      rw [hm]
      simp only [mRank, List.length_cons, List.tail_cons]
      omega
  | call a =>
    obtain ⟨s', e, i⟩ := main_call inv hm true
    refine ⟨s', _, _, e, i, ?_⟩
    unfold mainStep at e
    rw [hm] at e
    dsimp only at e
    cases hx : s.heap a with
    | some n =>
      rw [hx] at e
      cases Out.ok.inj e
      unfold left
      rw [hm]
      simp only [say, mRank]
      omega
    | none => rw [hx] at e; cases e
  | join =>
    obtain ⟨s', e, i⟩ := main_join inv hm true
    refine ⟨s', _, _, e, i, ?_⟩
    unfold mainStep at e
    rw [hm] at e
    dsimp only at e
    rw [if_pos (h2 hm)] at e
    cases Out.ok.inj e
    unfold left
    rw [hm, h2 hm]
    simp only [mRank, wRank]
    omega
  | reset =>
    obtain ⟨s', e, i⟩ := main_reset inv hm true
    refine ⟨s', _, _, e, i, ?_⟩
    unfold mainStep at e
    rw [hm] at e
    dsimp only at e
    by_cases h : (s.pending.head.isSome || s.pending.tail.isSome) = true
    · rw [if_pos h] at e; cases e
    · rw [if_neg h] at e
      cases Out.ok.inj e
      unfold left
      rw [hm]
      simp only [say, mRank]
      omega
  | drain c =>
    cases c with
    | none =>
      obtain ⟨s', e, i⟩ := main_drain_nil inv hm true
      refine ⟨s', _, _, e, i, ?_⟩
      unfold mainStep at e
      rw [hm] at e
      cases Out.ok.inj e
      unfold left
      rw [hm]
      simp only [say, mRank]
      omega
    | some a =>
      obtain ⟨s', e, i⟩ := main_drain_cons inv hm true
      refine ⟨s', _, _, e, i, ?_⟩
      have hq : q ≠ [] := fun h => by have := (inv.mem.hd _ hm).1; rw [h] at this; cases this
      obtain ⟨x, l, rfl⟩ := List.exists_cons_of_ne_nil hq
      unfold mainStep at e
      rw [hm] at e
      dsimp only at e
      cases hx : s.heap a with
      | some n =>
        rw [hx] at e
        cases Out.ok.inj e
        unfold left
        rw [hm]
        simp only [say, mRank, List.length_cons, List.tail_cons]
        omega
      | none => rw [hx] at e; cases e

/-- From a state in which something is left to do, there is a step that gets on with it. -/
theorem some_left {s : St} {pend q : List Nat} (inv : Inv s pend q) (hs : ¬ Settled s) :
    ∃ c s' p' q', (∀ h, c ≠ .host h) ∧ step s c = .ok s' ∧ Inv s' p' q' ∧ left s' q' < left s q := by
  by_cases hmain : s.m ≠ .idle ∧ (s.m = .join → s.w = .done)
  · obtain ⟨s', p', q', h⟩ := main_left inv hmain.1 hmain.2
    exact ⟨.main true, s', p', q', by simp, h⟩
  have hm : s.m = .idle ∨ s.m = .join ∧ s.w = .leaving := by
    have := inv.ctl.qs
    by_cases h1 : s.m = .idle
    · exact Or.inl h1
    · right
      have h2 : s.m = .join ∧ s.w ≠ .done := by
        constructor
        · by_cases h3 : s.m = .join
          · exact h3
          · exact absurd ⟨h1, fun h => absurd h h3⟩ hmain
        · intro h3; exact hmain ⟨h1, fun _ => h3⟩
      refine ⟨h2.1, ?_⟩
      cases hw : s.w <;> grind
  have hsub : mSub s.m = [] := by rcases hm with h | ⟨h, _⟩ <;> rw [h] <;> rfl
  by_cases hd : s.m = .idle ∧ s.rsSig = true ∧ s.alive = true
  · obtain ⟨s', p', q', h1, h2⟩ := step_inv inv (c := .dispatch) (fun h hh => by cases hh)
    obtain ⟨d1, d2, d3⟩ := hd
    have e : step s .dispatch = .ok { s with rsSig := false, m := .deq } := by
      unfold step; dsimp only; rw [if_pos ⟨d1, d2⟩, if_pos d3]
    rw [e] at h1
    cases Out.ok.inj h1
    refine ⟨.dispatch, _, pend, q, by simp, e, ⟨?_, ?_, ?_⟩, ?_⟩
    · obtain ⟨i1, i2, i3, i4, i5, i6, i7, i8, i9, i10, i11, i12, i13, i14, i15, i16⟩ := inv.mem
      constructor <;> grind
    · obtain ⟨j1, j2, j3⟩ := inv.told
      constructor <;> grind
    · obtain ⟨c1, c2, c3, c4, c5, c6, c7, c8, c9, c10, c11, c12⟩ := inv.ctl
      constructor <;> grind
    · unfold left; rw [d1, d2]; simp only [mRank, Bool.toNat_true, Bool.toNat_false]; omega
  by_cases hdq : s.m = .idle ∧ s.quitSig = true
  · have hal : s.alive = true := by
      have := inv.ctl.dead; have := inv.ctl.open_; have := inv.ctl.qs
      cases hw : s.w <;> grind
    have e : step s .dispatchQuit = .ok { s with quitSig := false, m := .join } := by
      unfold step; dsimp only; rw [if_pos hdq, if_pos hal]
    obtain ⟨d1, d2⟩ := hdq
    refine ⟨.dispatchQuit, _, pend, q, by simp, e, ⟨?_, ?_, ?_⟩, ?_⟩
    · obtain ⟨i1, i2, i3, i4, i5, i6, i7, i8, i9, i10, i11, i12, i13, i14, i15, i16⟩ := inv.mem
      constructor <;> grind
    · obtain ⟨j1, j2, j3⟩ := inv.told
      constructor <;> grind
    · obtain ⟨c1, c2, c3, c4, c5, c6, c7, c8, c9, c10, c11, c12⟩ := inv.ctl
      constructor <;> grind
    · unfold left; rw [d1, d2]; simp only [mRank, Bool.toNat_true, Bool.toNat_false]; omega
  have hal : s.w ≠ .none → s.alive = true := by
    have := inv.ctl.dead; have := inv.ctl.open_; grind
  cases hw : s.w with
  | none =>
    rcases hm with h | ⟨_, h⟩
    · refine absurd ⟨h, ?_, ?_, Or.inl hw⟩ hs
      · cases hq : s.quitSig with
        | false => rfl
        | true => exact absurd ⟨h, hq⟩ hdq
      · intro ha
        cases hq : s.rsSig with
        | false => rfl
        | true => exact absurd ⟨h, hq, ha⟩ hd
    · rw [hw] at h; cases h
  | asleep =>
    rcases hm with h | ⟨_, h⟩
    · refine absurd ⟨h, ?_, ?_, Or.inr hw⟩ hs
      · cases hq : s.quitSig with
        | false => rfl
        | true => exact absurd ⟨h, hq⟩ hdq
      · intro ha
        cases hq : s.rsSig with
        | false => rfl
        | true => exact absurd ⟨h, hq, ha⟩ hd
    · rw [hw] at h; cases h
  | done =>
    have := inv.ctl.qs
    rcases hm with h | ⟨_, h⟩
    · have : s.quitSig = true := by grind
      exact absurd ⟨h, this⟩ hdq
    · rw [hw] at h; cases h
  | rm a =>
    obtain ⟨s', p', e, i⟩ := worker_rm inv hw
    refine ⟨.worker, s', p', q, by simp, e, i, ?_⟩
    unfold workerStep at e
    rw [hw] at e
    dsimp only at e
    rw [if_neg (by simp [hal (by simp [hw])])] at e
    cases hx : remove s.heap s.pending a with
    | ok x =>
      rw [hx] at e
      cases Out.ok.inj e
      unfold left; rw [hw]; simp only [wRank]; omega
    | err x => rw [hx] at e; cases e
    | ub => rw [hx] at e; cases e
  | enq a =>
    obtain ⟨s', e, i⟩ := worker_enq inv hw
    refine ⟨.worker, s', pend, _, by simp, e, i, ?_⟩
    unfold workerStep at e
    rw [hw] at e
    dsimp only at e
    rw [if_neg (by simp [hal (by simp [hw])])] at e
    cases hx : enqueue s.heap s.queue a with
    | ok x =>
      rw [hx] at e
      cases Out.ok.inj e
      unfold left; rw [hw]; simp only [wRank, List.length_append, List.length_cons, List.length_nil]; omega
    | err x => rw [hx] at e; cases e
    | ub => rw [hx] at e; cases e
  | leaving =>
    obtain ⟨s', i, e⟩ := worker_same inv (by simp [hw]) (by simp [hw])
    refine ⟨.worker, s', pend, q, by simp, e, i, ?_⟩
    unfold workerStep at e
    rw [hw] at e
    cases Out.ok.inj e
    unfold left; rw [hw]; simp only [wRank]; omega
  | send =>
    obtain ⟨s', i, e⟩ := worker_same inv (by simp [hw]) (by simp [hw])
    refine ⟨.worker, s', pend, q, by simp, e, i, ?_⟩
    unfold workerStep at e
    rw [hw] at e
    dsimp only at e
    rw [if_neg (by simp [hal (by simp [hw])])] at e
    cases Out.ok.inj e
    unfold left; rw [hw]; simp only [wRank, Bool.toNat_true]; split <;> omega
  | quit =>
    obtain ⟨s', i, e⟩ := worker_same inv (by simp [hw]) (by simp [hw])
    refine ⟨.worker, s', pend, q, by simp, e, i, ?_⟩
    unfold workerStep at e
    rw [hw] at e
    dsimp only at e
    rw [if_neg (by simp [hal (by simp [hw])])] at e
    cases Out.ok.inj e
    unfold left; rw [hw]; simp only [wRank, Bool.toNat_true]; omega
  | check =>
    obtain ⟨s', i, e⟩ := worker_same inv (by simp [hw]) (by simp [hw])
    refine ⟨.worker, s', pend, q, by simp, e, i, ?_⟩
    have hub : s.ub = true := inv.ctl.open_.2 (Or.inl (by rw [hw]; simp))
    unfold workerStep at e
    rw [hw] at e
    dsimp only at e
    rw [if_neg (by simp [hal (by simp [hw])])] at e
    by_cases hh : s.pending.head.isSome = true
    · rw [if_pos hh, if_pos hub] at e
      cases Out.ok.inj e
      have ho : s.out ≠ [] := fun ho => by
        have := inv.mem.outs
        rw [hw, hsub, ho] at this
        have := this.eq_nil
        rw [inv.mem.hp.head, this] at hh
        cases hh
      unfold left; rw [hw]; simp only [wRank]; rw [if_neg ho]; omega
    · rw [if_neg hh] at e
      split at e
      · cases Out.ok.inj e
        unfold left; rw [hw]; simp only [wRank]; omega
      · cases Out.ok.inj e
        unfold left; rw [hw]; simp only [wRank]; omega
  | waiting =>
    by_cases ho : s.out = []
    · obtain ⟨s', i, e⟩ := worker_same inv (by simp [hw]) (by simp [hw])
      refine ⟨.worker, s', pend, q, by simp, e, i, ?_⟩
      unfold workerStep at e
      rw [hw] at e
      cases Out.ok.inj e
      unfold left; rw [hw, ho]; simp only [wRank, reduceIte]; omega
    · obtain ⟨a, l, hl⟩ := List.exists_cons_of_ne_nil ho
      have ha : a ∈ s.out := by rw [hl]; simp
      obtain ⟨s', e, i⟩ := answer_inv inv hw ha 0 none
      refine ⟨.answer a 0 none, s', pend, q, by simp, e, i, ?_⟩
      unfold step at e
      dsimp only at e
      rw [if_pos ⟨hw, ha⟩] at e
      cases hx : s.heap a with
      | none => rw [hx] at e; cases e
      | some n =>
        rw [hx] at e
        cases Out.ok.inj e
        have := List.length_erase_of_mem ha
        have h1 : 1 ≤ s.out.length := by rw [hl]; simp
        unfold left; rw [hw]; simp only [say, wRank]; rw [if_neg ho]; omega

theorem goes_settled {s : St} {pend q : List Nat} (inv : Inv s pend q) : ∃ s', Goes s s' ∧ Settled s' := by
  generalize hn : left s q = n
  induction n using Nat.strongRecOn generalizing s pend q with
  | ind n ih =>
    by_cases hs : Settled s
    · exact ⟨s, .refl s, hs⟩
    · obtain ⟨c, s1, p1, q1, h1, h2, h3, h4⟩ := some_left inv hs
      obtain ⟨s2, g, h5⟩ := ih _ (by omega) h3 rfl
      exact ⟨s2, .step h1 h2 g, h5⟩

theorem goes_reach {s s' : St} (h : Goes s s') (hr : Reach s) : Reach s' := by
  induction h with
  | refl s => exact hr
  | step hc hs _ ih => exact ih (.step hr (fun h hh => absurd hh (hc h)) hs)

/-- Without new calls a worker that was told to stop is not open again. -/
theorem step_closing {s s' : St} {c : Choice} (hc : ∀ h, c ≠ .host h) (h : step s c = .ok s') (h0 : s.exit = true ∨ s.ub = false) :
    s'.exit = true ∨ s'.ub = false := by
  have hsig : ∀ t : St, (signal t).exit = t.exit ∧ (signal t).ub = t.ub := fun t => by
    unfold signal; split <;> exact ⟨rfl, rfl⟩
  have keep : ∀ t : St, t.exit = s.exit → t.ub = s.ub → t.exit = true ∨ t.ub = false := fun t h1 h2 => by
    rw [h1, h2]; exact h0
  cases c with
  | host c => exact absurd rfl (hc c)
  | main b =>
    unfold step mainStep at h
    dsimp only at h
    cases hm : s.m with
    | idle => rw [hm] at h; cases Out.ok.inj h; exact h0
    | enq a =>
      rw [hm] at h
      dsimp only at h
      cases hx : enqueue s.heap s.pending a with
      | ok x => rw [hx] at h; cases Out.ok.inj h; exact keep _ (hsig _).1 (hsig _).2
      | err x => rw [hx] at h; cases h
      | ub => rw [hx] at h; cases h
    | submit a =>
      rw [hm] at h
      dsimp only at h
      cases hx : s.heap a with
      | none => rw [hx] at h; cases h
      | some n =>
        rw [hx] at h
        dsimp only at h
        cases b <;> cases Out.ok.inj h <;> exact h0
    | fail a =>
      rw [hm] at h
      dsimp only at h
      cases hx : s.heap a with
      | none => rw [hx] at h; cases h
      | some n =>
        rw [hx] at h
        dsimp only at h
        cases hy : remove s.heap s.pending a with
        | ok x => rw [hy] at h; cases Out.ok.inj h; exact h0
        | err x => rw [hy] at h; cases h
        | ub => rw [hy] at h; cases h
    | ret a =>
      rw [hm] at h
      dsimp only at h
      cases hx : s.heap a with
      | none => rw [hx] at h; cases h
      | some n => rw [hx] at h; cases Out.ok.inj h; exact h0
    | exit => rw [hm] at h; cases Out.ok.inj h; exact Or.inl (hsig _).1
    | deq =>
      rw [hm] at h
      dsimp only at h
      cases hx : dequeue s.heap s.queue with
      | ok x =>
        obtain ⟨x1, x2, x3⟩ := x
        rw [hx] at h
        cases x1 <;> cases Out.ok.inj h <;> exact h0
      | err x => rw [hx] at h; cases h
      | ub => rw [hx] at h; cases h
    | call a =>
      rw [hm] at h
      dsimp only at h
      cases hx : s.heap a with
      | none => rw [hx] at h; cases h
      | some n => rw [hx] at h; cases Out.ok.inj h; exact h0
    | join =>
      rw [hm] at h
      dsimp only at h
      split at h <;> cases Out.ok.inj h <;> exact h0
    | reset =>
      rw [hm] at h
      dsimp only at h
      split at h
      · cases h
      · cases Out.ok.inj h; exact Or.inr rfl
    | drain o =>
      rw [hm] at h
      cases o with
      | none => cases Out.ok.inj h; exact h0
      | some a =>
        dsimp only at h
        cases hx : s.heap a with
        | none => rw [hx] at h; cases h
        | some n => rw [hx] at h; cases Out.ok.inj h; exact h0
  | dispatch =>
    unfold step at h
    dsimp only at h
    split at h
    · split at h <;> cases Out.ok.inj h <;> exact h0
    · cases Out.ok.inj h; exact h0
  | dispatchQuit =>
    unfold step at h
    dsimp only at h
    split at h
    · split at h
      · cases Out.ok.inj h; exact h0
      · cases h
    · cases Out.ok.inj h; exact h0
  | worker =>
    unfold step workerStep at h
    dsimp only at h
    cases hw : s.w with
    | none => rw [hw] at h; cases Out.ok.inj h; exact h0
    | done => rw [hw] at h; cases Out.ok.inj h; exact h0
    | asleep => rw [hw] at h; cases Out.ok.inj h; exact h0
    | leaving => rw [hw] at h; cases Out.ok.inj h; exact h0
    | waiting => rw [hw] at h; cases Out.ok.inj h; exact h0
    | check =>
      rw [hw] at h
      dsimp only at h
      split at h
      · cases h
      · split at h
        · split at h
          · cases Out.ok.inj h; exact h0
          · cases h
        · split at h <;> cases Out.ok.inj h <;> exact h0
    | rm a =>
      rw [hw] at h
      dsimp only at h
      split at h
      · cases h
      · cases hx : remove s.heap s.pending a with
        | ok x => rw [hx] at h; cases Out.ok.inj h; exact h0
        | err x => rw [hx] at h; cases h
        | ub => rw [hx] at h; cases h
    | enq a =>
      rw [hw] at h
      dsimp only at h
      split at h
      · cases h
      · cases hx : enqueue s.heap s.queue a with
        | ok x => rw [hx] at h; cases Out.ok.inj h; exact h0
        | err x => rw [hx] at h; cases h
        | ub => rw [hx] at h; cases h
    | send =>
      rw [hw] at h
      dsimp only at h
      split at h
      · cases h
      · cases Out.ok.inj h; exact h0
    | quit =>
      rw [hw] at h
      dsimp only at h
      split at h
      · cases h
      · cases Out.ok.inj h; exact h0
  | wake =>
    unfold step at h
    dsimp only at h
    split at h <;> cases Out.ok.inj h <;> exact h0
  | answer a st r =>
    unfold step at h
    dsimp only at h
    split at h
    · cases hx : s.heap a with
      | none => rw [hx] at h; cases h
      | some n => rw [hx] at h; cases Out.ok.inj h; exact h0
    · cases Out.ok.inj h; exact h0

theorem goes_closing {s s' : St} (h : Goes s s') (h0 : s.exit = true ∨ s.ub = false) : s'.exit = true ∨ s'.ub = false := by
  induction h with
  | refl s => exact h0
  | step hc hs _ ih => exact ih (step_closing hc hs h0)

end Verif.RsWorker
