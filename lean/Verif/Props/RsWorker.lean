import Verif.Lemmas.RsProgress
import Verif.Lemmas.Eval
/-
C44: recursive lookups call back exactly once across threads. C61: the worker's memory.
-/
namespace Verif.Props.RsWorker
open Verif Verif.RsWorker Verif.Spec.RsWorker

/-- Under every interleaving no step goes wrong: no list is corrupt, no response is used after
it has been released, and no `assert` fails. -/
theorem C44_defined (s : St) (c : Choice) (hr : Reach s) (hc : LegalC s c) : ∃ s', step s c = .ok s' := by
  obtain ⟨p, q, inv⟩ := reach_inv hr
  obtain ⟨s', p', q', h, -⟩ := step_inv inv hc
  exact ⟨s', h⟩

/-- Callbacks are called in the order in which the library answered, each with what it answered,
and no request has more callbacks than answers, or is called back before
`hsk_rs_worker_resolve` has returned success for it. -/
theorem C44_once (s : St) (hr : Reach s) :
    calls s.log <+: answers s.log ∧ ∀ d, ((calls s.log).map (·.1)).count d ≤ (accepted s.log).count d := by
  obtain ⟨p, q, inv⟩ := reach_inv hr
  have hans := inv.told.ans
  refine ⟨⟨_, hans.symm⟩, fun d => ?_⟩
  have hs := (inv.told.sent.count_eq d)
  rw [inv.told.acc, hans] at hs
  simp only [List.map_append, List.count_append, List.map_map] at hs
  -- the request whose submission is about to return has not been called back
  have hret : ((mRet s.m).map (dataAt s.heap)).count d ≤
      ((q.map (dataAt s.heap)).count d + ((wRm s.w).map (dataAt s.heap)).count d + ((wHeld s.w).map (dataAt s.heap)).count d) +
        (s.out.map (dataAt s.heap)).count d := by
    cases hm : s.m with
    | ret a =>
      have h1 := inv.mem.mret a (by rw [hm]; simp [mRet])
      have h2 := inv.mem.outs.mem_iff (a := a)
      rw [hm] at h2
      simp only [mSub, List.append_nil, List.mem_append] at h2
      have h3 : a ∈ q ∨ a ∈ wRm s.w ∨ a ∈ wHeld s.w ∨ a ∈ s.out := by tauto
      simp only [mRet, List.map_cons, List.map_nil]
      by_cases hd : dataAt s.heap a = d
      · have one : ∀ l : List Nat, a ∈ l → 0 < (l.map (dataAt s.heap)).count d := fun l hl =>
          List.count_pos_iff.2 (List.mem_map.2 ⟨a, hl, hd⟩)
        have : List.count d [dataAt s.heap a] ≤ 1 := List.count_le_length
        rcases h3 with h | h | h | h <;> have := one _ h <;> omega
      · have : List.count d [dataAt s.heap a] = 0 := by
          rw [List.count_eq_zero]; simpa using fun h => hd h.symm
        omega
    | _ => simp [mRet]
  have e : ∀ l : List Nat, (l.map ((fun x => x.1) ∘ bodyAt s.heap)) = l.map (dataAt s.heap) := fun _ => rfl
  simp only [e] at hs
  omega

/-- From every state the two threads can get, without further calls by the user, to where
nothing is left to do; and if the worker has been told to close, it is then closed. (That they do
get there takes a fair scheduler, and a library that answers the requests it has taken.) -/
theorem C44_settles (s : St) (hr : Reach s) :
    ∃ s', Goes s s' ∧ Reach s' ∧ Settled s' ∧ (s.exit = true → s'.ub = false) := by
  obtain ⟨p, q, inv⟩ := reach_inv hr
  obtain ⟨s', g, h⟩ := goes_settled inv
  refine ⟨s', g, goes_reach g hr, h, fun he => ?_⟩
  obtain ⟨p', q', inv'⟩ := reach_inv (goes_reach g hr)
  have h1 := goes_closing g (Or.inl he)
  have h2 := inv'.ctl.asleep
  have h3 := inv'.ctl.open_
  obtain ⟨m0, -, -, w0⟩ := h
  rcases w0 with w0 | w0
  · cases hu : s'.ub with
    | false => rfl
    | true =>
      rcases h3.1 hu with h | h
      · exact absurd w0 h
      · rw [m0] at h; cases h
  · rcases h1 with h1 | h1
    · rw [(h2 w0).2] at h1; cases h1
    · exact h1

/-- Where nothing is left to do every request taken has been called back exactly once: the
callbacks are those of the accepted requests, as often as they were accepted, and every answer
has been handed on. -/
theorem C44_settled (s : St) (hr : Reach s) (hs : Settled s) :
    (accepted s.log).Perm ((calls s.log).map (·.1)) ∧ calls s.log = answers s.log := by
  obtain ⟨p, q, inv⟩ := reach_inv hr
  obtain ⟨m0, q0, r0, w0⟩ := hs
  have hp : p = [] := by
    rcases w0 with w0 | w0
    · exact inv.ctl.nopend (Or.inl w0)
    · exact (inv.ctl.asleep w0).1
  have hw1 : wHeld s.w = [] := by rcases w0 with w0 | w0 <;> rw [w0] <;> rfl
  have hw2 : wRm s.w = [] := by rcases w0 with w0 | w0 <;> rw [w0] <;> rfl
  have hq : q = [] := by
    cases ha : s.alive with
    | false =>
      rcases (inv.ctl.dead ha).2 with h | h
      · exact h.2
      · rw [m0] at h; cases h
    | true =>
      by_cases hq : q = []
      · exact hq
      · rcases inv.ctl.sig hq ha with h | h | h | h
        · rw [r0 ha] at h; cases h
        · rw [m0] at h; cases h
        · rw [m0] at h; exact absurd rfl h
        · rcases w0 with w0 | w0 <;> rw [w0] at h <;> cases h
  have ho : s.out = [] := by
    have := inv.mem.outs
    rw [hp] at this
    have := this.nil_eq
    simp only [List.nil_eq, List.append_eq_nil_iff] at this
    exact this.1
  have hans := inv.told.ans
  rw [m0, hq, hw1, hw2] at hans
  simp only [mCall, List.append_nil, List.map_nil] at hans
  have hsent := inv.told.sent
  rw [inv.told.acc, ho, m0] at hsent
  simp only [mRet, List.map_nil, List.append_nil] at hsent
  rw [hans] at hsent
  exact ⟨hsent, hans.symm⟩

/-- The worker's thread leaves only when nothing is pending: the library has answered every
request it took. -/
theorem C44_exit (s : St) (hr : Reach s) (hw : s.w = .quit ∨ s.w = .leaving ∨ s.w = .done) :
    s.out = [] ∧ (sent s.log).Perm ((answers s.log).map (·.1)) := by
  obtain ⟨p, q, inv⟩ := reach_inv hr
  have hp : p = [] := inv.ctl.nopend (by rcases hw with h | h | h <;> rw [h] <;> simp [ending])
  have ho : s.out = [] := by
    have := inv.mem.outs
    rw [hp] at this
    have := this.nil_eq
    simp only [List.nil_eq, List.append_eq_nil_iff] at this
    exact this.1
  refine ⟨ho, ?_⟩
  have := inv.told.sent
  rw [ho] at this
  simpa using this

/-- A worker released has called back every request it accepted, exactly once. -/
theorem C44_freed (s : St) (hr : Reach s) (ha : s.alive = false) (hm : s.m = .idle) :
    (accepted s.log).Perm ((calls s.log).map (·.1)) ∧ calls s.log = answers s.log := by
  obtain ⟨p, q, inv⟩ := reach_inv hr
  have hu := (inv.ctl.dead ha).1
  have hw : s.w = .none := by
    have := inv.ctl.open_
    rw [hu] at this
    by_cases h : s.w = .none
    · exact h
    · exact absurd (this.2 (Or.inl h)) (by simp)
  refine C44_settled s hr ⟨hm, ?_, (fun h => by rw [ha] at h; cases h), Or.inl hw⟩
  cases hq : s.quitSig with
  | false => rfl
  | true =>
    have := inv.ctl.qs.2 (Or.inl hq)
    rw [hw] at this
    cases this

/-! ### The worker's memory -/

/-- A response the library took is released once it has been called back, and one never taken
is the only kind that is not: when a worker has been released, what memory is left is that of
requests the library refused. Missing: that these are released too, which is false
(`C61_leak_false`). -/
theorem C61_released_partial (s : St) (hr : Reach s) (ha : s.alive = false) (hm : s.m = .idle) (a : Nat) (n : Rsp)
    (hn : s.heap a = some n) : n.data ∈ refused s.log := by
  obtain ⟨p, q, inv⟩ := reach_inv hr
  have hu := (inv.ctl.dead ha).1
  have hw : s.w = .none := by
    have := inv.ctl.open_
    rw [hu] at this
    by_cases h : s.w = .none
    · exact h
    · exact absurd (this.2 (Or.inl h)) (by simp)
  have hp : p = [] := inv.ctl.nopend (Or.inl hw)
  have hq : q = [] := by
    rcases (inv.ctl.dead ha).2 with h | h
    · exact h.2
    · rw [hm] at h; cases h
  have := inv.mem.live a n hn
  rw [hp, hq, hw, hm] at this
  simpa [wHeld, mHeld] using this

/-- A user's program: open the worker, submit a request which the library takes, and one which
it refuses, close it while the first is unanswered, and release it when it has stopped. -/
def story : List Choice :=
  [.host (.opn true), .worker,
   .host (.resolve 7), .main true, .main true, .worker, .main true,
   .host (.resolve 8), .main true, .main false, .main true,
   .host .close, .main true, .host (.resolve 9),
   .answer 0 0 (some 5), .worker, .worker, .worker, .worker, .worker,
   .dispatch, .main true, .main true, .main true,
   .worker, .dispatchQuit, .worker, .worker, .main true, .main true,
   .host .free, .main true]

/-- Every call in it is legal. -/
def legalB (s : St) : Host → Bool
  | .resolve _ => s.alive
  | .opn _ => s.alive && !s.ub
  | .close => s.alive && s.ub
  | .free => s.alive && !s.ub

def runB (s : St) : List Choice → Out Unit St
  | [] => .ok s
  | c :: r =>
    match c with
    | .host h => if s.m = .idle && !legalB s h then .err () else (step s c).bind fun s1 => runB s1 r
    | _ => (step s c).bind fun s1 => runB s1 r

theorem legalB_legal {s : St} {h : Host} (hb : legalB s h = true) : Legal s h := by
  cases h <;> simp only [legalB, Bool.and_eq_true, Bool.not_eq_true'] at hb <;> exact hb

theorem runB_reach : ∀ (l : List Choice) (s s' : St), Reach s → runB s l = .ok s' → Reach s' := by
  intro l
  induction l with
  | nil => intro s s' hr h; cases Out.ok.inj h; exact hr
  | cons c r ih =>
    intro s s' hr h
    have key : ∀ {t : St}, LegalC s c → step s c = .ok t → runB t r = .ok s' → Reach s' :=
      fun hl ht h => ih _ _ (.step hr hl ht) h
    have go : LegalC s c → ((step s c).bind fun s1 => runB s1 r) = .ok s' → Reach s' := fun hl h => by
      cases hx : step s c with
      | ok t => rw [hx] at h; exact key hl hx h
      | err e => rw [hx] at h; cases h
      | ub => rw [hx] at h; cases h
    unfold runB at h
    cases c with
    | host c =>
      dsimp only at h
      by_cases hb : (decide (s.m = .idle) && !legalB s c) = true
      · rw [if_pos hb] at h; cases h
      · rw [if_neg hb] at h
        refine go (fun x hx hm => ?_) h
        cases hx
        refine legalB_legal ?_
        cases hl : legalB s c with
        | true => rfl
        | false => rw [hm, hl] at hb; simp at hb
    | _ => exact go (fun x hx => by cases hx) h

/-- When the library refuses a request its response is never released: a user who submits one
such request, and closes and releases the worker, has lost memory. -/
theorem C61_leak_false : ¬ ∀ s, Reach s → s.alive = false → s.m = .idle → ∀ a, s.heap a = none := by
  intro h
  obtain ⟨s, e, hs⟩ := okWith_spec (r := runB start story)
    (p := fun s : St => decide (s.alive = false) && decide (s.m = .idle) && (s.heap 1).isSome) (by decide +kernel)
  simp only [Bool.and_eq_true, decide_eq_true_eq] at hs
  obtain ⟨⟨h1, h2⟩, h3⟩ := hs
  have := h s (runB_reach _ _ _ .start e) h1 h2 1
  rw [this] at h3
  cases h3

/-- When an allocation fails while the worker is made, what was allocated is released, and
nothing else touched, if it is the last that fails. Missing: the other three. -/
theorem C61_init_partial : initWorker true true true false = .ok false ∧ initWorker true true true true = .ok true := ⟨rfl, rfl⟩

/-- If an earlier allocation fails, a pointer never set is released. -/
theorem C61_init_false : ¬ ∀ a b c d, initWorker a b c d ≠ .ub :=
  fun h => h true true false true rfl

/-- The story is a run of the model: the first request is called back, once, with its answer,
after the worker was told to close; the third is refused by the worker as it is closing. -/
example : ∃ s, Reach s ∧ s.alive = false ∧ s.m = .idle ∧ accepted s.log = [7] ∧ calls s.log = [(7, 0, some 5)] ∧
    refused s.log = [8] ∧ s.log.filter (fun e => match e with | .ret _ false => true | _ => false) = [.ret 8 false, .ret 9 false] := by
  obtain ⟨s, e, hs⟩ := okWith_spec (r := runB start story)
    (p := fun s : St => decide (s.alive = false ∧ s.m = .idle ∧ accepted s.log = [7] ∧ calls s.log = [(7, 0, some 5)] ∧
    refused s.log = [8] ∧ s.log.filter (fun e => match e with | .ret _ false => true | _ => false) = [.ret 8 false, .ret 9 false])) (by decide +kernel)
  exact ⟨s, runB_reach _ _ _ .start e, of_decide_eq_true hs⟩

/-- Half way through, the worker's thread has answered a request the event loop has not seen:
the state is not settled. -/
example : ∃ s, Reach s ∧ ¬ Settled s ∧ s.exit = true ∧ answers s.log = [(7, 0, some 5)] ∧ calls s.log = [] ∧ s.w = .quit := by
  obtain ⟨s, e, hs⟩ := okWith_spec (r := runB start (story.take 20))
    (p := fun s : St => decide (s.rsSig = true ∧ s.alive = true ∧ s.exit = true ∧ answers s.log = [(7, 0, some 5)] ∧ calls s.log = [] ∧ s.w = .quit)) (by decide +kernel)
  obtain ⟨h1, h2, h3⟩ := of_decide_eq_true hs
  refine ⟨s, runB_reach _ _ _ .start e, fun h => ?_, h3⟩
  rw [h.2.2.1 h2] at h1
  cases h1

end Verif.Props.RsWorker
