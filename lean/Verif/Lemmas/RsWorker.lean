import Verif.Lemmas.RsList
import Verif.Spec.RsWorker
import Mathlib.Data.List.Perm.Subperm
/-
The invariant of the two threads.
-/
namespace Verif.RsWorker
open Verif.Spec.RsWorker

def bodyAt (h : Heap) (a : Nat) : Nat × Int × Option Nat := (body h a).getD (0, 0, none)

def dataAt (h : Heap) (a : Nat) : Nat := (bodyAt h a).1

/-- Responses in nobody's list, in the worker's hands. -/
def wHeld : WPc → List Nat
  | .enq a => [a]
  | _ => []

/-- The response answered and still pending. -/
def wRm : WPc → List Nat
  | .rm a => [a]
  | _ => []

def mHeld : MPc → List Nat
  | .enq a => [a]
  | .call a => [a]
  | _ => []

/-- The request pending and not taken by the library. -/
def mSub : MPc → List Nat
  | .submit a => [a]
  | .fail a => [a]
  | _ => []

def mRet : MPc → List Nat
  | .ret a => [a]
  | _ => []

def mCall : MPc → List Nat
  | .call a => [a]
  | _ => []

/-- In the midst of `hsk_rs_worker_resolve`. -/
def resolving : MPc → Bool
  | .enq _ => true
  | .submit _ => true
  | .fail _ => true
  | .ret _ => true
  | _ => false

def ending : WPc → Bool
  | .leaving => true
  | .done => true
  | _ => false

def isDrain : MPc → Bool
  | .drain _ => true
  | _ => false

/-- The lists and the memory. -/
structure Mem (s : St) (pend q : List Nat) : Prop where
  hp : Holds s.heap s.pending pend
  hq : isDrain s.m = false → s.alive = true → Holds s.heap s.queue q
  hd : ∀ c, s.m = .drain c → c = q.head? ∧ ∃ p, Chain s.heap p q none
  qn : q.Nodup
  dq : ∀ x ∈ q, x ∉ pend
  dw : ∀ x ∈ wHeld s.w, x ∉ pend ∧ x ∉ q
  dm : ∀ x ∈ mHeld s.m, x ∉ pend ∧ x ∉ q ∧ x ∉ wHeld s.w
  fp : ∀ a ∈ pend, a < s.fresh
  fq : ∀ a ∈ q, a < s.fresh
  fw : ∀ a ∈ wHeld s.w, a < s.fresh
  fm : ∀ a ∈ mHeld s.m, a < s.fresh
  held : ∀ a, a ∈ wHeld s.w ∨ a ∈ mHeld s.m → ∃ n, s.heap a = some n ∧ n.prev = none ∧ n.next = none
  outs : pend.Perm (s.out ++ (wRm s.w ++ mSub s.m))
  mret : ∀ a ∈ mRet s.m, a ∈ pend ∨ a ∈ q ∨ a ∈ wHeld s.w
  live : ∀ a n, s.heap a = some n → a ∈ pend ∨ a ∈ q ∨ a ∈ wHeld s.w ∨ a ∈ mHeld s.m ∨ n.data ∈ refused s.log
  mfail : ∀ a, s.m = .fail a → dataAt s.heap a ∈ refused s.log

/-- The log. -/
structure Told (s : St) (q : List Nat) : Prop where
  ans : answers s.log = calls s.log ++ (mCall s.m ++ q ++ wRm s.w ++ wHeld s.w).map (bodyAt s.heap)
  sent : (sent s.log).Perm ((answers s.log).map (·.1) ++ s.out.map (dataAt s.heap))
  acc : Verif.Spec.RsWorker.sent s.log = accepted s.log ++ (mRet s.m).map (dataAt s.heap)

/-- The threads and the flags. -/
structure Ctl (s : St) (pend q : List Nat) : Prop where
  asleep : s.w = .asleep → pend = [] ∧ s.exit = false
  sig : q ≠ [] → s.alive = true → s.rsSig = true ∨ s.m = .deq ∨ (mCall s.m ≠ []) ∨ s.w = .send
  open_ : s.ub = true ↔ s.w ≠ .none ∨ s.m = .reset
  exitUb : s.exit = true → s.ub = true
  nopend : s.w = .none ∨ s.w = .quit ∨ ending s.w = true → pend = []
  quit : s.w = .quit ∨ ending s.w = true ∨ s.m = .reset → s.exit = true
  res : resolving s.m = true ∨ s.m = .exit → s.exit = false ∧ s.ub = true
  qs : ending s.w = true ↔ (s.quitSig = true ∨ s.m = .join)
  qj : s.m = .join → s.quitSig = false
  mreset : s.m = .reset → s.w = .none
  dead : s.alive = false → s.ub = false ∧ (s.m = .idle ∧ q = [] ∨ isDrain s.m = true)
  drain : isDrain s.m = true → s.alive = false

structure Inv (s : St) (pend q : List Nat) : Prop where
  mem : Mem s pend q
  told : Told s q
  ctl : Ctl s pend q

theorem inv_start : Inv start [] [] := by
  have : Holds (fun _ => Option.none) ⟨none, none⟩ [] := ⟨trivial, List.nodup_nil, rfl, rfl⟩
  refine ⟨?_, ?_, ?_⟩ <;> constructor <;>
    simp [start, wHeld, mHeld, wRm, mSub, mRet, mCall, isDrain, ending, resolving, Spec.RsWorker.sent, answers, calls, accepted, this]

attribute [local grind] wHeld wRm mHeld mSub mRet mCall resolving ending isDrain

theorem bodyAt_links {h h' : Heap} {l : List Nat} (hl : Links h h' l) : bodyAt h' = bodyAt h := by
  funext a; unfold bodyAt; rw [hl.1]

theorem dataAt_links {h h' : Heap} {l : List Nat} (hl : Links h h' l) : dataAt h' = dataAt h := by
  funext a; unfold dataAt; rw [bodyAt_links hl]

theorem live_links {h h' : Heap} {l : List Nat} (hl : Links h h' l) {a : Nat} {n : Rsp} (ha : h' a = some n) :
    ∃ n0, h a = some n0 ∧ n0.data = n.data := by
  have := hl.1 a
  unfold body at this
  rw [ha] at this
  cases h0 : h a with
  | none => rw [h0] at this; simp at this
  | some n0 =>
    rw [h0] at this
    simp only [Option.map_some, Option.some.injEq, Prod.mk.injEq] at this
    exact ⟨n0, rfl, this.1.symm⟩

theorem dataAt_some {h : Heap} {a : Nat} {n : Rsp} (ha : h a = some n) : dataAt h a = n.data := by
  simp [dataAt, bodyAt, body, ha]

theorem bodyAt_some {h : Heap} {a : Nat} {n : Rsp} (ha : h a = some n) : bodyAt h a = (n.data, n.status, n.result) := by
  simp [bodyAt, body, ha]



theorem dataAt_set {h : Heap} {a : Nat} {n n' : Rsp} (ha : h a = some n) (hd : n'.data = n.data) : dataAt (upd h a (some n')) = dataAt h := by
  funext x
  unfold dataAt bodyAt body
  by_cases hx : x = a
  · subst hx; simp [ha, hd]
  · rw [upd_ne _ _ hx]

/-! ### The log -/

theorem sent_sent (d : Nat) : Spec.RsWorker.sent [Ev.sent d] = [d] := rfl
theorem sent_refused (d : Nat) : Spec.RsWorker.sent [Ev.refused d] = [] := rfl
theorem sent_ret (d : Nat) (b : Bool) : Spec.RsWorker.sent [Ev.ret d b] = [] := rfl
theorem sent_answer (d : Nat) (st : Int) (r : Option Nat) : Spec.RsWorker.sent [Ev.answer d st r] = [] := rfl
theorem sent_call (d : Nat) (st : Int) (r : Option Nat) : Spec.RsWorker.sent [Ev.call d st r] = [] := rfl
theorem sent_opened (b : Bool) : Spec.RsWorker.sent [Ev.opened b] = [] := rfl
theorem sent_stopped : Spec.RsWorker.sent [Ev.stopped] = [] := rfl
theorem sent_freed : Spec.RsWorker.sent [Ev.freed] = [] := rfl
theorem sent_add (l : List Ev) (e : Ev) : Spec.RsWorker.sent (l ++ [e]) = Spec.RsWorker.sent l ++ Spec.RsWorker.sent [e] := List.filterMap_append ..

theorem refused_sent (d : Nat) : refused [Ev.sent d] = [] := rfl
theorem refused_refused (d : Nat) : refused [Ev.refused d] = [d] := rfl
theorem refused_ret (d : Nat) (b : Bool) : refused [Ev.ret d b] = [] := rfl
theorem refused_answer (d : Nat) (st : Int) (r : Option Nat) : refused [Ev.answer d st r] = [] := rfl
theorem refused_call (d : Nat) (st : Int) (r : Option Nat) : refused [Ev.call d st r] = [] := rfl
theorem refused_opened (b : Bool) : refused [Ev.opened b] = [] := rfl
theorem refused_stopped : refused [Ev.stopped] = [] := rfl
theorem refused_freed : refused [Ev.freed] = [] := rfl
theorem refused_add (l : List Ev) (e : Ev) : refused (l ++ [e]) = refused l ++ refused [e] := List.filterMap_append ..

theorem accepted_sent (d : Nat) : accepted [Ev.sent d] = [] := rfl
theorem accepted_refused (d : Nat) : accepted [Ev.refused d] = [] := rfl
theorem accepted_ret (d : Nat) (b : Bool) : accepted [Ev.ret d b] = if b = true then [d] else [] := by cases b <;> rfl
theorem accepted_answer (d : Nat) (st : Int) (r : Option Nat) : accepted [Ev.answer d st r] = [] := rfl
theorem accepted_call (d : Nat) (st : Int) (r : Option Nat) : accepted [Ev.call d st r] = [] := rfl
theorem accepted_opened (b : Bool) : accepted [Ev.opened b] = [] := rfl
theorem accepted_stopped : accepted [Ev.stopped] = [] := rfl
theorem accepted_freed : accepted [Ev.freed] = [] := rfl
theorem accepted_add (l : List Ev) (e : Ev) : accepted (l ++ [e]) = accepted l ++ accepted [e] := List.filterMap_append ..

theorem answers_sent (d : Nat) : answers [Ev.sent d] = [] := rfl
theorem answers_refused (d : Nat) : answers [Ev.refused d] = [] := rfl
theorem answers_ret (d : Nat) (b : Bool) : answers [Ev.ret d b] = [] := rfl
theorem answers_answer (d : Nat) (st : Int) (r : Option Nat) : answers [Ev.answer d st r] = [(d, st, r)] := rfl
theorem answers_call (d : Nat) (st : Int) (r : Option Nat) : answers [Ev.call d st r] = [] := rfl
theorem answers_opened (b : Bool) : answers [Ev.opened b] = [] := rfl
theorem answers_stopped : answers [Ev.stopped] = [] := rfl
theorem answers_freed : answers [Ev.freed] = [] := rfl
theorem answers_add (l : List Ev) (e : Ev) : answers (l ++ [e]) = answers l ++ answers [e] := List.filterMap_append ..

theorem calls_sent (d : Nat) : calls [Ev.sent d] = [] := rfl
theorem calls_refused (d : Nat) : calls [Ev.refused d] = [] := rfl
theorem calls_ret (d : Nat) (b : Bool) : calls [Ev.ret d b] = [] := rfl
theorem calls_answer (d : Nat) (st : Int) (r : Option Nat) : calls [Ev.answer d st r] = [] := rfl
theorem calls_call (d : Nat) (st : Int) (r : Option Nat) : calls [Ev.call d st r] = [(d, st, r)] := rfl
theorem calls_opened (b : Bool) : calls [Ev.opened b] = [] := rfl
theorem calls_stopped : calls [Ev.stopped] = [] := rfl
theorem calls_freed : calls [Ev.freed] = [] := rfl
theorem calls_add (l : List Ev) (e : Ev) : calls (l ++ [e]) = calls l ++ calls [e] := List.filterMap_append ..

macro "logs" : tactic => `(tactic| try simp only [say, sent_sent, sent_refused, sent_ret, sent_answer, sent_call, sent_opened, sent_stopped, sent_freed, sent_add, refused_sent, refused_refused, refused_ret, refused_answer, refused_call, refused_opened, refused_stopped, refused_freed, refused_add, accepted_sent, accepted_refused, accepted_ret, accepted_answer, accepted_call, accepted_opened, accepted_stopped, accepted_freed, accepted_add, answers_sent, answers_refused, answers_ret, answers_answer, answers_call, answers_opened, answers_stopped, answers_freed, answers_add, calls_sent, calls_refused, calls_ret, calls_answer, calls_call, calls_opened, calls_stopped, calls_freed, calls_add, List.append_nil, if_true, reduceIte, Bool.false_eq_true])

theorem mem_signal {s : St} {pend q : List Nat} (im : Mem s pend q) : Mem (signal s) pend q := by
  unfold signal
  split
  · obtain ⟨i1, i2, i3, i4, i5, i6, i7, i8, i9, i10, i11, i12, i13, i14, i15, i16⟩ := im
    constructor <;> grind
  · exact im

theorem told_signal {s : St} {q : List Nat} (it : Told s q) : Told (signal s) q := by
  unfold signal
  split
  · obtain ⟨j1, j2, j3⟩ := it
    constructor <;> grind
  · exact it

/-- A change of the links only. -/
theorem told_links {s : St} {q : List Nat} {h' : Heap} {l : List Nat} (t : Told s q) (hl : Links s.heap h' l) : Told { s with heap := h' } q := by
  obtain ⟨i1, i2, i3⟩ := t
  constructor <;> dsimp only
  · rw [bodyAt_links hl]; exact i1
  · rw [dataAt_links hl]; exact i2
  · rw [dataAt_links hl]; exact i3

theorem Mem.out_mem {s : St} {pend q : List Nat} (im : Mem s pend q) {x : Nat} (hx : x ∈ s.out) : x ∈ pend :=
  im.outs.mem_iff.2 (List.mem_append_left _ hx)

/-! ### The event loop's thread -/

theorem main_enq {s : St} {pend q : List Nat} {a : Nat} (inv : Inv s pend q) (hm : s.m = .enq a) (b : Bool) :
    ∃ s', mainStep s b = .ok s' ∧ Inv s' (pend ++ [a]) q := by
  obtain ⟨im, it, ic⟩ := inv
  obtain ⟨n, hn, h1, h2⟩ := im.held a (by simp [hm, mHeld])
  have := im.dm a (by simp [hm, mHeld])
  obtain ⟨h', q', e1, e2, e3⟩ := enqueue_spec im.hp this.1 hn h1 h2
  unfold mainStep
  rw [hm]; dsimp only
  rw [e1]
  refine ⟨_, rfl, mem_signal ?_, told_signal ?_, ?_⟩
  · obtain ⟨i1, i2, i3, i4, i5, i6, i7, i8, i9, i10, i11, i12, i13, i14, i15, i16⟩ := im
    have k := @live_links _ _ _ e3
    have k2 := @holds_frame s.heap h' s.queue q
    obtain ⟨e3a, e3b⟩ := e3
    constructor
    all_goals grind
  · have it := told_links it e3
    obtain ⟨j1, j2, j3⟩ := it
    constructor <;> grind
  · obtain ⟨c1, c2, c3, c4, c5, c6, c7, c8, c9, c10, c11, c12⟩ := ic
    unfold signal
    split <;> constructor <;> grind

theorem main_submit {s : St} {pend q : List Nat} {a : Nat} (inv : Inv s pend q) (hm : s.m = .submit a) (b : Bool) :
    ∃ s', mainStep s b = .ok s' ∧ Inv s' pend q := by
  obtain ⟨im, it, ic⟩ := inv
  have hap : a ∈ pend := by
    have := im.outs
    rw [hm] at this
    grind
  obtain ⟨n, hn⟩ := chain_mem im.hp.chain hap
  have hda := dataAt_some hn
  unfold mainStep
  rw [hm]; dsimp only
  rw [hn]
  dsimp only
  cases b with
  | true =>
    refine ⟨_, rfl, ?_, ?_, ?_⟩
    · obtain ⟨i1, i2, i3, i4, i5, i6, i7, i8, i9, i10, i11, i12, i13, i14, i15, i16⟩ := im
      constructor <;> logs <;> grind
    · obtain ⟨j1, j2, j3⟩ := it
      clear hn
      constructor <;> logs <;> grind
    · obtain ⟨c1, c2, c3, c4, c5, c6, c7, c8, c9, c10, c11, c12⟩ := ic
      constructor <;> logs <;> grind
  | false =>
    refine ⟨_, rfl, ?_, ?_, ?_⟩
    · obtain ⟨i1, i2, i3, i4, i5, i6, i7, i8, i9, i10, i11, i12, i13, i14, i15, i16⟩ := im
      constructor <;> logs <;> grind
    · obtain ⟨j1, j2, j3⟩ := it
      clear hn
      constructor <;> logs <;> grind
    · obtain ⟨c1, c2, c3, c4, c5, c6, c7, c8, c9, c10, c11, c12⟩ := ic
      constructor <;> logs <;> grind

theorem main_ret {s : St} {pend q : List Nat} {a : Nat} (inv : Inv s pend q) (hm : s.m = .ret a) (b : Bool) :
    ∃ s', mainStep s b = .ok s' ∧ Inv s' pend q := by
  obtain ⟨im, it, ic⟩ := inv
  have hap : ∃ n, s.heap a = some n := by
    rcases im.mret a (by rw [hm]; simp [mRet]) with h | h | h
    · exact chain_mem im.hp.chain h
    · have ha : s.alive = true := by
        cases hb : s.alive with
        | true => rfl
        | false => have := ic.dead hb; grind
      exact chain_mem (im.hq (by rw [hm]; rfl) ha).chain h
    · obtain ⟨n, hn, _⟩ := im.held a (Or.inl h); exact ⟨n, hn⟩
  obtain ⟨n, hn⟩ := hap
  have hda := dataAt_some hn
  unfold mainStep
  rw [hm]; dsimp only
  rw [hn]
  dsimp only
  refine ⟨_, rfl, ?_, ?_, ?_⟩
  · obtain ⟨i1, i2, i3, i4, i5, i6, i7, i8, i9, i10, i11, i12, i13, i14, i15, i16⟩ := im
    constructor <;> logs <;> grind
  · obtain ⟨j1, j2, j3⟩ := it
    clear hn
    constructor <;> logs <;> grind
  · obtain ⟨c1, c2, c3, c4, c5, c6, c7, c8, c9, c10, c11, c12⟩ := ic
    constructor <;> logs <;> grind

theorem main_exit {s : St} {pend q : List Nat} (inv : Inv s pend q) (hm : s.m = .exit) (b : Bool) :
    ∃ s', mainStep s b = .ok s' ∧ Inv s' pend q := by
  obtain ⟨im, it, ic⟩ := inv
  unfold mainStep
  rw [hm]; dsimp only
  refine ⟨_, rfl, mem_signal ?_, told_signal ?_, ?_⟩
  · obtain ⟨i1, i2, i3, i4, i5, i6, i7, i8, i9, i10, i11, i12, i13, i14, i15, i16⟩ := im
    constructor <;> grind
  · obtain ⟨j1, j2, j3⟩ := it
    constructor <;> grind
  · obtain ⟨c1, c2, c3, c4, c5, c6, c7, c8, c9, c10, c11, c12⟩ := ic
    unfold signal
    split <;> constructor <;> grind

theorem main_join {s : St} {pend q : List Nat} (inv : Inv s pend q) (hm : s.m = .join) (b : Bool) :
    ∃ s', mainStep s b = .ok s' ∧ Inv s' pend q := by
  unfold mainStep
  rw [hm]; dsimp only
  by_cases hw : s.w = .done
  · rw [if_pos hw]
    obtain ⟨im, it, ic⟩ := inv
    refine ⟨_, rfl, ?_, ?_, ?_⟩
    · obtain ⟨i1, i2, i3, i4, i5, i6, i7, i8, i9, i10, i11, i12, i13, i14, i15, i16⟩ := im
      constructor <;> grind
    · obtain ⟨j1, j2, j3⟩ := it
      constructor <;> grind
    · obtain ⟨c1, c2, c3, c4, c5, c6, c7, c8, c9, c10, c11, c12⟩ := ic
      constructor <;> grind
  · rw [if_neg hw]
    exact ⟨s, rfl, inv⟩

theorem main_reset {s : St} {pend q : List Nat} (inv : Inv s pend q) (hm : s.m = .reset) (b : Bool) :
    ∃ s', mainStep s b = .ok s' ∧ Inv s' pend q := by
  obtain ⟨im, it, ic⟩ := inv
  have hp : pend = [] := ic.nopend (Or.inl (ic.mreset hm))
  have h1 : s.pending.head = none := by rw [im.hp.head, hp]; rfl
  have h2 : s.pending.tail = none := by rw [im.hp.tail, hp]; rfl
  unfold mainStep
  rw [hm]; dsimp only
  rw [h1, h2]
  refine ⟨_, rfl, ?_, ?_, ?_⟩
  · obtain ⟨i1, i2, i3, i4, i5, i6, i7, i8, i9, i10, i11, i12, i13, i14, i15, i16⟩ := im
    constructor <;> logs <;> grind
  · obtain ⟨j1, j2, j3⟩ := it
    constructor <;> logs <;> grind
  · obtain ⟨c1, c2, c3, c4, c5, c6, c7, c8, c9, c10, c11, c12⟩ := ic
    constructor <;> logs <;> grind

theorem main_deq {s : St} {pend q : List Nat} (inv : Inv s pend q) (hm : s.m = .deq) (b : Bool) :
    ∃ s', mainStep s b = .ok s' ∧ Inv s' pend q.tail := by
  obtain ⟨im, it, ic⟩ := inv
  have ha : s.alive = true := by
    cases hb : s.alive with
    | true => rfl
    | false => have := ic.dead hb; grind
  have hq := im.hq (by rw [hm]; rfl) ha
  unfold mainStep
  rw [hm]; dsimp only
  cases q with
  | nil =>
    rw [dequeue_nil hq]
    rw [List.tail_nil]
    refine ⟨_, rfl, ?_, ?_, ?_⟩
    · obtain ⟨i1, i2, i3, i4, i5, i6, i7, i8, i9, i10, i11, i12, i13, i14, i15, i16⟩ := im
      constructor <;> grind
    · obtain ⟨j1, j2, j3⟩ := it
      constructor <;> grind
    · obtain ⟨c1, c2, c3, c4, c5, c6, c7, c8, c9, c10, c11, c12⟩ := ic
      constructor <;> grind
  | cons a l =>
    obtain ⟨h', q', e1, e2, e3, n, e4, e5, e6⟩ := dequeue_spec hq
    rw [e1]
    rw [List.tail_cons]
    refine ⟨_, rfl, ?_, ?_, ?_⟩
    · obtain ⟨i1, i2, i3, i4, i5, i6, i7, i8, i9, i10, i11, i12, i13, i14, i15, i16⟩ := im
      have k := @live_links _ _ _ e3
      have k2 := @holds_frame s.heap h' s.pending pend
      obtain ⟨e3a, e3b⟩ := e3
      constructor
      all_goals try grind
    · have it := told_links it e3
      obtain ⟨j1, j2, j3⟩ := it
      constructor <;> grind
    · obtain ⟨c1, c2, c3, c4, c5, c6, c7, c8, c9, c10, c11, c12⟩ := ic
      constructor <;> grind

theorem free_eq {h : Heap} {a x : Nat} (hx : x ≠ a) : bodyAt (upd h a none) x = bodyAt h x := by
  unfold bodyAt body; rw [upd_ne _ _ hx]

theorem main_call {s : St} {pend q : List Nat} {a : Nat} (inv : Inv s pend q) (hm : s.m = .call a) (b : Bool) :
    ∃ s', mainStep s b = .ok s' ∧ Inv s' pend q := by
  obtain ⟨im, it, ic⟩ := inv
  obtain ⟨n, hn, h1, h2⟩ := im.held a (by simp [hm, mHeld])
  have hd := im.dm a (by simp [hm, mHeld])
  have hda := bodyAt_some hn
  unfold mainStep
  rw [hm]; dsimp only
  rw [hn]
  refine ⟨_, rfl, ?_, ?_, ?_⟩
  · obtain ⟨i1, i2, i3, i4, i5, i6, i7, i8, i9, i10, i11, i12, i13, i14, i15, i16⟩ := im
    have k1 : Holds (upd s.heap a none) s.pending pend := holds_frame i1 fun x hx => upd_ne _ _ (by grind)
    have k2 : s.alive = true → Holds (upd s.heap a none) s.queue q := fun ha => holds_frame (i2 (by rw [hm]; rfl) ha) fun x hx => upd_ne _ _ (by grind)
    have k3 : ∀ x, x ≠ a → upd s.heap a none x = s.heap x := fun x hx => upd_ne _ _ hx
    have k4 : upd s.heap a none a = none := upd_same _ _ _
    constructor <;> logs <;> grind
  · have e1 : (q ++ wRm s.w ++ wHeld s.w).map (bodyAt (upd s.heap a none)) = (q ++ wRm s.w ++ wHeld s.w).map (bodyAt s.heap) := by
      have := im.outs
      have := im.dw
      refine List.map_congr_left fun x hx => free_eq ?_
      grind
    have e2 : s.out.map (dataAt (upd s.heap a none)) = s.out.map (dataAt s.heap) := by
      have := im.outs
      refine List.map_congr_left fun x hx => ?_
      unfold dataAt
      rw [free_eq (by grind)]
    obtain ⟨j1, j2, j3⟩ := it
    constructor <;> logs
    · rw [j1, hm]
      simp only [mCall, List.nil_append, List.cons_append, List.map_cons, List.append_assoc] at e1 ⊢
      rw [e1, hda]
    · rw [e2]; exact j2
    · rw [j3, hm]; rfl
  · obtain ⟨c1, c2, c3, c4, c5, c6, c7, c8, c9, c10, c11, c12⟩ := ic
    constructor <;> logs <;> grind

theorem main_drain_nil {s : St} {pend q : List Nat} (inv : Inv s pend q) (hm : s.m = .drain none) (b : Bool) :
    ∃ s', mainStep s b = .ok s' ∧ Inv s' pend q := by
  obtain ⟨im, it, ic⟩ := inv
  have hq : q = [] := by
    have := (im.hd _ hm).1
    cases q with
    | nil => rfl
    | cons a l => cases this
  have hal := ic.drain (by rw [hm]; rfl)
  unfold mainStep
  rw [hm]; dsimp only
  refine ⟨_, rfl, ?_, ?_, ?_⟩
  · obtain ⟨i1, i2, i3, i4, i5, i6, i7, i8, i9, i10, i11, i12, i13, i14, i15, i16⟩ := im
    constructor <;> logs <;> grind
  · obtain ⟨j1, j2, j3⟩ := it
    constructor <;> logs <;> grind
  · obtain ⟨c1, c2, c3, c4, c5, c6, c7, c8, c9, c10, c11, c12⟩ := ic
    constructor <;> logs <;> grind

theorem main_drain_cons {s : St} {pend q : List Nat} {a : Nat} (inv : Inv s pend q) (hm : s.m = .drain (some a)) (b : Bool) :
    ∃ s', mainStep s b = .ok s' ∧ Inv s' pend q.tail := by
  obtain ⟨im, it, ic⟩ := inv
  obtain ⟨h1, p, h2⟩ := im.hd _ hm
  cases q with
  | nil => cases h1
  | cons x l =>
    cases h1
    obtain ⟨⟨n, hn, h3, h4⟩, h5⟩ := h2
    have hda := bodyAt_some hn
    have hal : a ∉ l := (List.nodup_cons.1 im.qn).1
    unfold mainStep
    rw [hm]; dsimp only
    rw [hn]
    rw [List.tail_cons]
    refine ⟨_, rfl, ?_, ?_, ?_⟩
    · obtain ⟨i1, i2, i3, i4, i5, i6, i7, i8, i9, i10, i11, i12, i13, i14, i15, i16⟩ := im
      have k1 : Holds (upd s.heap a none) s.pending pend := holds_frame i1 fun x hx => upd_ne _ _ (by grind)
      have k2 : Chain (upd s.heap a none) (some a) l none := chain_frame (fun x hx => upd_ne _ _ (by grind)) h5
      have k3 : ∀ x, x ≠ a → upd s.heap a none x = s.heap x := fun x hx => upd_ne _ _ hx
      have k4 : upd s.heap a none a = none := upd_same _ _ _
      constructor <;> logs <;> grind
    · have e1 : (l ++ wRm s.w ++ wHeld s.w).map (bodyAt (upd s.heap a none)) = (l ++ wRm s.w ++ wHeld s.w).map (bodyAt s.heap) := by
        have := im.outs
        have := im.dw
        have := im.dq
        refine List.map_congr_left fun x hx => free_eq ?_
        grind
      have e2 : s.out.map (dataAt (upd s.heap a none)) = s.out.map (dataAt s.heap) := by
        have := im.outs
        have := im.dq
        refine List.map_congr_left fun x hx => ?_
        unfold dataAt
        have := im.out_mem hx
        rw [free_eq (by grind)]
      obtain ⟨j1, j2, j3⟩ := it
      constructor <;> logs
      · rw [j1, hm]
        simp only [mCall, List.nil_append, List.cons_append, List.map_cons, List.append_assoc] at e1 ⊢
        rw [e1, hda]
      · rw [e2]; exact j2
      · rw [j3, hm]; rfl
    · obtain ⟨c1, c2, c3, c4, c5, c6, c7, c8, c9, c10, c11, c12⟩ := ic
      constructor <;> logs <;> grind

theorem main_fail {s : St} {pend q : List Nat} {a : Nat} (inv : Inv s pend q) (hm : s.m = .fail a) (b : Bool) :
    ∃ s' p', mainStep s b = .ok s' ∧ Inv s' p' q := by
  obtain ⟨im, it, ic⟩ := inv
  have hap : a ∈ pend := by
    have := im.outs
    rw [hm] at this
    grind
  obtain ⟨xs, ys, hxy⟩ := List.append_of_mem hap
  subst hxy
  obtain ⟨n, hn⟩ := chain_mem im.hp.chain hap
  have hda := dataAt_some hn
  obtain ⟨h', q', e1, e2, e3, n', e4, e5, e6⟩ := remove_spec im.hp
  have hnd := im.hp.nodup
  unfold mainStep
  rw [hm]; dsimp only
  rw [hn]
  dsimp only
  rw [e1]
  refine ⟨_, xs ++ ys, rfl, ?_, ?_, ?_⟩
  · obtain ⟨i1, i2, i3, i4, i5, i6, i7, i8, i9, i10, i11, i12, i13, i14, i15, i16⟩ := im
    have k := @live_links _ _ _ e3
    have k2 := @holds_frame s.heap h' s.queue q
    have k3 := dataAt_links e3
    have k9 : ∀ x, s.m = .fail x → dataAt h' x ∈ refused s.log := fun x hx => by rw [k3]; exact i16 x hx
    have k10 : ∀ x ∈ xs ++ ys, x < s.fresh := fun x hx => i8 x (by simp only [List.mem_append, List.mem_cons] at hx ⊢; tauto)
    have k11 : a < s.fresh := i8 a (by simp)
    have k12 : dataAt h' a ∈ refused s.log → n'.data ∈ refused s.log := by rw [dataAt_some e4]; exact id
    clear k3 i8 i16
    obtain ⟨e3a, e3b⟩ := e3
    constructor <;> logs <;> grind
  · have it := told_links it e3
    obtain ⟨j1, j2, j3⟩ := it
    constructor <;> logs <;> grind
  · obtain ⟨c1, c2, c3, c4, c5, c6, c7, c8, c9, c10, c11, c12⟩ := ic
    constructor <;> logs <;> grind

theorem main_inv {s : St} {pend q : List Nat} (inv : Inv s pend q) (b : Bool) : ∃ s' p' q', mainStep s b = .ok s' ∧ Inv s' p' q' := by
  cases hm : s.m with
  | idle => exact ⟨s, pend, q, by unfold mainStep; rw [hm], inv⟩
  | enq a => obtain ⟨s', h⟩ := main_enq inv hm b; exact ⟨s', _, _, h⟩
  | submit a => obtain ⟨s', h⟩ := main_submit inv hm b; exact ⟨s', _, _, h⟩
  | fail a => obtain ⟨s', p', h⟩ := main_fail inv hm b; exact ⟨s', _, _, h⟩
  | ret a => obtain ⟨s', h⟩ := main_ret inv hm b; exact ⟨s', _, _, h⟩
  | exit => obtain ⟨s', h⟩ := main_exit inv hm b; exact ⟨s', _, _, h⟩
  | deq => obtain ⟨s', h⟩ := main_deq inv hm b; exact ⟨s', _, _, h⟩
  | call a => obtain ⟨s', h⟩ := main_call inv hm b; exact ⟨s', _, _, h⟩
  | join => obtain ⟨s', h⟩ := main_join inv hm b; exact ⟨s', _, _, h⟩
  | reset => obtain ⟨s', h⟩ := main_reset inv hm b; exact ⟨s', _, _, h⟩
  | drain c =>
    cases c with
    | none => obtain ⟨s', h⟩ := main_drain_nil inv hm b; exact ⟨s', _, _, h⟩
    | some a => obtain ⟨s', h⟩ := main_drain_cons inv hm b; exact ⟨s', _, _, h⟩

/-! ### Calls -/

theorem host_inv {s : St} {pend q : List Nat} (inv : Inv s pend q) (hm : s.m = .idle) {c : Host} (hl : Legal s c) :
    ∃ s', hostStep s c = .ok s' ∧ Inv s' pend q := by
  have hal : s.alive = true := by cases c <;> simp only [Legal] at hl <;> grind
  unfold hostStep
  rw [if_neg (by simp [hal])]
  cases c with
  | resolve d =>
    dsimp only
    by_cases h1 : (s.exit || !s.ub) = true
    · rw [if_pos h1]
      obtain ⟨im, it, ic⟩ := inv
      refine ⟨_, rfl, ?_, ?_, ?_⟩
      · obtain ⟨i1, i2, i3, i4, i5, i6, i7, i8, i9, i10, i11, i12, i13, i14, i15, i16⟩ := im
        constructor <;> logs <;> grind
      · obtain ⟨j1, j2, j3⟩ := it
        constructor <;> logs <;> grind
      · obtain ⟨c1, c2, c3, c4, c5, c6, c7, c8, c9, c10, c11, c12⟩ := ic
        constructor <;> logs <;> grind
    · rw [if_neg h1]
      obtain ⟨im, it, ic⟩ := inv
      refine ⟨_, rfl, ?_, ?_, ?_⟩
      · obtain ⟨i1, i2, i3, i4, i5, i6, i7, i8, i9, i10, i11, i12, i13, i14, i15, i16⟩ := im
        have k1 : Holds (upd s.heap s.fresh (some ⟨none, none, d, 0, none⟩)) s.pending pend :=
          holds_frame i1 fun x hx => upd_ne _ _ (by have := i8 x hx; omega)
        have k2 : Holds (upd s.heap s.fresh (some ⟨none, none, d, 0, none⟩)) s.queue q :=
          holds_frame (i2 (by rw [hm]; rfl) hal) fun x hx => upd_ne _ _ (by have := i9 x hx; omega)
        have k3 : ∀ x, x ≠ s.fresh → upd s.heap s.fresh (some ⟨none, none, d, 0, none⟩) x = s.heap x := fun x hx => upd_ne _ _ hx
        have k4 : upd s.heap s.fresh (some ⟨none, none, d, 0, none⟩) s.fresh = some ⟨none, none, d, 0, none⟩ := upd_same _ _ _
        constructor <;> grind
      · have e0 : ∀ x, x ≠ s.fresh → bodyAt (upd s.heap s.fresh (some ⟨none, none, d, 0, none⟩)) x = bodyAt s.heap x := fun x hx => by
          unfold bodyAt body; rw [upd_ne _ _ hx]
        have e1 : (q ++ wRm s.w ++ wHeld s.w).map (bodyAt (upd s.heap s.fresh (some ⟨none, none, d, 0, none⟩))) = (q ++ wRm s.w ++ wHeld s.w).map (bodyAt s.heap) := by
          have := im.outs
          have := im.fw
          have := im.fq
          have := im.fp
          refine List.map_congr_left fun x hx => e0 x ?_
          grind
        have e2 : s.out.map (dataAt (upd s.heap s.fresh (some ⟨none, none, d, 0, none⟩))) = s.out.map (dataAt s.heap) := by
          have := im.outs
          have := im.fp
          refine List.map_congr_left fun x hx => ?_
          unfold dataAt
          have := im.fp x (im.out_mem hx)
          rw [e0 x (by omega)]
        obtain ⟨j1, j2, j3⟩ := it
        constructor
        · dsimp only; rw [j1, hm]; simp only [mCall, List.nil_append]; rw [e1]
        · dsimp only; rw [e2]; exact j2
        · dsimp only; rw [j3, hm]; rfl
      · obtain ⟨c1, c2, c3, c4, c5, c6, c7, c8, c9, c10, c11, c12⟩ := ic
        constructor <;> grind
  | opn ok =>
    have hub : s.ub = false := hl.2
    have hex : s.exit = false := by
      have := inv.ctl.exitUb
      grind
    dsimp only
    rw [if_neg (by simp [hub, hex])]
    obtain ⟨im, it, ic⟩ := inv
    cases ok with
    | true =>
      refine ⟨_, rfl, ?_, ?_, ?_⟩
      · have := ic.open_
        obtain ⟨i1, i2, i3, i4, i5, i6, i7, i8, i9, i10, i11, i12, i13, i14, i15, i16⟩ := im
        constructor <;> logs <;> grind
      · have := ic.open_
        obtain ⟨j1, j2, j3⟩ := it
        constructor <;> logs <;> grind
      · obtain ⟨c1, c2, c3, c4, c5, c6, c7, c8, c9, c10, c11, c12⟩ := ic
        constructor <;> logs <;> grind
    | false =>
      refine ⟨_, rfl, ?_, ?_, ?_⟩
      · obtain ⟨i1, i2, i3, i4, i5, i6, i7, i8, i9, i10, i11, i12, i13, i14, i15, i16⟩ := im
        constructor <;> logs <;> grind
      · obtain ⟨j1, j2, j3⟩ := it
        constructor <;> logs <;> grind
      · obtain ⟨c1, c2, c3, c4, c5, c6, c7, c8, c9, c10, c11, c12⟩ := ic
        constructor <;> logs <;> grind
  | close =>
    have hub : s.ub = true := hl.2
    dsimp only
    by_cases hex : s.exit = true
    · rw [if_pos hex]; exact ⟨s, rfl, inv⟩
    · rw [if_neg hex, if_pos hub]
      obtain ⟨im, it, ic⟩ := inv
      refine ⟨_, rfl, ?_, ?_, ?_⟩
      · obtain ⟨i1, i2, i3, i4, i5, i6, i7, i8, i9, i10, i11, i12, i13, i14, i15, i16⟩ := im
        constructor <;> grind
      · obtain ⟨j1, j2, j3⟩ := it
        constructor <;> grind
      · obtain ⟨c1, c2, c3, c4, c5, c6, c7, c8, c9, c10, c11, c12⟩ := ic
        constructor <;> grind
  | free =>
    have hub : s.ub = false := hl.2
    have hex : s.exit = false := by
      have := inv.ctl.exitUb
      grind
    have hw : s.w = .none := by
      have := inv.ctl.open_
      grind
    have hp : pend = [] := inv.ctl.nopend (Or.inl hw)
    have h1 : s.pending.head = none := by rw [inv.mem.hp.head, hp]; rfl
    dsimp only
    rw [if_neg (by simp [hub, hex]), if_neg (by simp [h1])]
    obtain ⟨im, it, ic⟩ := inv
    refine ⟨_, rfl, ?_, ?_, ?_⟩
    · obtain ⟨i1, i2, i3, i4, i5, i6, i7, i8, i9, i10, i11, i12, i13, i14, i15, i16⟩ := im
      have k := i2 (by rw [hm]; rfl) hal
      have k1 := k.head
      have k2 := k.chain
      constructor <;> grind
    · obtain ⟨j1, j2, j3⟩ := it
      constructor <;> grind
    · obtain ⟨c1, c2, c3, c4, c5, c6, c7, c8, c9, c10, c11, c12⟩ := ic
      constructor <;> grind

/-! ### The worker's thread -/

theorem worker_rm {s : St} {pend q : List Nat} {a : Nat} (inv : Inv s pend q) (hw : s.w = .rm a) :
    ∃ s' p', workerStep s = .ok s' ∧ Inv s' p' q := by
  obtain ⟨im, it, ic⟩ := inv
  have hal : s.alive = true := by
    have := ic.dead; have := ic.open_; grind
  have hap : a ∈ pend := by
    have := im.outs
    rw [hw] at this
    grind
  have hdr : isDrain s.m = false := by
    have := ic.drain; grind
  have hdr' : ∀ c, s.m ≠ .drain c := by
    intro c hc; rw [hc] at hdr; cases hdr
  obtain ⟨xs, ys, hxy⟩ := List.append_of_mem hap
  subst hxy
  obtain ⟨h', q', e1, e2, e3, n', e4, e5, e6⟩ := remove_spec im.hp
  have hnd := im.hp.nodup
  unfold workerStep
  rw [hw]; dsimp only
  rw [if_neg (by simp [hal]), e1]
  refine ⟨_, xs ++ ys, rfl, ?_, ?_, ?_⟩
  · obtain ⟨i1, i2, i3, i4, i5, i6, i7, i8, i9, i10, i11, i12, i13, i14, i15, i16⟩ := im
    have k := @live_links _ _ _ e3
    have k2 := @holds_frame s.heap h' s.queue q
    have k3 := dataAt_links e3
    have k9 : ∀ x, s.m = .fail x → dataAt h' x ∈ refused s.log := fun x hx => by rw [k3]; exact i16 x hx
    have k10 : ∀ x ∈ xs ++ ys, x < s.fresh := fun x hx => i8 x (by simp only [List.mem_append, List.mem_cons] at hx ⊢; tauto)
    have k11 : a < s.fresh := i8 a (by simp)
    have k12 : dataAt h' a ∈ refused s.log → n'.data ∈ refused s.log := by rw [dataAt_some e4]; exact id
    clear k3 i8 i16
    obtain ⟨e3a, e3b⟩ := e3
    constructor <;> grind
  · have it := told_links it e3
    obtain ⟨j1, j2, j3⟩ := it
    constructor <;> grind
  · obtain ⟨c1, c2, c3, c4, c5, c6, c7, c8, c9, c10, c11, c12⟩ := ic
    constructor <;> grind

theorem worker_enq {s : St} {pend q : List Nat} {a : Nat} (inv : Inv s pend q) (hw : s.w = .enq a) :
    ∃ s', workerStep s = .ok s' ∧ Inv s' pend (q ++ [a]) := by
  obtain ⟨im, it, ic⟩ := inv
  have hal : s.alive = true := by
    have := ic.dead; have := ic.open_; grind
  have hdr : isDrain s.m = false := by
    have := ic.drain; grind
  obtain ⟨n, hn, h1, h2⟩ := im.held a (by simp [hw, wHeld])
  have := im.dw a (by simp [hw, wHeld])
  obtain ⟨h', q', e1, e2, e3⟩ := enqueue_spec (im.hq hdr hal) this.2 hn h1 h2
  unfold workerStep
  rw [hw]; dsimp only
  rw [if_neg (by simp [hal]), e1]
  refine ⟨_, rfl, ?_, ?_, ?_⟩
  · obtain ⟨i1, i2, i3, i4, i5, i6, i7, i8, i9, i10, i11, i12, i13, i14, i15, i16⟩ := im
    have k := @live_links _ _ _ e3
    have k2 := @holds_frame s.heap h' s.pending pend
    have k3 := dataAt_links e3
    have k9 : ∀ x, s.m = .fail x → dataAt h' x ∈ refused s.log := fun x hx => by rw [k3]; exact i16 x hx
    have k4 := e2.nodup
    obtain ⟨e3a, e3b⟩ := e3
    constructor <;> grind
  · have it := told_links it e3
    obtain ⟨j1, j2, j3⟩ := it
    constructor <;> grind
  · obtain ⟨c1, c2, c3, c4, c5, c6, c7, c8, c9, c10, c11, c12⟩ := ic
    constructor <;> grind

theorem worker_same {s : St} {pend q : List Nat} (inv : Inv s pend q) (n1 : ∀ a, s.w ≠ .rm a) (n2 : ∀ a, s.w ≠ .enq a) :
    ∃ s', Inv s' pend q ∧ workerStep s = .ok s' := by
  have same : ∀ s', workerStep s = .ok s' → Mem s' pend q → Told s' q → Ctl s' pend q → ∃ s', Inv s' pend q ∧ workerStep s = .ok s' :=
    fun s' h1 h2 h3 h4 => ⟨s', ⟨h2, h3, h4⟩, h1⟩
  have hal : s.w ≠ .none → s.alive = true := by
    have := inv.ctl.dead; have := inv.ctl.open_; grind
  cases hw : s.w with
  | none => exact ⟨s, inv, by unfold workerStep; rw [hw]⟩
  | done => exact ⟨s, inv, by unfold workerStep; rw [hw]⟩
  | asleep => exact ⟨s, inv, by unfold workerStep; rw [hw]⟩
  | rm a => exact absurd hw (n1 a)
  | enq a => exact absurd hw (n2 a)
  | leaving =>
    obtain ⟨im, it, ic⟩ := inv
    refine same { s with w := .done } (by unfold workerStep; rw [hw]) ?_ ?_ ?_
    · obtain ⟨i1, i2, i3, i4, i5, i6, i7, i8, i9, i10, i11, i12, i13, i14, i15, i16⟩ := im
      constructor <;> grind
    · obtain ⟨j1, j2, j3⟩ := it
      constructor <;> grind
    · obtain ⟨c1, c2, c3, c4, c5, c6, c7, c8, c9, c10, c11, c12⟩ := ic
      constructor <;> grind
  | waiting =>
    obtain ⟨im, it, ic⟩ := inv
    refine same { s with w := .check } (by unfold workerStep; rw [hw]) ?_ ?_ ?_
    · obtain ⟨i1, i2, i3, i4, i5, i6, i7, i8, i9, i10, i11, i12, i13, i14, i15, i16⟩ := im
      constructor <;> grind
    · obtain ⟨j1, j2, j3⟩ := it
      constructor <;> grind
    · obtain ⟨c1, c2, c3, c4, c5, c6, c7, c8, c9, c10, c11, c12⟩ := ic
      constructor <;> grind
  | send =>
    have hal := hal (by rw [hw]; simp)
    obtain ⟨im, it, ic⟩ := inv
    refine same { s with rsSig := true, w := .waiting } (by unfold workerStep; rw [hw]; simp [hal]) ?_ ?_ ?_
    · obtain ⟨i1, i2, i3, i4, i5, i6, i7, i8, i9, i10, i11, i12, i13, i14, i15, i16⟩ := im
      constructor <;> grind
    · obtain ⟨j1, j2, j3⟩ := it
      constructor <;> grind
    · obtain ⟨c1, c2, c3, c4, c5, c6, c7, c8, c9, c10, c11, c12⟩ := ic
      constructor <;> grind
  | quit =>
    have hal := hal (by rw [hw]; simp)
    obtain ⟨im, it, ic⟩ := inv
    refine same { s with quitSig := true, w := .leaving } (by unfold workerStep; rw [hw]; simp [hal]) ?_ ?_ ?_
    · obtain ⟨i1, i2, i3, i4, i5, i6, i7, i8, i9, i10, i11, i12, i13, i14, i15, i16⟩ := im
      constructor <;> grind
    · obtain ⟨j1, j2, j3⟩ := it
      constructor <;> grind
    · obtain ⟨c1, c2, c3, c4, c5, c6, c7, c8, c9, c10, c11, c12⟩ := ic
      constructor <;> grind
  | check =>
    have hal := hal (by rw [hw]; simp)
    obtain ⟨im, it, ic⟩ := inv
    have hub : s.ub = true := ic.open_.2 (Or.inl (by rw [hw]; simp))
    have hh := im.hp.head
    by_cases hp : pend = []
    · have hh : s.pending.head = none := by rw [hh, hp]; rfl
      by_cases hex : s.exit = true
      · refine same { s with w := .quit } (by unfold workerStep; rw [hw]; simp [hal, hh, hex]) ?_ ?_ ?_
        · clear ic hh hp hex
          obtain ⟨i1, i2, i3, i4, i5, i6, i7, i8, i9, i10, i11, i12, i13, i14, i15, i16⟩ := im
          constructor <;> grind
        · obtain ⟨j1, j2, j3⟩ := it
          constructor <;> grind
        · obtain ⟨c1, c2, c3, c4, c5, c6, c7, c8, c9, c10, c11, c12⟩ := ic
          constructor <;> grind
      · refine same { s with w := .asleep } (by unfold workerStep; rw [hw]; simp [hal, hh, hex]) ?_ ?_ ?_
        · clear ic hh hp hex
          obtain ⟨i1, i2, i3, i4, i5, i6, i7, i8, i9, i10, i11, i12, i13, i14, i15, i16⟩ := im
          constructor <;> grind
        · obtain ⟨j1, j2, j3⟩ := it
          constructor <;> grind
        · obtain ⟨c1, c2, c3, c4, c5, c6, c7, c8, c9, c10, c11, c12⟩ := ic
          constructor <;> grind
    · have hh : s.pending.head.isSome = true := by
        rw [hh]; cases pend with
        | nil => exact absurd rfl hp
        | cons a l => rfl
      refine same { s with w := .waiting } (by unfold workerStep; rw [hw]; simp [hal, hh, hub]) ?_ ?_ ?_
      · obtain ⟨i1, i2, i3, i4, i5, i6, i7, i8, i9, i10, i11, i12, i13, i14, i15, i16⟩ := im
        constructor <;> grind
      · obtain ⟨j1, j2, j3⟩ := it
        constructor <;> grind
      · obtain ⟨c1, c2, c3, c4, c5, c6, c7, c8, c9, c10, c11, c12⟩ := ic
        constructor <;> grind

theorem worker_inv {s : St} {pend q : List Nat} (inv : Inv s pend q) : ∃ s' p' q', workerStep s = .ok s' ∧ Inv s' p' q' := by
  by_cases h1 : ∃ a, s.w = .rm a
  · obtain ⟨a, hw⟩ := h1
    obtain ⟨s', p', h⟩ := worker_rm inv hw; exact ⟨s', _, _, h⟩
  by_cases h2 : ∃ a, s.w = .enq a
  · obtain ⟨a, hw⟩ := h2
    obtain ⟨s', h⟩ := worker_enq inv hw; exact ⟨s', _, _, h⟩
  obtain ⟨s', i, e⟩ := worker_same inv (fun a h => h1 ⟨a, h⟩) (fun a h => h2 ⟨a, h⟩)
  exact ⟨s', _, _, e, i⟩

theorem answer_inv {s : St} {pend q : List Nat} (inv : Inv s pend q) {a : Nat} (hw : s.w = .waiting) (ha : a ∈ s.out) (st : Int) (r : Option Nat) :
    ∃ s', step s (.answer a st r) = .ok s' ∧ Inv s' pend q := by
  obtain ⟨im, it, ic⟩ := inv
  have hap : a ∈ pend := by
    have := im.outs
    grind
  obtain ⟨n, hn⟩ := chain_mem im.hp.chain hap
  unfold step
  dsimp only
  rw [if_pos ⟨hw, ha⟩, hn]
  have hd0 := dataAt_set (n' := { n with status := st, result := r }) hn rfl
  have hda := dataAt_some hn
  have hout : s.out.Nodup := by
    have := im.outs.nodup_iff.1 im.hp.nodup
    exact (List.nodup_append.1 this).1
  refine ⟨_, rfl, ?_, ?_, ?_⟩
  · obtain ⟨i1, i2, i3, i4, i5, i6, i7, i8, i9, i10, i11, i12, i13, i14, i15, i16⟩ := im
    have k1 : Holds (upd s.heap a (some { n with status := st, result := r })) s.pending pend :=
      ⟨chain_data hn rfl rfl i1.chain, i1.nodup, i1.head, i1.tail⟩
    have k2 : ∀ x, x ≠ a → upd s.heap a (some { n with status := st, result := r }) x = s.heap x := fun x hx => upd_ne _ _ hx
    have k3 : upd s.heap a (some { n with status := st, result := r }) a = some { n with status := st, result := r } := upd_same _ _ _
    have k5 := @holds_frame s.heap (upd s.heap a (some { n with status := st, result := r })) s.queue q
    have k6 := @chain_frame s.heap (upd s.heap a (some { n with status := st, result := r })) q
    have k7 := List.perm_cons_erase ha
    rw [← hd0] at i16
    constructor <;> logs <;> grind
  · have k8 : (mCall s.m ++ q ++ wHeld s.w).map (bodyAt (upd s.heap a (some { n with status := st, result := r }))) = (mCall s.m ++ q ++ wHeld s.w).map (bodyAt s.heap) := by
      refine List.map_congr_left fun x hx => ?_
      have : x ≠ a := by
        have := im.dq
        have := im.dm
        have := im.dw
        have hm : ∀ y ∈ mCall s.m, y ∈ mHeld s.m := by intro y; cases s.m <;> simp [mCall, mHeld]
        grind
      unfold bodyAt body
      rw [upd_ne _ _ this]
    have k9 : bodyAt (upd s.heap a (some { n with status := st, result := r })) a = (n.data, st, r) := bodyAt_some (upd_same _ _ _)
    have k7 := (List.perm_cons_erase ha).map (dataAt s.heap)
    rw [List.map_cons, hda] at k7
    obtain ⟨j1, j2, j3⟩ := it
    rw [hw] at j1 k8
    simp only [wRm, wHeld, List.append_nil] at j1 k8
    constructor <;> logs
    · simp only [wRm, wHeld, List.append_nil, List.map_append, List.map_cons, List.map_nil, k9]
      rw [← List.map_append, k8, j1, List.append_assoc]
    · rw [hd0, List.map_append]
      refine j2.trans ((List.Perm.append_left _ k7).trans ?_)
      simp only [List.map_cons, List.map_nil]
      grind
    · rw [hd0]; exact j3
  · obtain ⟨c1, c2, c3, c4, c5, c6, c7, c8, c9, c10, c11, c12⟩ := ic
    constructor <;> logs <;> grind

/-- Every step that is legal is defined and keeps the invariant. -/
theorem step_inv {s : St} {pend q : List Nat} (inv : Inv s pend q) {c : Choice} (hl : LegalC s c) :
    ∃ s' p' q', step s c = .ok s' ∧ Inv s' p' q' := by
  cases c with
  | host c =>
    unfold step; dsimp only
    by_cases hm : s.m = .idle
    · rw [if_pos hm]
      obtain ⟨s', h⟩ := host_inv inv hm (hl c rfl hm)
      exact ⟨s', _, _, h⟩
    · rw [if_neg hm]; exact ⟨s, _, _, rfl, inv⟩
  | main b => exact main_inv inv b
  | worker => exact worker_inv inv
  | dispatch =>
    unfold step; dsimp only
    by_cases h : s.m = .idle ∧ s.rsSig = true
    · rw [if_pos h]
      obtain ⟨im, it, ic⟩ := inv
      cases hal : s.alive with
      | true =>
        refine ⟨_, pend, q, rfl, ?_, ?_, ?_⟩
        · obtain ⟨i1, i2, i3, i4, i5, i6, i7, i8, i9, i10, i11, i12, i13, i14, i15, i16⟩ := im
          constructor <;> grind
        · obtain ⟨j1, j2, j3⟩ := it
          constructor <;> grind
        · obtain ⟨c1, c2, c3, c4, c5, c6, c7, c8, c9, c10, c11, c12⟩ := ic
          constructor <;> grind
      | false =>
        refine ⟨_, pend, q, rfl, ?_, ?_, ?_⟩
        · obtain ⟨i1, i2, i3, i4, i5, i6, i7, i8, i9, i10, i11, i12, i13, i14, i15, i16⟩ := im
          constructor <;> grind
        · obtain ⟨j1, j2, j3⟩ := it
          constructor <;> grind
        · obtain ⟨c1, c2, c3, c4, c5, c6, c7, c8, c9, c10, c11, c12⟩ := ic
          constructor <;> grind
    · rw [if_neg h]; exact ⟨s, _, _, rfl, inv⟩
  | dispatchQuit =>
    unfold step; dsimp only
    by_cases h : s.m = .idle ∧ s.quitSig = true
    · rw [if_pos h]
      obtain ⟨im, it, ic⟩ := inv
      have hal : s.alive = true := by
        have := ic.dead; have := ic.open_; have := ic.qs
        cases hw : s.w <;> grind
      rw [if_pos hal]
      refine ⟨_, pend, q, rfl, ?_, ?_, ?_⟩
      · obtain ⟨i1, i2, i3, i4, i5, i6, i7, i8, i9, i10, i11, i12, i13, i14, i15, i16⟩ := im
        constructor <;> grind
      · obtain ⟨j1, j2, j3⟩ := it
        constructor <;> grind
      · obtain ⟨c1, c2, c3, c4, c5, c6, c7, c8, c9, c10, c11, c12⟩ := ic
        constructor <;> grind
    · rw [if_neg h]; exact ⟨s, _, _, rfl, inv⟩
  | wake =>
    unfold step; dsimp only
    by_cases h : s.w = .asleep
    · rw [if_pos h]
      obtain ⟨im, it, ic⟩ := inv
      refine ⟨_, pend, q, rfl, ?_, ?_, ?_⟩
      · obtain ⟨i1, i2, i3, i4, i5, i6, i7, i8, i9, i10, i11, i12, i13, i14, i15, i16⟩ := im
        constructor <;> grind
      · obtain ⟨j1, j2, j3⟩ := it
        constructor <;> grind
      · obtain ⟨c1, c2, c3, c4, c5, c6, c7, c8, c9, c10, c11, c12⟩ := ic
        constructor <;> grind
    · rw [if_neg h]; exact ⟨s, _, _, rfl, inv⟩
  | answer a st r =>
    by_cases h : s.w = .waiting ∧ a ∈ s.out
    · obtain ⟨s', k⟩ := answer_inv inv h.1 h.2 st r; exact ⟨s', _, _, k⟩
    · refine ⟨s, pend, q, ?_, inv⟩
      unfold step; dsimp only
      rw [if_neg h]

theorem reach_inv {s : St} (h : Reach s) : ∃ pend q, Inv s pend q := by
  induction h with
  | start => exact ⟨[], [], inv_start⟩
  | step _ hl hs ih =>
    obtain ⟨p, q, i⟩ := ih
    obtain ⟨s', p', q', h1, h2⟩ := step_inv i hl
    rw [hs] at h1
    cases Out.ok.inj h1
    exact ⟨p', q', h2⟩

end Verif.RsWorker
