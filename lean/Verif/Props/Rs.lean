import Verif.Lemmas.Rs
import Verif.Lemmas.Eval
import Verif.Props.RsWorker
/-
C62: what recursive clients are told.
-/
namespace Verif.Props.Rs
open Verif.Rs Verif.Dns Verif.Req Verif.Resource
open Verif.Spec.DnsName Verif.Spec.Dns Verif.Spec.Req Verif.Spec.Ns Verif.Spec.Rs Verif.Spec.RsWorker
open Verif.Ns (servfail_answer)

/-- What is not a query is not answered. -/
theorem C62_dropped (S : Server) (now : Int) (accepts : Bool) (b : Bytes) (h : ∀ m q ls, Dns.decode b = .ok m → ¬ Query m q ls) :
    onrecv S now accepts b = .ok .nothing := by
  unfold onrecv
  rw [Props.Req.C28_drops b h]

/-- A query is put to the library as it came: its name, type and class; and nothing is sent yet.
Queries of type ANY get the answer that this is not implemented, and those the worker does not
take that the server failed. -/
theorem C62_asks (S : Server) (hk : S.key = none) (now : Int) (accepts : Bool) (b : Bytes) (d : Msg) (q : Qs) (ls : List Bytes) (hd : Dns.decode b = .ok d)
    (hq : Query d q ls) :
    ∃ r act, Asks d q ls r ∧ onrecv S now accepts b = .ok act ∧
      (q.type ≠ 255 → accepts = true → act = .ask (text ls) q.type q.cls) ∧
      (q.type ≠ 255 → accepts = false → ∃ w, act = .send w ∧ Carries r toServfail w) ∧
      (q.type = 255 → ∃ w, act = .send w ∧ Carries r toNotimp w) := by
  have ha : ∃ r, Asks d q ls r := ⟨⟨d.id, ls.length, q.name, q.type, q.cls, d.flags.testBit 8, d.flags.testBit 4, d.flags.testBit 5, d.edns.enabled, clientSize d.edns,
    d.edns.flags.testBit 15, Verif.Label.lowered (ls.getLast?.getD [])⟩, rfl, rfl, rfl, rfl, rfl, rfl, rfl, rfl, rfl, rfl, rfl, lowered_toNat _⟩
  obtain ⟨r, ha⟩ := ha
  have hc : create b = .ok r := create_ok.2 ⟨d, q, ls, hd, hq, ha⟩
  have hok := create_reqOk hc
  refine ⟨r, ?_⟩
  unfold onrecv
  rw [hc]
  dsimp only
  by_cases ht : r.type = 255
  · rw [if_pos ht]
    obtain ⟨w, h1, h2⟩ := once_ok hk now hok notimp_answer
    rw [h1]
    rw [ha.type] at ht
    exact ⟨_, ha, rfl, fun h => absurd ht h, fun h => absurd ht h, fun _ => ⟨w, rfl, h2⟩⟩
  · rw [if_neg ht]
    have ht' := ht
    rw [ha.type] at ht'
    cases accepts with
    | true =>
      refine ⟨_, ha, rfl, fun _ _ => ?_, (fun _ h => by cases h), fun h => absurd h ht'⟩
      rw [ha.name, ha.type, ha.cls, hq.name]
    | false =>
      obtain ⟨w, h1, h2⟩ := once_ok hk now hok servfail_answer
      rw [h1]
      exact ⟨_, ha, rfl, (fun _ h => by cases h), fun _ _ => ⟨w, rfl, h2⟩, fun h => absurd h ht'⟩

/-- A result of the library is answered with one packet: that the server failed if the library
did, or if its packet cannot be read; and else with its code and records. -/
theorem C62_answers (S : Server) (hk : S.key = none) (now : Int) (b : Bytes) (r : Req) (hc : create b = .ok r) (status : Int) (x : Result) :
    ∃ w, afterResolve S now r status (some x) = .ok (some w) ∧
      (status ≠ 0 → Carries r toServfail w) ∧
      (Dns.decode x.packet = .err () → Carries r toServfail w) ∧
      (status = 0 → ∀ m, Dns.decode x.packet = .ok m → ∃ n, Passes m x r n ∧ Delivered S.H now r n w) := by
  have hok := create_reqOk hc
  obtain ⟨w0, h1, h2⟩ := once_ok hk now hok servfail_answer
  by_cases hs : status = 0
  · subst hs
    cases hd : Dns.decode x.packet with
    | ok m =>
      obtain ⟨w, h3, h4⟩ := respond_ok hk now hok hd
      exact ⟨w, h3, (fun h => absurd rfl h), (fun h => by cases h), fun _ m' hm => by
        cases Out.ok.inj hm; exact ⟨_, cleaned_passes _ _ _, h4⟩⟩
    | err e =>
      refine ⟨w0, ?_, fun _ => h2, fun _ => h2, fun _ m hm => by cases hm⟩
      show respond S now r 0 x = _
      unfold Verif.Rs.respond
      rw [if_neg (by simp), hd]
      exact h1
    | ub => exact absurd hd (decode_ne_ub _)
  · refine ⟨w0, ?_, fun _ => h2, fun _ => h2, fun h => absurd h hs⟩
    show respond S now r status x = _
    unfold Verif.Rs.respond
    rw [if_pos hs]
    exact h1

/-- No packet of the server is marked as validated, with or without a key, unless the library
has validated the answer and the client wants to know. -/
theorem C62_authentic (S : Server) (now : Int) (r : Req) (status : Int) (x : Result) (w : Bytes) (h : afterResolve S now r status (some x) = .ok (some w))
    (hw : SaysAuthentic w) : status = 0 ∧ x.secure = true ∧ x.bogus = false ∧ (r.dnssec = true ∨ r.ad = true) := by
  have hfail : ∀ w, once S now r toServfail = .ok (some w) → ¬ SaysAuthentic w := fun w h hw => by
    unfold once at h
    cases hf : finalize S.H S.key now toServfail r with
    | ok v =>
      rw [hf] at h
      cases Out.ok.inj h
      have := (finalize_authentic hf).1 hw
      revert this
      decide
    | err e => rw [hf] at h; cases Out.ok.inj h
    | ub => rw [hf] at h; cases h
  change respond S now r status x = .ok (some w) at h
  unfold Verif.Rs.respond at h
  by_cases hs : status = 0
  · rw [if_neg (by simpa using hs)] at h
    refine ⟨hs, ?_⟩
    cases hd : Dns.decode x.packet with
    | ok m =>
      rw [hd] at h
      dsimp only at h
      cases hf : finalize S.H S.key now (cleaned m x r) r with
      | ok v =>
        rw [hf] at h
        cases Out.ok.inj h
        exact (cleaned_passes m x r).ad.1 ((finalize_authentic hf).1 hw)
      | err e => rw [hf] at h; exact absurd hw (hfail w h)
      | ub => rw [hf] at h; cases h
    | err e => rw [hd] at h; exact absurd hw (hfail w h)
    | ub => rw [hd] at h; cases h
  · rw [if_pos hs] at h
    exact absurd hw (hfail w h)

/-- And the answers of which this is so are marked. -/
theorem C62_marked (S : Server) (hk : S.key = none) (now : Int) (b : Bytes) (r : Req) (hc : create b = .ok r) (x : Result) (m : Msg)
    (hm : Dns.decode x.packet = .ok m) (ha : Answer (cleaned m x r)) (h1 : x.secure = true) (h2 : x.bogus = false) (h3 : r.dnssec = true ∨ r.ad = true) :
    ∃ w, afterResolve S now r 0 (some x) = .ok (some w) ∧ SaysAuthentic w := by
  obtain ⟨n, b', w, s, -, -, e2, -⟩ := finalize_none (H := S.H) (now := now) ha (create_reqOk hc)
  refine ⟨w, ?_, (finalize_authentic e2).2 ((cleaned_passes m x r).ad.2 ⟨h1, h2, h3⟩)⟩
  show respond S now r 0 x = _
  unfold Verif.Rs.respond
  rw [if_neg (by simp), hm]
  dsimp only
  rw [hk, e2]

theorem countP_calls (d : Nat) (log : List RsWorker.Ev) :
    log.countP (isAnswered d) + (accepted log).count d = log.countP (isRet d) + ((calls log).map (·.1)).count d := by
  induction log with
  | nil => rfl
  | cons e l ih =>
    unfold accepted calls at *
    cases e with
    | ret a ok =>
      cases ok with
      | true =>
        simp only [List.countP_cons, isAnswered, isRet, List.filterMap_cons, List.count_cons]
        by_cases h : a = d <;> simp [h] <;> omega
      | false =>
        simp only [List.countP_cons, isAnswered, isRet, List.filterMap_cons]
        by_cases h : a = d <;> simp [h] <;> omega
    | call a st x =>
      simp only [List.countP_cons, isAnswered, isRet, List.filterMap_cons, List.map_cons, List.count_cons]
      by_cases h : a = d <;> simp [h] <;> omega
    | _ =>
      simp only [List.countP_cons, isAnswered, isRet, List.filterMap_cons]
      simpa using ih

/-- Exactly one packet for every query, through the worker's two threads: when the worker has
come to rest, under any interleaving, there are as many occasions to send a packet for a request
as it was submitted; and on each one is sent, if the library had a result. Missing: results of
the library that are errors come without one, and then nothing is sent (`C62_silent_false`). -/
theorem C62_one_partial (S : Server) (hk : S.key = none) (reqs : Nat → Req) (hreqs : ∀ d, ∃ b, create b = .ok (reqs d)) (results : Nat → Result)
    (s : RsWorker.St) (hr : Reach s) (hs : Settled s) (d : Nat) :
    s.log.countP (isAnswered d) = s.log.countP (isRet d) ∧
    ∀ e ∈ s.log, isAnswered d e = true → (∀ st, e ≠ .call d st none) → ∀ now, ∃ w, packetFor S now reqs results e = some (.ok (some w)) := by
  refine ⟨?_, ?_⟩
  · have h1 := countP_calls d s.log
    have h2 := (RsWorker.C44_settled s hr hs).1.count_eq d
    omega
  · intro e _ he hn now
    cases e with
    | ret a ok =>
      cases ok with
      | true => cases he
      | false =>
        obtain ⟨b, hb⟩ := hreqs a
        obtain ⟨w, h, -⟩ := once_ok hk now (create_reqOk hb) servfail_answer
        exact ⟨w, by unfold packetFor; dsimp only; rw [h]⟩
    | call a st x =>
      have ha : a = d := by simpa [isAnswered] using he
      subst ha
      cases x with
      | none => exact absurd rfl (hn st)
      | some x =>
        obtain ⟨b, hb⟩ := hreqs a
        obtain ⟨w, h, -⟩ := C62_answers S hk now b _ hb st (results x)
        exact ⟨w, by unfold packetFor; dsimp only [Option.map_some]; rw [h]⟩
    | _ => cases he

/-- A client is told nothing when the library reports an error, as it then has no result. -/
theorem C62_silent_false (S : Server) (now : Int) (r : Req) : afterResolve S now r (-4) none = .ok none := rfl

/-- A query for TXT at "a.". -/
def exReq : Req := Props.Req.exReq 1

/-- A result of the library that has failed validation. -/
def exBogus : Result := ⟨0, false, true, [0, 7, 0x80, 0, 0, 0, 0, 1, 0, 0, 0, 0, 1, 97, 0, 0, 16, 0, 1, 0, 0, 0, 60, 0, 3, 2, 104, 105]⟩

/-- The part of C62 that is false of the code: data that failed validation is handed on to a
client that did not ask for it with the CD bit. -/
theorem C62_bogus_false : ¬ ∀ (S : Server) (now : Int) (b : Bytes) (r : Req) (x : Result) (w : Bytes) (s : Msg), create b = .ok r → r.cd = false → x.bogus = true →
    afterResolve S now r 0 (some x) = .ok (some w) → Dns.decode w = .ok s → s.an = [] := by
  intro h
  have h1 : create (Props.Req.exQuery 1 1 0) = .ok exReq := by decide +kernel
  obtain ⟨w, e, hw⟩ := okWith_spec (r := afterResolve ⟨id, none⟩ 0 exReq 0 (some exBogus))
    (p := fun w : Option Bytes => match w with
      | none => false
      | some w => match Dns.decode w with
        | .ok s => decide (s.an = [⟨[97, 0x2e], 16, 1, 60, some [.txts [[104, 105]]]⟩])
        | _ => false) (by decide +kernel)
  cases w with
  | none => cases hw
  | some w =>
    dsimp only at hw
    cases hd : Dns.decode w with
    | ok s =>
      rw [hd] at hw
      have h2 := of_decide_eq_true hw
      have h3 := h _ _ _ _ _ w s h1 rfl rfl e hd
      rw [h3] at h2
      cases h2
    | err x => rw [hd] at hw; cases hw
    | ub => rw [hd] at hw; cases hw

/-- The same answer, validated, to a client that sets the AD bit: the packet is marked. -/
example : ∃ r w, create (Props.Req.exQuery 1 1 0) = .ok r ∧ afterResolve ⟨id, none⟩ 0 { r with ad := true } 0 (some { exBogus with secure := true, bogus := false }) = .ok (some w) ∧
    SaysAuthentic w := by
  obtain ⟨w, e, hw⟩ := okWith_spec (r := afterResolve ⟨id, none⟩ 0 { exReq with ad := true } 0 (some { exBogus with secure := true, bogus := false }))
    (p := fun w : Option Bytes => match w with
      | none => false
      | some w => (w.getD 3 0).toNat.testBit 5) (by decide +kernel)
  cases w with
  | none => cases hw
  | some w => exact ⟨exReq, w, by decide +kernel, e, hw⟩

/-- A worker at rest after one request taken, one refused by the library and one by the worker,
as the first was still unanswered. -/
example : ∃ s : RsWorker.St, Spec.RsWorker.Reach s ∧ Settled s ∧ s.log.countP (isRet 7) = 1 ∧ s.log.countP (isRet 8) = 1 ∧ s.log.countP (isRet 9) = 1 ∧
    s.log.filter (fun e => isAnswered 7 e) = [.call 7 0 (some 5)] ∧ s.log.filter (fun e => isAnswered 9 e) = [.ret 9 false] := by
  obtain ⟨s, e, hs⟩ := okWith_spec (r := RsWorker.runB RsWorker.start RsWorker.story)
    (p := fun s : RsWorker.St => decide (s.m = .idle ∧ s.quitSig = false ∧ s.rsSig = false ∧ s.w = .none) &&
      decide (s.log.countP (isRet 7) = 1 ∧ s.log.countP (isRet 8) = 1 ∧ s.log.countP (isRet 9) = 1 ∧
    s.log.filter (fun e => isAnswered 7 e) = [.call 7 0 (some 5)] ∧ s.log.filter (fun e => isAnswered 9 e) = [.ret 9 false])) (by decide +kernel)
  simp only [Bool.and_eq_true, decide_eq_true_eq] at hs
  obtain ⟨⟨h1, h2, h3, h4⟩, h5⟩ := hs
  exact ⟨s, RsWorker.runB_reach _ _ _ .start e, ⟨h1, h2, fun _ => h3, .inl h4⟩, h5⟩

end Verif.Props.Rs
