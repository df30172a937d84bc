import Verif.Lemmas.Ns
import Verif.Lemmas.Eval
import Verif.Props.Req
/-
C31: where queries are answered from. C57: addresses in names. C58: what is told about the server.
-/
namespace Verif.Props.Ns
open Verif.Ns Verif.Bio Verif.DnsName Verif.Dns Verif.Label Verif.Req Verif.Dnssec Verif.Resource Verif.Hesiod
open Verif.Spec.DnsName Verif.Spec.Dns Verif.Spec.Req Verif.Spec.Resource Verif.Spec.Ns Verif.Spec.Tld
open Verif.Spec.Cache (GoodQuery)

/-! ### C31: decisions -/

/-- C31: there is one source for every query, and no other. -/
theorem C31_sources (loc : Prop) (cls type : Nat) (ls : List Bytes) : ∃ s, Goes loc cls type ls s ∧ ∀ s', Goes loc cls type ls s' → s' = s := by
  have he : IsSynth ls → ls ≠ [] := fun h => (synth_not_reserved h).1
  by_cases hh : cls = 4 ∧ type = 16
  · by_cases hl : loc
    · exact ⟨.about, .about hh hl, fun s' h => by cases h <;> first | rfl | contradiction⟩
    · exact ⟨.nobody, .nobody hh hl, fun s' h => by cases h <;> first | rfl | contradiction⟩
  by_cases hs : IsSynth ls
  · have := synth_not_reserved hs
    exact ⟨.synth, .synth hh hs, fun s' h => by cases h <;> first | rfl | contradiction | exact absurd (by assumption) this.2 | exact absurd (by assumption) this.1⟩
  by_cases hr : IsReserved ls
  · have := hr.1
    exact ⟨.reserved, .reserved hh hr, fun s' h => by cases h <;> first | rfl | contradiction⟩
  by_cases hn : ls = []
  · exact ⟨.root, .root hh hn, fun s' h => by cases h <;> first | rfl | contradiction⟩
  · exact ⟨.pool, .pool hh hn hs hr, fun s' h => by cases h <;> first | rfl | contradiction⟩

/-- C31: what is not a query is not answered. -/
theorem C31_dropped (S : Server) (I : Info) (ck : Clock) (accepts : Bool) (c : Cache.Cache) (sa : Addr.Sa) (b : Bytes) (h : ∀ m q ls, Dns.decode b = .ok m → ¬ Query m q ls) :
    onrecv S I ck accepts c sa b = .ok (.nothing, c) := by
  unfold onrecv
  rw [Props.Req.C28_drops b h]

theorem for_asks {d : Msg} {q : Qs} {ls : List Bytes} {r : Req} (hq : Query d q ls) (ha : Asks d q ls r) : For ls r :=
  ⟨by rw [ha.name, hq.name], ha.labels, toNat_inj (by rw [ha.tld]; exact (lowered_toNat _).symm)⟩

theorem goes_kept {loc : Prop} {cls type : Nat} {ls : List Bytes} {s : Source} (h : Goes loc cls type ls s) : s = .root ∨ s = .reserved → ¬ IsSynth ls := by
  rintro (rfl | rfl) hs
  · cases h with
    | root _ e => exact (synth_not_reserved hs).1 e
  · cases h with
    | reserved _ r => exact (synth_not_reserved hs).2 r

/-- C31, in part: in a server without a key, for any client and any reachable state of the
cache, a query is answered from the cache if that has an answer; otherwise from the one source
that it belongs to, and in the way of this source. Nothing else changes the cache than answers
about the root and the reserved names. Missing: the names "_x.y" and those below "_synth" that
are 29 or more than 55 characters long, where the code reads or writes out of bounds
(`C31_overrun_false`, `C46_overrun_false`, `C32_abort_false`); and the signed responses, for
which see C27. -/
theorem C31_packet_partial {S : Server} (hE : SignOk S.E) (hk : S.key = none) (hip : S.ip.ip.length = 36) {I : Info} (hI : GoodInfo I) {ck : Clock} (hck : ck.ins' < 2 ^ 62) (accepts : Bool)
    {c : Cache.Cache} (hc : Reach c) {sa : Addr.Sa} (hsa : GoodSa sa) {b : Bytes} {d : Msg} {q : Qs} {ls : List Bytes} (hd : Dns.decode b = .ok d) (hq : Query d q ls) (hg : GoodQuery ls)
    (hs : SafeSynth ls) :
    ∃ r act c', Asks d q ls r ∧ onrecv S I ck accepts c sa b = .ok (act, c') ∧ Reach c' ∧
      ((∃ m w, Cache.get ck.get c q.name q.type = .ok (some m, c') ∧ act = .send w ∧ Delivers S ck.sig r m w) ∨
       (∃ c0 s, Cache.get ck.get c q.name q.type = .ok (none, c0) ∧ Goes (Loopback sa) q.cls q.type ls s ∧ Acts S I accepts maps ls r s act ∧ (s ≠ .root → s ≠ .reserved → c' = c0))) := by
  have ha : ∃ r, Asks d q ls r := ⟨⟨d.id, ls.length, q.name, q.type, q.cls, d.flags.testBit 8, d.flags.testBit 4, d.flags.testBit 5, d.edns.enabled, clientSize d.edns,
    d.edns.flags.testBit 15, Verif.Label.lowered (ls.getLast?.getD [])⟩, rfl, rfl, rfl, rfl, rfl, rfl, rfl, rfl, rfl, rfl, rfl, lowered_toNat _⟩
  obtain ⟨r, ha⟩ := ha
  have hcr : create b = .ok r := create_ok.2 ⟨d, q, ls, hd, hq, ha⟩
  have hok := create_reqOk hcr
  have hr := for_asks hq ha
  obtain ⟨x, c0, g1, g2, g3⟩ := get_ok hc ck.get hg q.type
  rw [← hq.name] at g1
  unfold onrecv
  rw [hcr]
  simp only [ha.name, ha.type]
  rw [g1]
  simp only [Out.bind]
  cases x with
  | some m =>
    obtain ⟨w, h1, h2⟩ := reply_readable hk ck.sig hok (g3 m rfl)
    simp only [h1]
    exact ⟨r, _, _, ha, rfl, g2, .inl ⟨m, w, rfl, rfl, h2⟩⟩
  | none =>
    obtain ⟨p, s, h1, h2, h3⟩ := dispatch_eq hE hip hI hsa hg hs hr
    obtain ⟨a, c', h4, h5, h6, h7⟩ := perform_ok hk hck accepts g2 hg hr hok (goes_kept h2) h3
    simp only [h1, h4]
    exact ⟨r, a, c', ha, rfl, h6, .inr ⟨c0, s, rfl, by rw [← ha.cls, ← ha.type]; exact h2, h5, h7⟩⟩

/-- C31: only the last label of other names reaches the network. -/
theorem C31_network {S : Server} (hE : SignOk S.E) (hk : S.key = none) (hip : S.ip.ip.length = 36) {I : Info} (hI : GoodInfo I) {ck : Clock} (hck : ck.ins' < 2 ^ 62) {accepts : Bool}
    {c : Cache.Cache} (hc : Reach c) {sa : Addr.Sa} (hsa : GoodSa sa) {b : Bytes} {d : Msg} {q : Qs} {ls : List Bytes} (hd : Dns.decode b = .ok d) (hq : Query d q ls) (hg : GoodQuery ls)
    (hs : SafeSynth ls) {name : Bytes} {c' : Cache.Cache} (h : onrecv S I ck accepts c sa b = .ok (.ask name, c')) :
    ls ≠ [] ∧ ¬ IsReserved ls ∧ ¬ IsSynth ls ∧ accepts = true ∧ name = (tldOf ls).map Spec.Base32.lower ∧ ∃ c0, Cache.get ck.get c q.name q.type = .ok (none, c0) := by
  obtain ⟨r, act, c1, _, h1, _, h2⟩ := C31_packet_partial hE hk hip hI hck accepts hc hsa hd hq hg hs
  rw [h] at h1
  cases Out.ok.inj h1
  rcases h2 with ⟨_, _, _, h3, _⟩ | ⟨c0, s, h3, h4, h5, _⟩
  · cases h3
  · cases h4 with
    | pool h6 h7 h8 h9 =>
      unfold Acts at h5
      cases accepts with
      | true =>
        cases h5
        exact ⟨h7, h9, h8, rfl, rfl, c0, h3⟩
      | false =>
        obtain ⟨w, _, h10⟩ := h5
        cases h10
    | nobody _ _ => cases h5
    | _ =>
      obtain ⟨_, _, _, _, h10⟩ := h5
      cases h10

theorem tld_zero {ls : List Bytes} {r : Req} (hr : For ls r) (hls : OkName ls) (hne : ls ≠ []) : 0 ∉ r.tld := by
  rw [hr.tld, lowered_low]
  intro hm
  obtain ⟨x, hx, e⟩ := List.mem_map.1 hm
  have hl : tldOf ls ∈ ls := by
    unfold tldOf
    rw [List.getLast?_eq_some_getLast hne]
    exact List.getLast_mem hne
  have hz := (hls.1 _ hl).2.2.1
  have key : ∀ c : Fin 256, Spec.Dnssec.low (UInt8.ofNat c.val) = 0 → (UInt8.ofNat c.val) = 0 := by decide +kernel
  have := key ⟨x.toNat, x.toNat_lt⟩
  simp only [UInt8.ofNat_toNat] at this
  rw [this e] at hx
  exact hz hx

/-- C31: what a proof leads to. If there is none in time, or the data cannot be decoded, that the
server failed, and this is not kept; if there is no data, the built-in resource, and without that
that there is no such name; and otherwise what the resource holds (C30). -/
theorem C31_after {S : Server} (hE : SignOk S.E) (hk : S.key = none) {ck : Clock} (hck : ck.ins' < 2 ^ 62) {c : Cache.Cache} (hc : Reach c)
    {b : Bytes} {d : Msg} {q : Qs} {ls : List Bytes} (hd : Dns.decode b = .ok d) (hq : Query d q ls) (hg : GoodQuery ls) (hne : ls ≠ []) (hns : ¬ IsSynth ls) {r : Req} (ha : Asks d q ls r)
    (exists_ : Bool) (data : Bytes) :
    (∃ w, afterResolve S ck c r r.tld false exists_ data = .ok (some w, c) ∧ Carries r toServfail w) ∧
    (exists_ = false ∨ data = [] → Tld.lookup r.tld = .ok none → ∃ m w c', NxMsg S.E m ∧ afterResolve S ck c r r.tld true exists_ data = .ok (some w, c') ∧ Carries r m w ∧ Reach c') ∧
    (exists_ = false ∨ data = [] → ∀ raw, Tld.lookup r.tld = .ok (some raw) → ∃ rs m w c', Encodes raw rs ∧ toDns S.E rs r.name r.type = .ok (some m) ∧
      afterResolve S ck c r r.tld true exists_ data = .ok (some w, c') ∧ Delivers S ck.sig r m w ∧ Reach c') ∧
    (exists_ = true → data ≠ [] → ∀ rs, Encodes data rs → rs.length ≤ 255 → ∃ m w c', toDns S.E rs r.name r.type = .ok (some m) ∧
      afterResolve S ck c r r.tld true exists_ data = .ok (some w, c') ∧ Delivers S ck.sig r m w ∧ Reach c') ∧
    (exists_ = true → data ≠ [] → Resource.decode data = .err () → ∃ w, afterResolve S ck c r r.tld true exists_ data = .ok (some w, c) ∧ Carries r toServfail w) := by
  have hcr : create b = .ok r := create_ok.2 ⟨d, q, ls, hd, hq, ha⟩
  have hok := create_reqOk hcr
  have hr := for_asks hq ha
  obtain ⟨wf, f1, f2⟩ := reply_answer hk ck.sig hok servfail_answer
  have h0 : 0 ∉ r.tld := tld_zero hr hg.1 hne
  have serve : ∀ {raw : Bytes} {rs : List Rec}, Encodes raw rs → rs.length ≤ 255 → ∃ m w c', toDns S.E rs r.name r.type = .ok (some m) ∧
      (Verif.Ns.respond S ck c r true (some rs)) = .ok (some w, c') ∧ Delivers S ck.sig r m w ∧ Reach c' := by
    intro raw rs he hl
    obtain ⟨m, m1, m2, m3⟩ := serve_eq hE hg.1 hne (recsAt_good he.2) hl r.type
    obtain ⟨w, w1, w2⟩ := reply_readable hk ck.sig hok m2
    obtain ⟨c', k1, k2⟩ := keep_ok hck hc hg hns hr.name m2 m3
    rw [← hr.name] at m1
    refine ⟨m, w, c', m1, ?_, w2, k2⟩
    unfold Verif.Ns.respond answerFor
    simp only [Bool.not_true, Bool.false_eq_true, if_false, m1, Out.bind, k1, w1]
  refine ⟨⟨wf, ?_, f2⟩, ?_, ?_, ?_, ?_⟩
  · unfold afterResolve decodeFor
    simp only [Bool.not_false, if_true, Out.bind]
    unfold Verif.Ns.respond answerFor
    simp only [Bool.not_false, if_true, Out.bind, f1]
  · intro he hl
    obtain ⟨m, m1, m2, m3⟩ := nx_eq hE
    obtain ⟨w, w1, w2⟩ := reply_answer hk ck.sig hok m3
    obtain ⟨c', k1, k2⟩ := keep_ok hck hc hg hns hr.name (readable_answer m3) (nx_qd m1)
    refine ⟨m, w, c', m2, ?_, w2, k2⟩
    unfold afterResolve decodeFor
    have : (!exists_) = true ∨ data.length = 0 := by rcases he with rfl | rfl <;> simp
    simp only [Bool.not_true, Bool.false_eq_true, if_false, if_pos this, hl, Out.bind]
    unfold Verif.Ns.respond answerFor
    simp only [Bool.not_true, Bool.false_eq_true, if_false, m1, Out.bind, k1, w1]
  · intro he raw hl
    obtain ⟨rs, r1, r2, r3⟩ := Props.Resource.C29_builtin h0 hl
    obtain ⟨m, w, c', s1, s2, s3, s4⟩ := serve r1 r2
    refine ⟨rs, m, w, c', r1, s1, ?_, s3, s4⟩
    unfold afterResolve decodeFor
    have : (!exists_) = true ∨ data.length = 0 := by rcases he with rfl | rfl <;> simp
    simp only [Bool.not_true, Bool.false_eq_true, if_false, if_pos this, hl, Out.bind, r3, s2, (Props.Resource.C29_exact r1 r2).2]
  · intro he hn rs r1 r2
    obtain ⟨m, w, c', s1, s2, s3, s4⟩ := serve r1 r2
    refine ⟨m, w, c', s1, ?_, s3, s4⟩
    unfold afterResolve decodeFor
    have : ¬ ((!exists_) = true ∨ data.length = 0) := by subst he; simp [hn]
    obtain ⟨x1, x2⟩ := Props.Resource.C29_exact r1 r2
    simp only [Bool.not_true, Bool.false_eq_true, if_false, if_neg this, Out.bind, x1, s2, x2]
  · intro he hn hx
    refine ⟨wf, ?_, f2⟩
    unfold afterResolve decodeFor
    have : ¬ ((!exists_) = true ∨ data.length = 0) := by subst he; simp [hn]
    simp only [Bool.not_true, Bool.false_eq_true, if_false, if_neg this, Out.bind, hx]
    unfold Verif.Ns.respond answerFor
    simp only [Bool.not_false, if_true, Out.bind, f1]

/-- C31, in part: a history of any packets and results runs to its end, and something is decided
about each of them. Missing: the names of `C31_packet_partial`. -/
theorem C31_history_partial {S : Server} (hE : SignOk S.E) (hk : S.key = none) (hip : S.ip.ip.length = 36) (es : List Event) (hes : ∀ e ∈ es, GoodEvent e) :
    ∃ acts c, run S [] es = .ok (acts, c) ∧ acts.length = es.length ∧ Reach c := by
  suffices h : ∀ (es : List Event) (c : Cache.Cache), Reach c → (∀ e ∈ es, GoodEvent e) → ∃ acts c', run S c es = .ok (acts, c') ∧ acts.length = es.length ∧ Reach c' from
    h es [] reach_empty hes
  intro es
  induction es with
  | nil => exact fun c hc _ => ⟨_, _, rfl, rfl, hc⟩
  | cons e es ih =>
    intro c hc hes
    have hstep : ∃ a c', step S c e = .ok (a, c') ∧ Reach c' := by
      have he := hes e List.mem_cons_self
      cases e with
      | packet I ck accepts sa b =>
        obtain ⟨hI, hck, hsa, hq⟩ := he
        by_cases h : ∃ d q ls, Dns.decode b = .ok d ∧ Query d q ls
        · obtain ⟨d, q, ls, h1, h2⟩ := h
          obtain ⟨h3, h4⟩ := hq d q ls h1 h2
          obtain ⟨r, a, c', _, h5, h6, _⟩ := C31_packet_partial hE hk hip hI hck accepts hc hsa h1 h2 h3 h4
          exact ⟨a, c', h5, h6⟩
        · exact ⟨_, _, C31_dropped S I ck accepts c sa b fun d q ls h1 h2 => h ⟨d, q, ls, h1, h2⟩, hc⟩
      | resolved ck r status exists_ data =>
        obtain ⟨hck, ⟨b, d, q, ls, h1, h2, h3, h4, h5, h6⟩, hdata⟩ := he
        obtain ⟨g1, g2, g3, g4, g5⟩ := C31_after hE hk hck hc h1 h2 h4 h5 h6 h3 exists_ data
        have fin : ∀ {w c'}, afterResolve S ck c r r.tld status exists_ data = .ok (some w, c') → Reach c' → ∃ a c', step S c (.resolved ck r status exists_ data) = .ok (a, c') ∧ Reach c' := by
          intro w c' h hr
          refine ⟨.send w, c', ?_, hr⟩
          unfold step
          simp only [h, Out.bind]
          rfl
        cases status with
        | false =>
          obtain ⟨w, h7, _⟩ := g1
          exact fin h7 hc
        | true =>
          have none : exists_ = false ∨ data = [] → ∃ a c', step S c (.resolved ck r true exists_ data) = .ok (a, c') ∧ Reach c' := by
            intro hx
            obtain ⟨x, hl, _⟩ := (Props.Tld.C50_data r.tld (tld_zero (for_asks h2 h3) h4.1 h5)).1
            cases x with
            | none =>
              obtain ⟨m, w, c', _, h7, _, h8⟩ := g2 hx hl
              exact fin h7 h8
            | some raw =>
              obtain ⟨rs, m, w, c', _, _, h7, _, h8⟩ := g3 hx raw hl
              exact fin h7 h8
          cases exists_ with
          | false => exact none (.inl rfl)
          | true =>
            by_cases hn : data = []
            · exact none (.inr hn)
            rcases hdata with h | ⟨rs, h, hl⟩ | h
            · exact absurd h hn
            · obtain ⟨m, w, c', _, h7, _, h8⟩ := g4 rfl hn rs h hl
              exact fin h7 h8
            · obtain ⟨w, h7, _⟩ := g5 rfl hn h
              exact fin h7 hc
    obtain ⟨a, c1, h1, h2⟩ := hstep
    obtain ⟨acts, c', h3, h4, h5⟩ := ih c1 h2 fun x hx => hes x (List.mem_cons_of_mem _ hx)
    refine ⟨a :: acts, c', ?_, by simp [h4], h5⟩
    unfold run
    rw [h1]
    simp only [Out.bind]
    rw [h3]

/-! ### Examples -/

/-- A query for a name: id 7. -/
def query (ls : List Bytes) (type cls : UInt8) : Bytes :=
  [0, 7, 1, 0, 0, 1, 0, 0, 0, 0, 0, 0] ++ (ls.map fun l => UInt8.ofNat l.length :: l).flatten ++ [0, 0, type, 0, cls]

def queryMsg (ls : List Bytes) (type cls : Nat) : Msg := ⟨7, 0, 0, 256, [⟨text ls, type, cls⟩], [], [], [], ⟨false, 0, 0, 512, 0, []⟩⟩

/-- Functions with results of the right sizes. -/
def exEnv : Dnssec.Env := ⟨fun _ => List.replicate 32 1, id, fun _ _ => some (List.replicate 64 2), fun _ => some (List.replicate 64 3), 1700000000⟩

theorem exEnv_ok : SignOk exEnv := ⟨⟨⟨_, rfl, by decide⟩, ⟨_, rfl, by decide⟩⟩, fun _ _ g h => by cases Option.some.inj h; decide, fun _ => rfl⟩

def exServer : Server := ⟨exEnv, fun _ => [], none, Addr.fromSa (.in4 [127, 0, 0, 1] 53)⟩

def exInfo : Info := ⟨List.replicate 32 7, 12, List.replicate 32 8, 1700000000, true, str "1.000000", 1, [⟨str "1.2.3.4:44806", str "/hsd:6/", 3, 1, 5⟩]⟩

theorem exInfo_ok : GoodInfo exInfo := ⟨by decide, by decide, by decide, by decide, by decide, by decide, by decide, by decide⟩

/-- Queries: a reserved name in capitals, the root, and one for the network. -/
example : Dns.decode (query [str "a", str "ETH"] 1 1) = .ok (queryMsg [str "a", str "ETH"] 1 1) ∧ IsReserved [str "a", str "ETH"] := by
  refine ⟨by decide +kernel, by simp, "eth", by decide, ?_⟩
  exact Cache.sameName_lower.2 (by decide)

theorem exQuery_ok : Query (queryMsg [str "a", str "ETH"] 1 1) ⟨text [str "a", str "ETH"], 1, 1⟩ [str "a", str "ETH"] :=
  ⟨rfl, rfl, rfl, rfl, rfl, rfl, by simp only [OkName, OkLabel]; decide, by unfold Clean; decide⟩

/-- `C31_packet_partial` is met: the answer to "a.ETH." is that there is no such name. -/
example : ∃ r w c', onrecv exServer exInfo ⟨0, 0, 0, 0⟩ true [] (.in4 [10, 0, 0, 1] 4000) (query [str "a", str "ETH"] 1 1) = .ok (.send w, c') ∧
    ∃ m, NxMsg exEnv m ∧ Carries r m w := by
  have hn : IsReserved [str "a", str "ETH"] := ⟨by simp, "eth", by decide, Cache.sameName_lower.2 (by decide)⟩
  obtain ⟨r, act, c', _, h2, _, h⟩ := C31_packet_partial (S := exServer) exEnv_ok rfl (by decide) exInfo_ok (ck := ⟨0, 0, 0, 0⟩) (by decide) true reach_empty
    (sa := .in4 [10, 0, 0, 1] 4000) ⟨by decide, by decide⟩ (b := query [str "a", str "ETH"] 1 1) (by decide +kernel) exQuery_ok
    ⟨exQuery_ok.ok, by intro c b h; cases h⟩ (by
      intro l tld h e
      have h' : [str "a", str "ETH"] = [l, tld] := h
      cases h'
      exact absurd (Cache.sameName_lower.1 e) (by decide))
  rcases h with ⟨m, w, h3, _⟩ | ⟨c0, s, _, hgo, hac, _⟩
  · have : okWith (fun x => x.1.isNone) (Cache.get 0 [] (text [str "a", str "ETH"]) 1) = true := by decide +kernel
    obtain ⟨x, h4, h5⟩ := okWith_spec this
    have h6 : Cache.get 0 [] (text [str "a", str "ETH"]) 1 = .ok (some m, c') := h3
    rw [h6] at h4
    cases h4
    cases h5
  · obtain ⟨s0, _, hu⟩ := C31_sources (Loopback (.in4 [10, 0, 0, 1] 4000)) 1 1 [str "a", str "ETH"]
    have e1 := hu s hgo
    have e2 := hu .reserved (.reserved (by decide) hn)
    rw [e1, ← e2] at hac
    obtain ⟨m, w, m1, m2, rfl⟩ := hac
    exact ⟨r, w, c', h2, m, m1, m2⟩

/-- `C31_after` and `C31_history_partial` are met: "www.a." goes to the pool, which finds a name
server. -/
example : ∃ r acts c, Asks (queryMsg [str "www", str "a"] 1 1) ⟨text [str "www", str "a"], 1, 1⟩ [str "www", str "a"] r ∧
    run exServer [] [.packet exInfo ⟨0, 0, 0, 0⟩ true (.in4 [10, 0, 0, 1] 4000) (query [str "www", str "a"] 1 1), .resolved ⟨0, 0, 0, 0⟩ r true true [0, 1, 2, 0x6e, 0x73, 1, 0x62, 0]] = .ok (acts, c) ∧
    acts.length = 2 := by
  have hd : Dns.decode (query [str "www", str "a"] 1 1) = .ok (queryMsg [str "www", str "a"] 1 1) := by decide +kernel
  have hq : Query (queryMsg [str "www", str "a"] 1 1) ⟨text [str "www", str "a"], 1, 1⟩ [str "www", str "a"] :=
    ⟨rfl, rfl, rfl, rfl, rfl, rfl, by simp only [OkName, OkLabel]; decide, by unfold Clean; decide⟩
  have hs : ¬ SameName (str "a") (str "_synth") := fun e => absurd (Cache.sameName_lower.1 e) (by decide)
  have hgq : GoodQuery [str "www", str "a"] := ⟨hq.ok, by intro c b h; cases h⟩
  have ha : Asks (queryMsg [str "www", str "a"] 1 1) ⟨text [str "www", str "a"], 1, 1⟩ [str "www", str "a"]
    ⟨7, 2, text [str "www", str "a"], 1, 1, true, false, false, false, 512, false, str "a"⟩ := by
    refine ⟨rfl, rfl, rfl, rfl, rfl, rfl, rfl, rfl, rfl, rfl, rfl, by decide⟩
  obtain ⟨acts, c, h1, h2, _⟩ := C31_history_partial (S := exServer) exEnv_ok rfl (by decide)
    [.packet exInfo ⟨0, 0, 0, 0⟩ true (.in4 [10, 0, 0, 1] 4000) (query [str "www", str "a"] 1 1), .resolved ⟨0, 0, 0, 0⟩ _ true true [0, 1, 2, 0x6e, 0x73, 1, 0x62, 0]] (by
      intro e he
      rcases List.mem_cons.1 he with rfl | he
      · refine ⟨exInfo_ok, by decide, ⟨by decide, by decide⟩, ?_⟩
        intro d q ls h1 h2
        rw [hd] at h1
        cases Out.ok.inj h1
        have e1 := h2.qd
        have e2 : q = ⟨text [str "www", str "a"], 1, 1⟩ := by
          have : [(⟨text [str "www", str "a"], 1, 1⟩ : Qs)] = [q] := e1
          exact (List.cons.inj this).1.symm
        have e3 := h2.name
        rw [e2] at e3
        have e4 := text_inj hq.ok.1 h2.ok.1 e3
        subst e4
        exact ⟨hgq, fun l tld h e => by cases h; exact absurd e hs⟩
      · rcases List.mem_singleton.1 he with rfl
        exact ⟨by decide, ⟨_, _, _, _, hd, hq, ha, hgq, by simp, fun h => hs h.2⟩, .inr (.inl ⟨[.ns (str "ns.b.")], strict_spec (by decide +kernel), by decide⟩)⟩)
  exact ⟨_, acts, c, ha, h1, h2⟩

/-- C31, negated: a query for a long label below "_synth" overruns the buffer for the name, in any
server, for any client. -/
theorem C31_overrun_false : ∃ b, ∀ (S : Server) (I : Info) (ck : Clock) (accepts : Bool) (sa : Addr.Sa), onrecv S I ck accepts [] sa b = .ub := by
  refine ⟨query [List.replicate 56 0x61, str "_synth"] 1 1, ?_⟩
  intro S I ck accepts sa
  have h1 : okWith (fun r => decide (r.cls = 1 ∧ r.type = 1 ∧ r.labels = 2 ∧ r.tld = ascii "_synth" ∧ r.name = text [List.replicate 56 0x61, str "_synth"]))
    (create (query [List.replicate 56 0x61, str "_synth"] 1 1)) = true := by decide +kernel
  obtain ⟨r, h2, h3⟩ := okWith_spec h1
  obtain ⟨r1, r2, r3, r4, r5⟩ := of_decide_eq_true h3
  have hq : GoodQuery [List.replicate 56 0x61, str "_synth"] := ⟨by simp only [OkName, OkLabel]; decide, by intro c b h; cases h⟩
  have h4 : Cache.get ck.get [] r.name r.type = .ok (none, []) := by
    rw [r5]
    unfold Cache.get Cache.getData
    rw [Cache.keySet_text hq]
    simp only [Out.bind]
    by_cases hcl : Clean (text [List.replicate 56 0x61, str "_synth"])
    · rw [if_pos hcl]; rfl
    · rw [if_neg hcl]
  unfold onrecv
  rw [h2]
  simp only [h4, Out.bind]
  have h5 : okWith (fun s => decide (s.length + 1 > 64)) (labelFrom (text [List.replicate 56 0x61, str "_synth"]) (-2)) = true := by decide +kernel
  obtain ⟨s, h6, h7⟩ := okWith_spec h5
  unfold dispatch
  rw [if_neg (by omega), if_pos ⟨r4, by omega⟩]
  unfold synth
  rw [if_neg (by omega), r5, h6]
  simp only [Out.bind]
  rw [if_pos (of_decide_eq_true h7)]

/-! ### C57: addresses in names -/

theorem names_ptr {l ip : Bytes} (h : Names l ip) : Spec.Cache.PtrLabel l := by
  obtain ⟨_, t, syms, dropped, rfl, h2, h3, _⟩ := id h
  refine ⟨t, rfl, (names_decode h).2, fun c hc => ?_⟩
  have : Spec.Base32.lower c ∈ t.map Spec.Base32.lower := List.mem_map_of_mem hc
  rw [h2] at this
  obtain ⟨i, hi, e⟩ := List.mem_map.1 this
  exact lower_b32 c i (h3 i hi) e.symm

theorem names_good {l tld ip : Bytes} (h : Names l ip) (hls : OkName [l, tld]) : GoodQuery [l, tld] ∧ SafeSynth [l, tld] ∧ ∀ type, Spec.Cache.Own [l, tld] type := by
  have hp := names_ptr h
  obtain ⟨t, rfl, hl, _⟩ := id hp
  refine ⟨⟨hls, ?_⟩, ?_, fun type => .inr (.inl ⟨_, _, rfl, hp⟩)⟩
  · intro c b e
    cases e
    simp at hl
  · intro l' tld' e _
    cases e
    rw [List.length_cons]
    omega

/-- C57, in part: whatever was asked before, for a name below "_synth" that stands for an address,
the address is the answer to queries for its type or any type; for other types (but texts of
class HS) the answer is a denial, and the name is that of the query. Missing: the address is not
signed; and for IPv6, the denial does not list its type (`C57_types_false`). -/
theorem C57_address_partial {S : Server} (hE : SignOk S.E) (hk : S.key = none) (hip : S.ip.ip.length = 36) {I : Info} (hI : GoodInfo I) {ck : Clock} (hck : ck.ins' < 2 ^ 62) (accepts : Bool)
    {c : Cache.Cache} (hc : Reach c) {sa : Addr.Sa} (hsa : GoodSa sa) {b : Bytes} {d : Msg} {q : Qs} {l tld ip : Bytes} (hd : Dns.decode b = .ok d) (hq : Query d q [l, tld])
    (ht : SameName tld (str "_synth")) (hn : Names l ip) (hh : ¬ (q.cls = 4 ∧ q.type = 16)) :
    ∃ r m w c', Asks d q [l, tld] r ∧ onrecv S I ck accepts c sa b = .ok (.send w, c') ∧ Carries r m w ∧ m.code = 0 ∧ m.ar = [] ∧
      (q.type = 255 ∨ q.type = addrType ip → m.flags = 1024 ∧ m.an = [⟨shown [l, tld], addrType ip, 1, 21600, some [.bytes ip]⟩] ∧ m.ns = []) ∧
      (¬ (q.type = 255 ∨ q.type = addrType ip) → m.flags = 0 ∧ m.an = [] ∧ ∃ map, Denies S.E [nsecOf (shown [l, tld]) map] m.ns ∧ (addrType ip = 1 → mapTypes 1 map = [1, 46, 47])) := by
  obtain ⟨g1, g2, g3⟩ := names_good hn hq.ok
  obtain ⟨r, act, c', ha, h1, h2, h3⟩ := C31_packet_partial hE hk hip hI hck accepts hc hsa hd hq g1 g2
  have hs : IsSynth [l, tld] := ⟨by simp, ht⟩
  obtain ⟨c1, hmiss⟩ := own_miss hc ck.get g1 hs (g3 q.type)
  rw [← hq.name] at hmiss
  rcases h3 with ⟨m, w, h4, _⟩ | ⟨c0, s, h4, h5, h6, _⟩
  · rw [hmiss] at h4
    cases h4
  obtain ⟨s0, _, hu⟩ := C31_sources (Loopback sa) q.cls q.type [l, tld]
  have es : s = .synth := (hu s h5).trans (hu .synth (.synth hh hs)).symm
  subst es
  obtain ⟨m, w, m1, m2, rfl⟩ := h6
  rw [ha.type] at m1
  refine ⟨r, m, w, c', ha, h1, m2, ?_⟩
  cases m1 with
  | none h e => exact absurd hn (h ip)
  | addr h t e =>
    cases names_unique hn h
    obtain ⟨e1, e2, e3, e4, e5, e6⟩ := e
    exact ⟨e1, e6, fun _ => ⟨e3, e4, e5⟩, fun h => absurd t h⟩
  | other h t e ns =>
    cases names_unique hn h
    obtain ⟨e1, e2, e3, e4, e5⟩ := e
    exact ⟨e1, e5, fun h => absurd h t, fun _ => ⟨e3, e4, _, ns, fun h => by rw [h]; decide⟩⟩

/-- C57: a name stands for one address at most, and the name made for an address for that (C46). -/
theorem C57_names {l ip ip' : Bytes} (h : Names l ip) (h' : Names l ip') : ip = ip' := names_unique h h'

/-- "_1800008._synth." is 10.0.0.1. -/
theorem exNames : Names (str "_1800008") [10, 0, 0, 1] := by
  refine ⟨.inl rfl, str "1800008", [1, 8, 0, 0, 0, 0, 8], [0, 0, 0], by decide, by decide, by decide, by decide, by decide⟩

theorem exPtr_ok (type : Nat) : Query (queryMsg [str "_1800008", str "_SYNTH"] type 1) ⟨text [str "_1800008", str "_SYNTH"], type, 1⟩ [str "_1800008", str "_SYNTH"] :=
  ⟨rfl, rfl, rfl, rfl, rfl, rfl, by simp only [OkName, OkLabel]; decide, by unfold Clean; decide⟩

/-- `C57_address_partial` is met. -/
example : ∃ r m w c', onrecv exServer exInfo ⟨0, 0, 0, 0⟩ true [] (.in4 [10, 0, 0, 1] 4000) (query [str "_1800008", str "_SYNTH"] 1 1) = .ok (.send w, c') ∧ Carries r m w ∧
    m.an = [⟨str "_1800008._SYNTH.", 1, 1, 21600, some [.bytes [10, 0, 0, 1]]⟩] := by
  obtain ⟨r, m, w, c', _, h1, h2, _, _, h3, _⟩ := C57_address_partial (S := exServer) exEnv_ok rfl (by decide) exInfo_ok (ck := ⟨0, 0, 0, 0⟩) (by decide) true reach_empty
    (sa := .in4 [10, 0, 0, 1] 4000) ⟨by decide, by decide⟩ (b := query [str "_1800008", str "_SYNTH"] 1 1) (by decide +kernel) (exPtr_ok 1) (Cache.sameName_lower.2 (by decide)) exNames (by decide)
  have h4 := (h3 (.inr (by decide))).2.1
  exact ⟨r, m, w, c', h1, h2, h4.trans (by decide)⟩

/-- C57, negated: for an IPv6 address, the denial of other types says that there is a SIG record
(24), and no address (28). -/
theorem C57_types_false : ∃ (ls : List Bytes) (ip : Bytes), OkName ls ∧ Names (ls.headD []) ip ∧ ip.length = 16 ∧ ∀ (E : Env) (r : Req), SignOk E → For ls r → r.type = 16 →
    ∃ m, synth E r = .ok m ∧ ∃ map, Denies E [nsecOf (shown ls) map] m.ns ∧ mapTypes 1 map = [24, 46, 47] := by
  have hn : Names (str "_00000000000000000000000000") (List.replicate 16 0) := by
    refine ⟨.inr rfl, str "00000000000000000000000000", List.replicate 26 0, [0, 0], by decide, by decide, by decide, by decide, by decide⟩
  have hok : OkName [str "_00000000000000000000000000", str "_synth"] := by simp only [OkName, OkLabel]; decide
  obtain ⟨g1, g2, _⟩ := names_good hn hok
  refine ⟨[str "_00000000000000000000000000", str "_synth"], List.replicate 16 0, hok, hn, rfl, ?_⟩
  intro E r hE hr ht
  obtain ⟨m, m1, m2, _⟩ := synth_eq hE g1 ⟨by simp, Cache.sameName_lower.2 (by decide)⟩ g2 hr
  refine ⟨m, m1, ?_⟩
  rw [ht] at m2
  cases m2 with
  | none h e => exact absurd hn (h _)
  | addr h t e =>
    cases names_unique hn h
    exact absurd t (by decide)
  | other h t e ns =>
    cases names_unique hn h
    exact ⟨_, ns, by decide⟩

/-! ### C58: what is told about the server -/

/-- C58, in part: what the server knows about itself is told to local clients only; others are not
answered. It is never kept, and told as it is. Missing: if the cache has an answer for the last
label of the name, local clients get that (`C58_cached_false`). -/
theorem C58_about_partial {S : Server} (hE : SignOk S.E) (hk : S.key = none) (hip : S.ip.ip.length = 36) {I : Info} (hI : GoodInfo I) {ck : Clock} (hck : ck.ins' < 2 ^ 62) (accepts : Bool)
    {c : Cache.Cache} (hc : Reach c) {sa : Addr.Sa} (hsa : GoodSa sa) {b : Bytes} {d : Msg} {q : Qs} {ls : List Bytes} (hd : Dns.decode b = .ok d) (hq : Query d q ls) (hg : GoodQuery ls)
    (hs : SafeSynth ls) (hh : q.cls = 4 ∧ q.type = 16) {c0 : Cache.Cache} (miss : Cache.get ck.get c q.name q.type = .ok (none, c0)) :
    (Loopback sa → ∃ r m w, Asks d q ls r ∧ onrecv S I ck accepts c sa b = .ok (.send w, c0) ∧ AboutMsg I ls m ∧ Carries r m w) ∧
    (¬ Loopback sa → onrecv S I ck accepts c sa b = .ok (.nothing, c0)) := by
  obtain ⟨r, act, c', ha, h1, h2, h3⟩ := C31_packet_partial hE hk hip hI hck accepts hc hsa hd hq hg hs
  rcases h3 with ⟨m, w, h4, _⟩ | ⟨c1, s, h4, h5, h6, h7⟩
  · rw [miss] at h4
    cases h4
  rw [miss] at h4
  cases h4
  constructor
  · intro hl
    cases h5 with
    | about _ _ =>
      obtain ⟨m, w, m1, m2, rfl⟩ := h6
      rw [h7 (by decide) (by decide)] at h1
      exact ⟨r, m, w, ha, h1, m1, m2⟩
    | _ => contradiction
  · intro hl
    cases h5 with
    | nobody _ _ =>
      cases h6
      rw [h7 (by decide) (by decide)] at h1
      exact h1
    | _ => contradiction

/-- C58: the rest of the queries are not answered from it: there is no other class or type that is. -/
theorem C58_only {loc : Prop} {cls type : Nat} {ls : List Bytes} (h : Goes loc cls type ls .about) : cls = 4 ∧ type = 16 ∧ loc := by
  cases h with
  | about h l => exact ⟨h.1, h.2, l⟩

def exAbout : List Bytes := [str "height", str "tip", str "chain", str "hnsd"]

/-- The height, asked by 127.0.0.1, is 12; and nobody else is told. -/
example : okWith (fun x => match x.1 with
      | .send w => okWith (fun s => decide (s.an = [(⟨text exAbout, 16, 4, 0, some [.txts [str "12"]]⟩ : Rr)])) (Dns.decode w)
      | _ => false) (onrecv exServer exInfo ⟨0, 0, 0, 0⟩ true [] (.in4 [127, 0, 0, 1] 4000) (query exAbout 16 4)) = true ∧
    onrecv exServer exInfo ⟨0, 0, 0, 0⟩ true [] (.in4 [10, 0, 0, 1] 4000) (query exAbout 16 4) = .ok (.nothing, []) := by
  decide +kernel

/-- C58, negated: after a query of class IN below "hnsd.", which does not exist, the answer to it is
given for what is asked about the server, for six hours. -/
theorem C58_cached_false : ∃ r w w' c c' s, create (query [str "www", str "hnsd"] 16 1) = .ok r ∧
    afterResolve exServer ⟨0, 0, 0, 0⟩ [] r (str "hnsd") true false [] = .ok (w, c) ∧
    onrecv exServer exInfo ⟨21599, 0, 0, 0⟩ true c (.in4 [127, 0, 0, 1] 4000) (query exAbout 16 4) = .ok (.send w', c') ∧ Dns.decode w' = .ok s ∧ s.code = 3 ∧ s.an = [] := by
  have h : okWith (fun r => okWith (fun x => okWith (fun y => match y.1 with
      | .send w => okWith (fun s => decide (s.code = 3 ∧ s.an = [])) (Dns.decode w)
      | _ => false) (onrecv exServer exInfo ⟨21599, 0, 0, 0⟩ true x.2 (.in4 [127, 0, 0, 1] 4000) (query exAbout 16 4)))
    (afterResolve exServer ⟨0, 0, 0, 0⟩ [] r (str "hnsd") true false [])) (create (query [str "www", str "hnsd"] 16 1)) = true := by decide +kernel
  obtain ⟨r, h1, h⟩ := okWith_spec h
  obtain ⟨⟨w, c⟩, h2, h⟩ := okWith_spec h
  obtain ⟨⟨a, c'⟩, h3, h⟩ := okWith_spec h
  cases a with
  | send w' =>
    obtain ⟨s, h4, h5⟩ := okWith_spec h
    obtain ⟨h6, h7⟩ := of_decide_eq_true h5
    exact ⟨r, w, w', c, c', s, h1, h2, h3, h4, h6, h7⟩
  | _ => cases h

end Verif.Props.Ns
