import Verif.Lemmas.BrontideHonest
/-
Helper lemmas: what an invariant state says of the streams, and the channel between two ends.
-/
namespace Verif.Brontide
open Verif.Spec.Brontide
variable {σ τ : Type}

/-! ### Streams read and written -/

/-- The bytes stored in an established session are less than a piece. -/
theorem said_stored {P : Prim} {l : Line} {i : Nat} {m : M σ} {buf : Bytes} (h : Est P l i m buf) :
    said P l i m.b buf = ([], true) := by
  unfold said
  have hs := h.size
  have hr := h.room
  by_cases hz : m.b.hasSize = true
  · rw [if_pos hz] at hs ⊢
    unfold body
    rw [if_pos (by omega)]
  · rw [if_neg hz] at hs ⊢
    unfold plain
    rw [dif_pos (by omega)]

theorem live_facts {P : Prim} {lr ls : Line} {pre : Bytes} {H : Bytes → List Bytes × Bool}
    {S : Bytes → List Bytes → Bytes} {x : Bytes} {m : M σ} (h : Live P lr ls pre H S x m) :
    m.b.state = .done ∧ H x = (messages m.trace, true) ∧ outs m.trace = S x (writes m.trace) := by
  obtain ⟨i, buf, hb, he, hH⟩ := h.hear
  refine ⟨he.done, ?_, ?_⟩
  · have := hH []
    rw [List.append_nil, List.append_nil, said_stored he, List.append_nil] at this
    exact this
  · have hS := h.said [] (writes m.trace)
    rw [List.append_nil] at hS
    rw [hS]
    rcases h.say.eq with heq | ⟨hz, _⟩
    · exact heq
    · rw [he.done] at hz; cases hz

theorem dead_facts {H : Bytes → List Bytes × Bool} {S : Bytes → List Bytes → Bytes} {x : Bytes} {m : M σ} (h : Dead H S x m) :
    messages m.trace <+: (H x).1 ∧ outs m.trace <+: S x (writes m.trace) ∧
    (¬ Cut m.trace → H x = (messages m.trace, false) ∧ outs m.trace = S x (writes m.trace)) := by
  rcases h.2 with ⟨hc, k⟩ | k
  · have := k []
    rw [List.append_nil] at this
    exact ⟨this.1, this.2, fun h => absurd hc h⟩
  · have := k []
    rw [List.append_nil] at this
    refine ⟨by rw [this.1]; exact List.prefix_rfl, by rw [this.2]; exact List.prefix_rfl, fun _ => this⟩

/-- What a state says of the streams: `H` is what was heard, `S` what was said. -/
structure Facts (H : List Bytes × Bool) (S : Bytes) (m : M σ) : Prop where
  heard : messages m.trace <+: H.1
  sent : outs m.trace <+: S
  whole : ¬ Cut m.trace → messages m.trace = H.1 ∧ outs m.trace = S ∧ (m.b.state = .none ↔ H.2 = false)

theorem facts_live {P : Prim} {lr ls : Line} {pre : Bytes} {H : Bytes → List Bytes × Bool}
    {S : Bytes → List Bytes → Bytes} {x : Bytes} {m : M σ} (h : Live P lr ls pre H S x m) :
    Facts (H x) (S x (writes m.trace)) m := by
  obtain ⟨h1, h2, h3⟩ := live_facts h
  rw [h2, ← h3]
  exact ⟨List.prefix_rfl, List.prefix_rfl, fun _ => ⟨rfl, rfl, by rw [h1]; simp⟩⟩

theorem facts_dead {H : Bytes → List Bytes × Bool} {S : Bytes → List Bytes → Bytes} {x : Bytes} {m : M σ} (h : Dead H S x m) :
    Facts (H x) (S x (writes m.trace)) m := by
  obtain ⟨h1, h2, h3⟩ := dead_facts h
  refine ⟨h1, h2, fun hc => ?_⟩
  obtain ⟨h4, h5⟩ := h3 hc
  rw [h4]
  exact ⟨rfl, h5, by rw [h.1]; simp⟩

theorem invI_facts {P : Prim} {s e : KeyPair} {n : Noise × Bytes} {x : Bytes} {m : M σ} (h : InvI P s e n x m) :
    Facts (initiatorHears P s e n.1 x) (initiatorSays P s e n x (writes m.trace)) m := by
  rcases h with ⟨hw, h5, h6, h7⟩ | ⟨g, hg, hx, hlive⟩ | hdead
  · have e1 : initiatorHears P s e n.1 x = ([], true) := by unfold initiatorHears; rw [if_pos hw.short]
    have e2 : initiatorSays P s e n x (writes m.trace) = n.2 := by
      unfold initiatorSays; rw [if_pos hw.short, List.append_nil]
    rw [e1, e2]
    exact ⟨by rw [h5]; exact List.nil_prefix, by rw [h7]; exact List.prefix_rfl,
      fun _ => ⟨h5, h7, by rw [hw.state]; simp⟩⟩
  · exact facts_live hlive
  · exact facts_dead hdead

theorem invR_facts {P : Prim} {s e : KeyPair} {x : Bytes} {m : M σ} (h : InvR P s e x m) :
    Facts (responderHears P s e x) (responderSays P s e x (writes m.trace)) m := by
  rcases h with ⟨hw, h5, h6, h7⟩ | ⟨a, n, x', rfl, ha, hn, hw, h5, h6, h7⟩ | ⟨a, n, g, x', _, ha, hn, hg, h65, hlive, hrs⟩ | hdead
  · have e1 : responderHears P s e x = ([], true) := by unfold responderHears; rw [if_pos hw.short]
    have e2 : responderSays P s e x (writes m.trace) = [] := by unfold responderSays; rw [if_pos hw.short]
    rw [e1, e2]
    exact ⟨by rw [h5]; exact List.nil_prefix, by rw [h7]; exact List.prefix_rfl,
      fun _ => ⟨h5, h7, by rw [hw.state]; simp⟩⟩
  · have k1 : (a ++ x').take 80 = a := by
      rw [List.take_append_of_le_length (by omega), List.take_of_length_le (by omega)]
    have k2 : (a ++ x').drop 80 = x' := by
      rw [List.drop_append, List.drop_of_length_le (by omega), ha]; rfl
    have k3 : ¬ (a ++ x').length < 80 := by simp only [List.length_append]; omega
    have e1 : responderHears P s e (a ++ x') = ([], true) := by
      unfold responderHears; rw [if_neg k3, k1, hn]; dsimp only; rw [k2, if_pos hw.short]
    have e2 : responderSays P s e (a ++ x') (writes m.trace) = n.2 := by
      unfold responderSays; rw [if_neg k3, k1, hn]; dsimp only; rw [k2, if_pos hw.short, List.append_nil]
    rw [e1, e2]
    exact ⟨by rw [h5]; exact List.nil_prefix, by rw [h7]; exact List.prefix_rfl,
      fun _ => ⟨h5, h7, by rw [hw.state]; simp⟩⟩
  · exact facts_live hlive
  · exact facts_dead hdead

/-! ### Traces grow -/

theorem kept_grows {m m' : M σ} (k : Kept m m') : m.trace <+: m'.trace := by
  obtain ⟨t, et, _⟩ := k.trace
  exact ⟨t, et.symm⟩

theorem connected_grows {P : Prim} {E : Env σ} (m : M σ) : m.trace <+: (connected P E m).trace := by
  have k := kept_grows (runHost_kept P E (E.connectCb m.host) ({ m with trace := m.trace ++ [.connected] } : M σ))
  exact (List.prefix_append _ _).trans k

theorem deliver_grows {P : Prim} {E : Env σ} (m : M σ) (x : Bytes) : m.trace <+: (deliver P E m x).trace := by
  have k := kept_grows (runHost_kept P E (E.readCb m.host x) ({ m with trace := m.trace ++ [.message x] } : M σ))
  exact (List.prefix_append _ _).trans k

theorem parse_grows {P : Prim} {E : Env σ} {m : M σ} {d : Bytes} {r : M σ × Parsed} (h : parse P E m d = .ok r) :
    m.trace <+: r.1.trace := by
  have hTwo : ∀ {r}, parseTwo P E m d = .ok r → m.trace <+: r.1.trace := by
    intro r h
    unfold parseTwo at h
    by_cases h1 : d.length ≠ actTwoSize
    · rw [if_pos h1] at h; cases h
    rw [if_neg h1] at h
    obtain ⟨x, _, h⟩ := Out.bind_eq_ok.1 h
    by_cases h2 : x.2 = false
    · rw [if_pos h2] at h; cases Out.ok.inj h; exact List.prefix_rfl
    rw [if_neg h2] at h
    obtain ⟨g, _, h⟩ := Out.bind_eq_ok.1 h
    dsimp only at h
    have hw : m.trace <+: (emit E { m with b := g.1 } g.2).1.trace := List.prefix_append _ _
    generalize emit E { m with b := g.1 } g.2 = w at h hw
    by_cases h3 : w.2 ≠ 0
    · rw [if_pos h3] at h; cases Out.ok.inj h; exact hw
    · rw [if_neg h3] at h; cases Out.ok.inj h; exact hw.trans (connected_grows (P := P) (E := E) ({ w.1 with b := { w.1.b with state := .done } } : M σ))
  have hOne : ∀ {r}, parseOne P E m d = .ok r → m.trace <+: r.1.trace := by
    intro r h
    unfold parseOne at h
    by_cases h1 : d.length ≠ actOneSize
    · rw [if_pos h1] at h; cases h
    rw [if_neg h1] at h
    obtain ⟨x, _, h⟩ := Out.bind_eq_ok.1 h
    by_cases h2 : x.2 = false
    · rw [if_pos h2] at h; cases Out.ok.inj h; exact List.prefix_rfl
    rw [if_neg h2] at h
    obtain ⟨g, _, h⟩ := Out.bind_eq_ok.1 h
    dsimp only at h
    have hw : m.trace <+: (emit E { m with b := g.1 } g.2).1.trace := List.prefix_append _ _
    generalize emit E { m with b := g.1 } g.2 = w at h hw
    by_cases h3 : w.2 ≠ 0
    · rw [if_pos h3] at h; cases Out.ok.inj h; exact hw
    · rw [if_neg h3] at h; cases Out.ok.inj h; exact hw
  have hThree : ∀ {r}, parseThree P E m d = .ok r → m.trace <+: r.1.trace := by
    intro r h
    unfold parseThree at h
    by_cases h1 : d.length ≠ actThreeSize
    · rw [if_pos h1] at h; cases h
    rw [if_neg h1] at h
    obtain ⟨x, _, h⟩ := Out.bind_eq_ok.1 h
    by_cases h2 : x.2 = false
    · rw [if_pos h2] at h; cases Out.ok.inj h; exact List.prefix_rfl
    rw [if_neg h2] at h
    cases Out.ok.inj h
    exact connected_grows (P := P) (E := E) ({ m with b := { x.1 with state := .done } } : M σ)
  have hBody : ∀ {r}, parseBody P E m d = .ok r → m.trace <+: r.1.trace := by
    intro r h
    unfold parseBody at h
    by_cases h1 : d.length < 16
    · rw [if_pos h1] at h; cases h
    rw [if_neg h1] at h
    dsimp only at h
    generalize csDecrypt P m.b.recv none (d.take (d.length - 16)) = c at h
    by_cases h2 : csVerify c.1 (d.drop (d.length - 16)) = false
    · rw [if_pos h2] at h; cases Out.ok.inj h; exact List.prefix_rfl
    · rw [if_neg h2] at h; cases Out.ok.inj h
      exact deliver_grows (P := P) (E := E) ({ m with b := { m.b with recv := c.1, hasSize := false } } : M σ) c.2
  have hHeader : ∀ {r}, parseHeader P m d = .ok r → m.trace <+: r.1.trace := by
    intro r h
    unfold parseHeader at h
    by_cases h1 : d.length ≠ headerSize
    · rw [if_pos h1] at h; cases h
    rw [if_neg h1] at h
    dsimp only at h
    generalize csDecrypt P m.b.recv none (d.take 4) = c at h
    by_cases h2 : csVerify c.1 (d.drop 4) = false
    · rw [if_pos h2] at h; cases Out.ok.inj h; exact List.prefix_rfl
    rw [if_neg h2] at h
    by_cases h3 : 2 ^ 31 ≤ leNat c.2 ∨ maxMessage < leNat c.2
    · rw [if_pos h3] at h; cases Out.ok.inj h; exact List.prefix_rfl
    · rw [if_neg h3] at h; cases Out.ok.inj h; exact List.prefix_rfl
  have hDone : ∀ {r}, (if m.b.hasSize then parseBody P E m d else parseHeader P m d) = .ok r → m.trace <+: r.1.trace := by
    intro r h
    by_cases hz : m.b.hasSize = true
    · rw [if_pos hz] at h; exact hBody h
    · rw [if_neg hz] at h; exact hHeader h
  unfold parse at h
  cases hi : m.b.initiator <;> cases hs : m.b.state <;> rw [hi, hs] at h <;> dsimp only at h
  all_goals first
    | (cases h; done)
    | exact hTwo h
    | exact hOne h
    | exact hThree h
    | exact hDone h

theorem readLoop_grows {P : Prim} {E : Env σ} : ∀ (f : Nat) (m : M σ) (buf data : Bytes) (r : M σ × Nat),
    readLoop P E f m buf data = .ok r → m.trace <+: r.1.trace := by
  intro f
  induction f with
  | zero => intro m buf data r h; cases h
  | succ f ih =>
    intro m buf data r hr
    unfold readLoop at hr
    by_cases hn : m.b.need ≤ buf.length + data.length
    case neg => rw [if_neg hn] at hr; cases Out.ok.inj hr; exact List.prefix_rfl
    rw [if_pos hn] at hr
    by_cases hn2 : m.b.need ≤ buf.length
    · rw [if_pos hn2] at hr; cases hr
    rw [if_neg hn2] at hr
    dsimp only at hr
    obtain ⟨⟨m1, p⟩, hp, hr⟩ := Out.bind_eq_ok.1 hr
    have g := parse_grows hp
    cases p with
    | fail c => cases Out.ok.inj hr; exact g
    | next n =>
      dsimp only at hr
      by_cases hz : m1.b.state = .none
      · rw [if_pos hz] at hr; cases Out.ok.inj hr; exact g
      rw [if_neg hz] at hr
      by_cases hn0 : n = 0
      · rw [if_pos hn0] at hr; cases hr
      rw [if_neg hn0] at hr
      have k := ih _ _ _ r hr
      exact g.trans k

theorem step_grows {P : Prim} {E : Env σ} {m m' : M σ} {o : Op σ} (h : step P E m o = .ok m') : m.trace <+: m'.trace := by
  cases o with
  | act f => cases Out.ok.inj h; exact kept_grows (runHost_kept P E _ _)
  | read d =>
    have hf : feed P E m d = .ok m' := h
    unfold feed onRead at hf
    by_cases hz : m.b.state = .none
    · rw [if_pos hz] at hf; cases Out.ok.inj hf; exact List.prefix_rfl
    rw [if_neg hz] at hf
    cases hb : m.b.buf with
    | none => rw [hb] at hf; cases hf
    | some buf =>
      rw [hb] at hf
      obtain ⟨r, hr, e⟩ := Out.bind_eq_ok.1 hf
      cases Out.ok.inj e
      exact readLoop_grows _ _ _ _ _ hr

theorem outs_grows {a b : List Ev} (h : a <+: b) : outs a <+: outs b := by
  obtain ⟨t, rfl⟩ := h
  rw [outs_append]; exact List.prefix_append _ _

/-! ### Between honest ends -/

theorem take_of_prefix {a b c : Bytes} (h : a <+: b ++ c) (hl : b.length ≤ a.length) : a.take b.length = b := by
  obtain ⟨t, ht⟩ := h
  have := congrArg (List.take b.length) ht
  rwa [List.take_append_of_le_length hl, List.take_append_of_le_length (by omega), List.take_of_length_le (l := b) (by omega)] at this

theorem drop_of_prefix {a b c : Bytes} (h : a <+: b ++ c) (hl : b.length ≤ a.length) : a.drop b.length <+: c := by
  obtain ⟨t, ht⟩ := h
  have := congrArg (List.drop b.length) ht
  rw [List.drop_append, List.drop_append, show b.length - a.length = 0 by omega, List.drop_of_length_le (l := b) (by omega)] at this
  simp only [List.drop_zero, List.nil_append, Nat.sub_self] at this
  exact ⟨t, this⟩

/-- The streams between two honest ends: `a` and `b` are what initiator and responder have
said, `xI` and `xR` what they have read of it. -/
structure Streams (P : Prim) (s r ei er : KeyPair) (n0 n2 : Noise × Bytes) (g : (Line × Line) × Bytes)
    (a b xI xR : Bytes) (wI wR : List Bytes) : Prop where
  l0 : n0.2.length = 80
  two : rTwo P r er n0.2 = some n2
  l2 : n2.2.length = 80
  three : iThree P s ei n0.1 n2.2 = some g
  l3 : g.2.length = 65
  done : rDone P er n2.1 g.2 = some (g.1, s.pub)
  ha : a <+: initiatorSays P s ei n0 xI wI
  hb : b <+: responderSays P r er xR wR
  hI : xI <+: b
  hR : xR <+: a

namespace Streams
variable {P : Prim} {s r ei er : KeyPair} {n0 n2 : Noise × Bytes} {g : (Line × Line) × Bytes}
  {a b xI xR : Bytes} {wI wR : List Bytes}

theorem r80 (h : Streams P s r ei er n0 n2 g a b xI xR wI wR) (h1 : 80 ≤ xR.length) : xR.take 80 = n0.2 := by
  have hp : xR <+: n0.2 ++ _ := h.hR.trans h.ha
  have := take_of_prefix hp (by rw [h.l0]; exact h1)
  rwa [h.l0] at this

theorem rsays (h : Streams P s r ei er n0 n2 g a b xI xR wI wR) (h1 : 80 ≤ xR.length) :
    responderSays P r er xR wR = n2.2 ++ (if (xR.drop 80).length < 65 then [] else
      match rDone P er n2.1 ((xR.drop 80).take 65) with
      | none => []
      | some d => packets P d.1.2 0 wR) := by
  unfold responderSays
  rw [if_neg (by omega), h.r80 h1, h.two]
  dsimp only
  cases rDone P er n2.1 ((xR.drop 80).take 65) <;> rfl

theorem b_pos (h : Streams P s r ei er n0 n2 g a b xI xR wI wR) (h1 : 0 < b.length) : 80 ≤ xR.length := by
  refine Classical.byContradiction fun hn => ?_
  have hb := h.hb
  unfold responderSays at hb
  rw [if_pos (by omega)] at hb
  rw [List.prefix_nil.1 hb] at h1
  exact absurd h1 (by simp)

theorem i80 (h : Streams P s r ei er n0 n2 g a b xI xR wI wR) (h1 : 80 ≤ xI.length) : xI.take 80 = n2.2 := by
  have hr := h.b_pos (by have := h.hI.length_le; omega)
  have hp := h.hI.trans h.hb
  rw [h.rsays hr] at hp
  have := take_of_prefix hp (by rw [h.l2]; exact h1)
  rwa [h.l2] at this

theorem isays (h : Streams P s r ei er n0 n2 g a b xI xR wI wR) (h1 : 80 ≤ xI.length) :
    initiatorSays P s ei n0 xI wI = n0.2 ++ (g.2 ++ packets P g.1.1 0 wI) := by
  unfold initiatorSays
  rw [if_neg (by omega), h.i80 h1, h.three]

theorem a_80 (h : Streams P s r ei er n0 n2 g a b xI xR wI wR) (h1 : 80 < a.length) : 80 ≤ xI.length := by
  refine Classical.byContradiction fun hn => ?_
  have ha := h.ha
  unfold initiatorSays at ha
  rw [if_pos (by omega)] at ha
  have := ha.length_le
  rw [List.length_append, h.l0] at this
  simp at this
  omega

theorem r145 (h : Streams P s r ei er n0 n2 g a b xI xR wI wR) (h1 : 145 ≤ xR.length) :
    (xR.drop 80).take 65 = g.2 ∧ (xR.drop 80).drop 65 <+: packets P g.1.1 0 wI := by
  have h80 := h.a_80 (by have := h.hR.length_le; omega)
  have hp := h.hR.trans h.ha
  rw [h.isays h80] at hp
  have hd := drop_of_prefix hp (by rw [h.l0]; omega)
  rw [h.l0] at hd
  have e1 := take_of_prefix hd (by rw [h.l3, List.length_drop]; omega)
  have e2 := drop_of_prefix hd (by rw [h.l3, List.length_drop]; omega)
  rw [h.l3] at e1 e2
  exact ⟨e1, e2⟩

theorem rsays2 (h : Streams P s r ei er n0 n2 g a b xI xR wI wR) (h1 : 145 ≤ xR.length) :
    responderSays P r er xR wR = n2.2 ++ packets P g.1.2 0 wR := by
  rw [h.rsays (by omega), if_neg (by rw [List.length_drop]; omega), (h.r145 h1).1, h.done]

theorem b_80 (h : Streams P s r ei er n0 n2 g a b xI xR wI wR) (h1 : 80 < b.length) : 145 ≤ xR.length := by
  refine Classical.byContradiction fun hn => ?_
  have hb := h.hb
  rw [h.rsays (h.b_pos (by omega)), if_pos (by rw [List.length_drop]; omega)] at hb
  have := hb.length_le
  rw [List.length_append, h.l2] at this
  simp at this
  omega

theorem irest (h : Streams P s r ei er n0 n2 g a b xI xR wI wR) (h1 : 80 ≤ xI.length) :
    xI.drop 80 <+: packets P g.1.2 0 wR := by
  by_cases hb : 80 < b.length
  · have hp := h.hI.trans h.hb
    rw [h.rsays2 (h.b_80 hb)] at hp
    have := drop_of_prefix hp (by rw [h.l2]; exact h1)
    rwa [h.l2] at this
  · have := h.hI.length_le
    rw [List.drop_of_length_le (by omega)]
    exact List.nil_prefix

theorem ihears (h : Streams P s r ei er n0 n2 g a b xI xR wI wR) (hL : Laws P) (hw : ∀ x ∈ wR, x.length ≤ maxSize) :
    ∃ ms, ms <+: wR ∧ initiatorHears P s ei n0.1 xI = (ms, true) ∧
      (80 ≤ xI.length → xI.drop 80 = packets P g.1.2 0 wR → ms = wR) := by
  by_cases h1 : 80 ≤ xI.length
  · obtain ⟨ms, k1, k2, k3⟩ := plain_prefix hL g.1.2 wR 0 _ hw (h.irest h1)
    refine ⟨ms, k1, ?_, fun _ => k3⟩
    unfold initiatorHears
    rw [if_neg (by omega), h.i80 h1, h.three]
    exact k2
  · refine ⟨[], List.nil_prefix, ?_, fun h2 => absurd h2 h1⟩
    unfold initiatorHears
    rw [if_pos (by omega)]

theorem rhears (h : Streams P s r ei er n0 n2 g a b xI xR wI wR) (hL : Laws P) (hw : ∀ x ∈ wI, x.length ≤ maxSize) :
    ∃ ms, ms <+: wI ∧ responderHears P r er xR = (ms, true) ∧
      (145 ≤ xR.length → (xR.drop 80).drop 65 = packets P g.1.1 0 wI → ms = wI) := by
  by_cases h1 : 145 ≤ xR.length
  · obtain ⟨ms, k1, k2, k3⟩ := plain_prefix hL g.1.1 wI 0 _ hw (h.r145 h1).2
    refine ⟨ms, k1, ?_, fun _ => k3⟩
    unfold responderHears
    rw [if_neg (by omega), h.r80 (by omega), h.two]
    dsimp only
    rw [if_neg (by rw [List.length_drop]; omega), (h.r145 h1).1, h.done]
    exact k2
  · refine ⟨[], List.nil_prefix, ?_, fun h2 => absurd h2 h1⟩
    unfold responderHears
    by_cases h2 : xR.length < 80
    · rw [if_pos h2]
    · rw [if_neg h2, h.r80 (by omega), h.two]
      dsimp only
      rw [if_pos (by rw [List.length_drop]; omega)]

end Streams

theorem dec_of_done {P : Prim} {e : KeyPair} {n : Noise} {act : Bytes} {d : (Line × Line) × Bytes} (h : rDone P e n act = some d) :
    Noise.dec P n 1 (act.take 33) ((act.drop 33).take 16) = some d.2 ∧ P.ecdh d.2 e.priv ≠ none := by
  unfold rDone at h
  dsimp only at h
  cases h1 : Noise.dec P n 1 (act.take 33) ((act.drop 33).take 16) with
  | none => rw [h1] at h; cases h
  | some y =>
    rw [h1] at h
    simp only [Option.bind_eq_bind, Option.bind_some] at h
    cases h2 : P.ecdh y e.priv with
    | none => rw [h2] at h; cases h
    | some z =>
      rw [h2] at h
      simp only [Option.bind_some] at h
      cases h3 : Noise.dec P (Noise.dh P (Noise.mix P n (act.take 33 ++ (act.drop 33).take 16)) z) 0 [] (act.drop 49) with
      | none => rw [h3] at h; cases h
      | some w =>
        rw [h3] at h
        cases h
        exact ⟨rfl, by rw [h2]; simp⟩

/-- The state of the two ends and the channel. -/
structure NetInv (P : Prim) (s r ei er : KeyPair) (n0 : Noise × Bytes) (n : Net σ τ) : Prop where
  i : InvI P s ei n0 ((outs n.r.trace).take n.ci) n.i
  r : InvR P r er ((outs n.i.trace).take n.cr) n.r
  ci : n.ci ≤ (outs n.r.trace).length
  cr : n.cr ≤ (outs n.i.trace).length

theorem isays_mono {P : Prim} {s e : KeyPair} {n : Noise × Bytes} (x d : Bytes) (w : List Bytes) :
    initiatorSays P s e n x w <+: initiatorSays P s e n (x ++ d) w := by
  unfold initiatorSays
  by_cases h : x.length < 80
  · rw [if_pos h, List.append_nil]; exact List.prefix_append _ _
  · rw [if_neg h, if_neg (by simp only [List.length_append]; omega), List.take_append_of_le_length (by omega)]
    exact List.prefix_rfl

theorem rsays_mono {P : Prim} {s e : KeyPair} (x d : Bytes) (w : List Bytes) :
    responderSays P s e x w <+: responderSays P s e (x ++ d) w := by
  unfold responderSays
  by_cases h : x.length < 80
  · rw [if_pos h]; exact List.nil_prefix
  rw [if_neg h, if_neg (by simp only [List.length_append]; omega), List.take_append_of_le_length (by omega)]
  cases rTwo P s e (x.take 80) with
  | none => exact List.prefix_rfl
  | some n =>
    dsimp only
    refine (List.prefix_append_right_inj _).2 ?_
    by_cases h2 : (x.drop 80).length < 65
    · rw [if_pos h2]; exact List.nil_prefix
    rw [if_neg h2]
    have e1 : (x ++ d).drop 80 = x.drop 80 ++ d := by
      rw [List.drop_append, show 80 - x.length = 0 by omega, List.drop_zero]
    rw [e1, if_neg (by simp only [List.length_append]; omega), List.take_append_of_le_length (by omega)]
    exact List.prefix_rfl

/-- The fixed part of `Streams`. -/
structure Acts (P : Prim) (s r ei er : KeyPair) (n0 n2 : Noise × Bytes) (g : (Line × Line) × Bytes) : Prop where
  l0 : n0.2.length = 80
  two : rTwo P r er n0.2 = some n2
  l2 : n2.2.length = 80
  three : iThree P s ei n0.1 n2.2 = some g
  l3 : g.2.length = 65
  done : rDone P er n2.1 g.2 = some (g.1, s.pub)

theorem NetInv.streams {P : Prim} {s r ei er : KeyPair} {n0 n2 : Noise × Bytes} {g : (Line × Line) × Bytes} {n : Net σ τ}
    (h : NetInv P s r ei er n0 n) (hA : Acts P s r ei er n0 n2 g) {xI xR dI dR : Bytes}
    (eI : xI = (outs n.r.trace).take n.ci ++ dI) (eR : xR = (outs n.i.trace).take n.cr ++ dR)
    (hI : xI <+: outs n.r.trace) (hR : xR <+: outs n.i.trace) :
    Streams P s r ei er n0 n2 g (outs n.i.trace) (outs n.r.trace) xI xR (writes n.i.trace) (writes n.r.trace) := by
  refine ⟨hA.l0, hA.two, hA.l2, hA.three, hA.l3, hA.done, ?_, ?_, hI, hR⟩
  · rw [eI]; exact (invI_facts h.i).sent.trans (isays_mono _ _ _)
  · rw [eR]; exact (invR_facts h.r).sent.trans (rsays_mono _ _ _)

theorem Streams.okI {P : Prim} {s r ei er : KeyPair} {n0 n2 : Noise × Bytes} {g : (Line × Line) × Bytes}
    {a b xI xR : Bytes} {wI wR : List Bytes} (h : Streams P s r ei er n0 n2 g a b xI xR wI wR) (hL : Laws P)
    (hs : P.pubOf s.priv = some s.pub) (hei : Genuine P ei)
    (hf : ∃ re, P.fromHash (n2.2.take 64) = some re) : OkI P s ei xI := by
  intro h1
  obtain ⟨re, hre⟩ := hf
  refine ⟨re, ?_, fun hk => ⟨hL.ecdh_def _ _ _ hk hei.1, hL.ecdh_def _ _ _ hk hs⟩⟩
  rw [← hre, ← h.i80 h1, List.take_take]
  rfl

theorem three_from {P : Prim} {s e : KeyPair} {n : Noise} {act : Bytes} {g : (Line × Line) × Bytes}
    (h : iThree P s e n act = some g) : ∃ re, P.fromHash (act.take 64) = some re := by
  unfold iThree at h
  cases h1 : P.fromHash (act.take 64) with
  | none => rw [h1] at h; cases h
  | some re => exact ⟨re, rfl⟩

theorem two_from {P : Prim} {s e : KeyPair} {act : Bytes} {g : Noise × Bytes}
    (h : rTwo P s e act = some g) :
    ∃ ie, P.fromHash (act.take 64) = some ie ∧ P.ecdh ie s.priv ≠ none ∧ P.ecdh ie e.priv ≠ none := by
  unfold rTwo at h
  cases h1 : P.fromHash (act.take 64) with
  | none => rw [h1] at h; cases h
  | some ie =>
    rw [h1] at h
    simp only [Option.bind_eq_bind, Option.bind_some] at h
    cases h2 : P.ecdh ie s.priv with
    | none => rw [h2] at h; cases h
    | some es =>
      rw [h2] at h
      simp only [Option.bind_some] at h
      cases h3 : Noise.dec P (ephemeral P (start P s.pub) ie es) 0 [] (act.drop 64) with
      | none => rw [h3] at h; cases h
      | some w =>
        rw [h3] at h
        simp only [Option.bind_some] at h
        cases h4 : P.ecdh ie e.priv with
        | none => rw [h4] at h; cases h
        | some ee => exact ⟨ie, rfl, by simp [h2], by simp [h4]⟩

theorem Streams.okR {P : Prim} {s r ei er : KeyPair} {n0 n2 : Noise × Bytes} {g : (Line × Line) × Bytes}
    {a b xI xR : Bytes} {wI wR : List Bytes} (h : Streams P s r ei er n0 n2 g a b xI xR wI wR) : OkR P r er xR := by
  refine ⟨fun h1 => ?_, fun h1 n hn y hy => ?_⟩
  · obtain ⟨ie, k1, k2, k3⟩ := two_from h.two
    refine ⟨ie, ?_, k2, k3⟩
    rw [← k1, ← h.r80 h1, List.take_take]
    rfl
  · rw [h.r80 (by omega), h.two] at hn
    cases hn
    rw [(h.r145 h1).1] at hy
    have := dec_of_done h.done
    rw [this.1] at hy
    cases hy
    exact this.2

theorem take_more (l : Bytes) (c k : Nat) :
    l.take (c + ((l.drop c).take k).length) = l.take c ++ (l.drop c).take k := by
  rw [List.take_add, List.length_take, List.length_drop]
  congr 1
  by_cases h : k ≤ l.length - c
  · rw [Nat.min_eq_left h]
  · rw [Nat.min_eq_right (by omega), List.take_of_length_le (by rw [List.length_drop]; omega),
      List.take_of_length_le (by rw [List.length_drop]; omega)]

theorem take_grows {a b : Bytes} {c : Nat} (h : a <+: b) (hc : c ≤ a.length) : b.take c = a.take c ∧ c ≤ b.length := by
  obtain ⟨t, rfl⟩ := h
  exact ⟨List.take_append_of_le_length hc, by rw [List.length_append]; omega⟩

theorem netStep_inv {P : Prim} {EI : Env σ} {ER : Env τ} {s r ei er : KeyPair} {n0 n2 : Noise × Bytes} {g : (Line × Line) × Bytes}
    {n : Net σ τ} {o : NetOp σ τ} (hL : Laws P) (hs : P.pubOf s.priv = some s.pub)
    (hei : Genuine P ei) (her : Draws P ER.rand er) (hA : Acts P s r ei er n0 n2 g) (h : NetInv P s r ei er n0 n) :
    ∃ n', netStep P EI ER n o = .ok n' ∧ NetInv P s r ei er n0 n' := by
  cases o with
  | toI k =>
    unfold netStep
    dsimp only
    have e := take_more (outs n.r.trace) n.ci k
    generalize hd : ((outs n.r.trace).drop n.ci).take k = d at e
    have hlen : n.ci + d.length ≤ (outs n.r.trace).length := by
      have := h.ci; rw [← hd, List.length_take, List.length_drop]; omega
    have hst := h.streams hA (xI := (outs n.r.trace).take n.ci ++ d) (xR := (outs n.i.trace).take n.cr) (dR := []) rfl
      (by rw [List.append_nil]) (by rw [← e]; exact List.take_prefix _ _) (List.take_prefix _ _)
    obtain ⟨i', hi⟩ := stepI_def (E := EI) (o := .read d) hs h.i
      (by simp only [arrived, List.append_nil]; exact hst.okI hL hs hei (three_from hA.three))
    rw [hi]
    refine ⟨_, rfl, ?_⟩
    have hI := step_invI hs h.i hi
    simp only [arrived, List.append_nil] at hI
    have hg := take_grows (outs_grows (step_grows hi)) h.cr
    exact ⟨by dsimp only; rw [e]; exact hI, by dsimp only; rw [hg.1]; exact h.r, hlen, hg.2⟩
  | toR k =>
    unfold netStep
    dsimp only
    have e := take_more (outs n.i.trace) n.cr k
    generalize hd : ((outs n.i.trace).drop n.cr).take k = d at e
    have hlen : n.cr + d.length ≤ (outs n.i.trace).length := by
      have := h.cr; rw [← hd, List.length_take, List.length_drop]; omega
    have hst := h.streams hA (xI := (outs n.r.trace).take n.ci) (dI := []) (xR := (outs n.i.trace).take n.cr ++ d)
      (by rw [List.append_nil]) rfl (List.take_prefix _ _) (by rw [← e]; exact List.take_prefix _ _)
    obtain ⟨r', hr⟩ := stepR_def (E := ER) (o := .read d) (keeps hL) her h.r
      (by simp only [arrived, List.append_nil]; exact hst.okR)
    rw [hr]
    refine ⟨_, rfl, ?_⟩
    have hR := step_invR (keeps hL) her h.r hr
    simp only [arrived, List.append_nil] at hR
    have hg := take_grows (outs_grows (step_grows hr)) h.ci
    exact ⟨by dsimp only; rw [hg.1]; exact h.i, by dsimp only; rw [e]; exact hR, hg.2, hlen⟩
  | hostI f =>
    unfold netStep
    dsimp only
    have hi : step P EI n.i (.act f) = .ok (runHost P EI (f n.i.host) n.i) := rfl
    rw [hi]
    refine ⟨_, rfl, ?_⟩
    have hI := step_invI hs h.i hi
    simp only [arrived, List.append_nil] at hI
    have hg := take_grows (outs_grows (step_grows hi)) h.cr
    exact ⟨hI, by dsimp only; rw [hg.1]; exact h.r, h.ci, hg.2⟩
  | hostR f =>
    unfold netStep
    dsimp only
    have hr : step P ER n.r (.act f) = .ok (runHost P ER (f n.r.host) n.r) := rfl
    rw [hr]
    refine ⟨_, rfl, ?_⟩
    have hR := step_invR (keeps hL) her h.r hr
    simp only [arrived, List.append_nil] at hR
    have hg := take_grows (outs_grows (step_grows hr)) h.ci
    exact ⟨by dsimp only; rw [hg.1]; exact h.i, hR, hg.2, h.cr⟩

theorem netRun_inv {P : Prim} {EI : Env σ} {ER : Env τ} {s r ei er : KeyPair} {n0 n2 : Noise × Bytes} {g : (Line × Line) × Bytes}
    (hL : Laws P) (hs : P.pubOf s.priv = some s.pub)
    (hei : Genuine P ei) (her : Draws P ER.rand er) (hA : Acts P s r ei er n0 n2 g) :
    ∀ (os : List (NetOp σ τ)) {n : Net σ τ}, NetInv P s r ei er n0 n →
      ∃ n', netRun P EI ER os n = .ok n' ∧ NetInv P s r ei er n0 n' := by
  intro os
  induction os with
  | nil => intro n h; exact ⟨n, rfl, h⟩
  | cons o os ih =>
    intro n h
    obtain ⟨n1, h1, h2⟩ := netStep_inv (EI := EI) (o := o) hL hs hei her hA h
    obtain ⟨n', h3, h4⟩ := ih h2
    refine ⟨n', ?_, h4⟩
    unfold netRun
    rw [h1]
    exact h3

/-- The initiator's state once it has read act two. -/
theorem invI_done {P : Prim} {s e : KeyPair} {n : Noise × Bytes} {x : Bytes} {m : M σ} (h : InvI P s e n x m)
    (h1 : 80 ≤ x.length) (h2 : m.b.state ≠ .none) : m.b.state = .done := by
  rcases h with ⟨hw, _⟩ | ⟨g, hg, hx, hlive⟩ | hdead
  · have := hw.short; omega
  · exact (live_facts hlive).1
  · exact absurd hdead.1 h2

theorem invR_done {P : Prim} {s e : KeyPair} {x : Bytes} {m : M σ} (h : InvR P s e x m)
    (h1 : 145 ≤ x.length) (h2 : m.b.state ≠ .none) : m.b.state = .done ∧
      ∃ n g, rTwo P s e (x.take 80) = some n ∧ rDone P e n.1 ((x.drop 80).take 65) = some g ∧ m.b.remoteStatic = g.2 := by
  rcases h with ⟨hw, _⟩ | ⟨a, n, x', rfl, ha, hn, hw, _⟩ | ⟨a, n, g, x', rfl, ha, hn, hg, h65, hlive, hrs⟩ | hdead
  · have := hw.short; omega
  · have := hw.short; rw [List.length_append] at h1; omega
  · refine ⟨(live_facts hlive).1, n, g, ?_, ?_, hrs⟩
    · rw [List.take_append_of_le_length (by omega), List.take_of_length_le (by omega)]; exact hn
    · rw [List.drop_append, List.drop_of_length_le (by omega), ha, Nat.sub_self, List.drop_zero, List.nil_append]; exact hg
  · exact absurd hdead.1 h2

theorem dial_def {P : Prim} {E : Env σ} {h : σ} {k rs : Bytes} {e : KeyPair} (he : Draws P E.rand e)
    (hd : P.ecdh rs e.priv ≠ none) : ∃ m, dial P E h k rs = .ok m := by
  obtain ⟨b1, hb1, sy1, cs1, ck1, tp1, dg1, eb1⟩ := initState_spec (P := P) (b := bInit) (k := k) (rs := rs) csInit_iv
  unfold dial
  rw [hb1]
  simp only [Out.bind]
  unfold onConnect
  dsimp only
  rw [if_pos (by rw [eb1])]
  obtain ⟨r, hr⟩ := genEph_def (b := { b1 with state := .two }) (remote := b1.remoteStatic) he (by rw [eb1]; exact hd)
  unfold genActOne
  dsimp only
  rw [hr]
  simp only [Out.bind_ok]
  generalize emit E _ _ = w
  by_cases h0 : w.2 ≠ 0
  · rw [if_pos h0]; exact ⟨_, rfl⟩
  · rw [if_neg h0]; exact ⟨_, rfl⟩

theorem listen_def {P : Prim} {E : Env σ} {h : σ} {s : KeyPair} (hs : P.pubOf s.priv = some s.pub) :
    ∃ m, listen P E h s.priv = .ok m := by
  obtain ⟨b1, hb1, sy1, cs1, ck1, tp1, dg1, eb1⟩ := acceptState_spec (P := P) (b := bInit) (k := s.priv) csInit_iv hs
  unfold listen accept
  dsimp only
  rw [hb1]
  simp only [Out.bind_ok]
  unfold onConnect
  dsimp only
  rw [if_neg (by rw [eb1]; simp)]
  exact ⟨_, rfl⟩

end Verif.Brontide
