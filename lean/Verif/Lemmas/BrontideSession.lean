import Verif.Lemmas.BrontideActs
/-
Helper lemmas: whole sessions, from the first byte on.
-/
namespace Verif.Brontide
open Verif.Spec.Brontide
variable {σ : Type}

/-- An established session which hears `H` and says `S`, `x` having been read. -/
structure Live (P : Prim) (lr ls : Line) (pre : Bytes) (H : Bytes → List Bytes × Bool) (S : Bytes → List Bytes → Bytes)
    (x : Bytes) (m : M σ) : Prop where
  hear : ∃ i buf, m.b.buf = some buf ∧ Est P lr i m buf ∧
    ∀ s, H (x ++ s) = (messages m.trace ++ (said P lr i m.b (buf ++ s)).1, (said P lr i m.b (buf ++ s)).2)
  say : Sends P ls pre m
  said : ∀ s w, S (x ++ s) w = pre ++ packets P ls 0 w

/-- A session that is over: ended from this side, or by what was read. -/
def Dead (H : Bytes → List Bytes × Bool) (S : Bytes → List Bytes → Bytes) (x : Bytes) (m : M σ) : Prop :=
  m.b.state = .none ∧
  ((Cut m.trace ∧ ∀ s, messages m.trace <+: (H (x ++ s)).1 ∧ outs m.trace <+: S (x ++ s) (writes m.trace)) ∨
   (∀ s, H (x ++ s) = (messages m.trace, false) ∧ outs m.trace = S (x ++ s) (writes m.trace)))

theorem feed_dead {P : Prim} {E : Env σ} {H : Bytes → List Bytes × Bool} {S : Bytes → List Bytes → Bytes} {x : Bytes} {m m' : M σ}
    {data : Bytes} (h : Dead H S x m) (hf : feed P E m data = .ok m') : Dead H S (x ++ data) m' := by
  unfold feed onRead at hf
  rw [if_pos h.1] at hf
  cases Out.ok.inj hf
  refine ⟨h.1, h.2.imp (fun k => ⟨k.1, fun s => ?_⟩) (fun k s => ?_)⟩
  · rw [List.append_assoc]; exact k.2 _
  · rw [List.append_assoc]; exact k _

theorem cut_of {a b c : List Ev} (h : Cut b) (e : c = a ++ b) : Cut c := by
  rw [e]
  rcases h with h | ⟨d, r, h, hr⟩
  · exact Or.inl (List.mem_append_right _ h)
  · exact Or.inr ⟨d, r, List.mem_append_right _ h, hr⟩

theorem act_dead {H : Bytes → List Bytes × Bool} {S : Bytes → List Bytes → Bytes} {x : Bytes} {m m' : M σ}
    (h : Dead H S x m) (k : Kept m m') : Dead H S x m' := by
  obtain ⟨_, hs, t, et, em, _, ed⟩ := k
  have hd := ed (by rw [h.1]; simp)
  have e1 : messages m'.trace = messages m.trace := by rw [et, messages_append, em, List.append_nil]
  have e2 : outs m'.trace = outs m.trace := by rw [et, outs_append, hd.2, List.append_nil]
  have e3 : writes m'.trace = writes m.trace := by rw [et, writes_append, hd.1, List.append_nil]
  refine ⟨?_, ?_⟩
  · rcases hs with hs | hs
    · rw [hs]; exact h.1
    · exact hs
  · rw [e1, e2, e3]
    exact h.2.imp (fun k => ⟨by rw [et]; exact cut_append k.1 t, k.2⟩) id

theorem est_kept {P : Prim} {l : Line} {i : Nat} {m m' : M σ} {buf : Bytes} (h : Est P l i m buf) (k : Kept m m')
    (hz : m'.b.state ≠ .none) : Est P l i m' buf ∧ ∀ s, said P l i m'.b s = said P l i m.b s := by
  obtain ⟨⟨s, st, e⟩, hs, _⟩ := k
  have hd : m'.b.state = .done := by
    rcases hs with hs | hs
    · rw [hs]; exact h.done
    · exact absurd hs hz
  refine ⟨⟨hd, ?_, ?_, ?_⟩, fun s => ?_⟩
  · rw [e]; exact h.recv
  · rw [e]; exact h.room
  · rw [e]; exact h.size
  · rw [e]; rfl

theorem act_live {P : Prim} {E : Env σ} {lr ls : Line} {pre : Bytes} {H : Bytes → List Bytes × Bool}
    {S : Bytes → List Bytes → Bytes} {x : Bytes} {m : M σ} (h : Live P lr ls pre H S x m) (f : Host σ) :
    Live P lr ls pre H S x (runHost P E f m) ∨ Dead H S x (runHost P E f m) := by
  have k := runHost_kept P E f m
  have hs := runHost_sends (E := E) f h.say
  obtain ⟨i, buf, hb, he, hH⟩ := h.hear
  obtain ⟨t, et, em, ec, _⟩ := k.trace
  have e1 : messages (runHost P E f m).trace = messages m.trace := by rw [et, messages_append, em, List.append_nil]
  by_cases hz : (runHost P E f m).b.state = .none
  · refine Or.inr ⟨hz, Or.inl ⟨cut_of (ec (by rw [hz, he.done]; simp)) et, fun s => ⟨?_, ?_⟩⟩⟩
    · rw [e1, hH]; exact List.prefix_append _ _
    · rw [h.said]; exact hs.le
  · have he' := est_kept he k hz
    refine Or.inl ⟨⟨i, buf, ?_, he'.1, fun s => ?_⟩, hs, h.said⟩
    · obtain ⟨s, st, e⟩ := k.b; rw [e]; exact hb
    · rw [e1, hH, he'.2]

/-- What the loop does from an established state, in the terms of `Live` and `Dead`. -/
theorem loop_live {P : Prim} {E : Env σ} {lr ls : Line} {pre : Bytes} {H : Bytes → List Bytes × Bool}
    {S : Bytes → List Bytes → Bytes} {x : Bytes} {m : M σ} {fuel i : Nat} {buf data : Bytes} {r : M σ × Nat}
    (he : Est P lr i m buf)
    (hH : ∀ s, H (x ++ s) = (messages m.trace ++ (said P lr i m.b (buf ++ s)).1, (said P lr i m.b (buf ++ s)).2))
    (hs : Sends P ls pre m) (hS : ∀ s w, S (x ++ s) w = pre ++ packets P ls 0 w)
    (hf : data.length < fuel) (hr : readLoop P E fuel m buf data = .ok r) :
    Live P lr ls pre H S (x ++ data) r.1 ∨ Dead H S (x ++ data) r.1 := by
  have hs' := readLoop_sends fuel m buf data r he.done hs hr
  obtain ⟨m', rc, hr2, t, et, hg⟩ := readLoop_est (E := E) fuel m buf data i hf he
  rw [hr] at hr2
  cases Out.ok.inj hr2
  dsimp only at hs' ⊢
  have e1 : messages m'.trace = messages m.trace ++ messages t := by rw [et, messages_append]
  rcases hg with ⟨i', buf', hb', he', hsay⟩ | ⟨hz, hsay⟩ | ⟨hz, hc, hsay⟩
  · refine Or.inl ⟨⟨i', buf', hb', he', fun s => ?_⟩, hs', fun s w => ?_⟩
    · rw [List.append_assoc, hH, ← List.append_assoc buf, hsay, e1, List.append_assoc]
    · rw [List.append_assoc]; exact hS _ _
  · refine Or.inr ⟨hz, ?_⟩
    rcases hs'.eq with heq | ⟨_, hcut⟩
    · refine Or.inr fun s => ⟨?_, ?_⟩
      · rw [List.append_assoc, hH, ← List.append_assoc buf, hsay, e1]
      · rw [List.append_assoc, hS]; exact heq
    · refine Or.inl ⟨hcut, fun s => ⟨?_, ?_⟩⟩
      · rw [List.append_assoc, hH, ← List.append_assoc buf, hsay, e1]; exact List.prefix_rfl
      · rw [List.append_assoc, hS]; exact hs'.le
  · refine Or.inr ⟨hz, Or.inl ⟨cut_of hc et, fun s => ⟨?_, ?_⟩⟩⟩
    · rw [List.append_assoc, hH, ← List.append_assoc buf, e1]
      exact (List.prefix_append_right_inj _).2 (hsay s)
    · rw [List.append_assoc, hS]; exact hs'.le

theorem feed_live {P : Prim} {E : Env σ} {lr ls : Line} {pre : Bytes} {H : Bytes → List Bytes × Bool}
    {S : Bytes → List Bytes → Bytes} {x : Bytes} {m m' : M σ} {data : Bytes} (h : Live P lr ls pre H S x m)
    (hf : feed P E m data = .ok m') : Live P lr ls pre H S (x ++ data) m' ∨ Dead H S (x ++ data) m' := by
  obtain ⟨i, buf, hb, he, hH⟩ := h.hear
  unfold feed onRead at hf
  rw [if_neg (by rw [he.done]; simp), hb] at hf
  obtain ⟨r, hr, e⟩ := Out.bind_eq_ok.1 hf
  cases Out.ok.inj e
  exact loop_live he hH h.say h.said (by omega) hr

/-- From the moment the handshake is done: `m1` is the state in which `connect_cb` is called,
the host does `f`, and the rest of the data is read. -/
theorem loop_done {P : Prim} {E : Env σ} {lr ls : Line} {pre : Bytes} {H : Bytes → List Bytes × Bool}
    {S : Bytes → List Bytes → Bytes} {x : Bytes} {m1 : M σ} {fuel : Nat} {f : Host σ} {rest : Bytes} {r : M σ × Nat}
    (h1 : m1.b.state = .done) (h2 : m1.b.hasSize = false) (h3 : At P lr 0 m1.b.recv) (h4 : At P ls 0 m1.b.send)
    (h5 : messages m1.trace = []) (h6 : writes m1.trace = []) (h7 : outs m1.trace = pre)
    (hH : ∀ s, H (x ++ s) = plain P lr 0 s) (hS : ∀ s w, S (x ++ s) w = pre ++ packets P ls 0 w)
    (hf : rest.length < fuel)
    (hr : (if (runHost P E f m1).b.state = .none then .ok (runHost P E f m1, 0)
      else readLoop P E fuel { runHost P E f m1 with b := { (runHost P E f m1).b with buf := some [], need := headerSize } } [] rest) = .ok r) :
    Live P lr ls pre H S (x ++ rest) r.1 ∨ Dead H S (x ++ rest) r.1 := by
  have hs1 : Sends P ls pre m1 := by
    have heq : outs m1.trace = pre ++ packets P ls 0 (writes m1.trace) := by rw [h7, h6]; simp [packets]
    exact ⟨fun _ => by rw [h6]; exact h4, by rw [heq]; exact List.prefix_rfl, Or.inl heq⟩
  have hs2 := runHost_sends (E := E) f hs1
  have k := runHost_kept P E f m1
  generalize runHost P E f m1 = m2 at hr hs2 k
  obtain ⟨t, et, em, ec, _⟩ := k.trace
  obtain ⟨sd, st, eb⟩ := k.b
  have e1 : messages m2.trace = [] := by rw [et, messages_append, em, h5]; rfl
  by_cases hz : m2.b.state = .none
  · rw [if_pos hz] at hr
    cases Out.ok.inj hr
    refine Or.inr ⟨hz, Or.inl ⟨cut_of (ec (by rw [hz, h1]; simp)) et, fun s => ⟨?_, ?_⟩⟩⟩
    · dsimp only; rw [e1]; exact List.nil_prefix
    · dsimp only; rw [List.append_assoc, hS]; exact hs2.le
  · rw [if_neg hz] at hr
    have hd : m2.b.state = .done := by
      rcases k.state with h | h
      · rw [h, h1]
      · exact absurd h hz
    have hsz : m2.b.hasSize = false := by rw [eb]; exact h2
    have hest : Est P lr 0 ({ m2 with b := { m2.b with buf := some [], need := headerSize } } : M σ) [] :=
      ⟨hd, by rw [eb]; exact h3, (by decide : 0 < headerSize), by dsimp only; rw [hsz]; rfl⟩
    refine loop_live (x := x) hest ?_ ?_ hS hf hr
    · intro s
      rw [hH]
      dsimp only
      rw [e1]
      unfold said
      dsimp only
      rw [hsz]
      rfl
    · exact sends_same hs2 rfl rfl rfl rfl id

/-- In an established session the other side's static key does not change. -/
theorem readLoop_remote {P : Prim} {E : Env σ} : ∀ (fuel : Nat) (m : M σ) (buf data : Bytes) (r : M σ × Nat),
    m.b.state = .done → readLoop P E fuel m buf data = .ok r → r.1.b.remoteStatic = m.b.remoteStatic := by
  intro fuel
  induction fuel with
  | zero => intro m buf data r _ h; cases h
  | succ fuel ih =>
    intro m buf data r hd hr
    unfold readLoop at hr
    by_cases hn : m.b.need ≤ buf.length + data.length
    case neg => rw [if_neg hn] at hr; cases Out.ok.inj hr; rfl
    rw [if_pos hn] at hr
    by_cases hn2 : m.b.need ≤ buf.length
    · rw [if_pos hn2] at hr; cases hr
    rw [if_neg hn2] at hr
    dsimp only at hr
    generalize buf ++ data.take (m.b.need - buf.length) = msg at hr
    obtain ⟨⟨m1, p⟩, hp, hr⟩ := Out.bind_eq_ok.1 hr
    generalize hm0 : ({ m with b := { m.b with buf := some msg } } : M σ) = m0 at hp
    have hd0 : m0.b.state = .done := by rw [← hm0]; exact hd
    have hr0 : m0.b.remoteStatic = m.b.remoteStatic := by rw [← hm0]
    rw [parse_done hd0] at hp
    have key : m1.b.remoteStatic = m0.b.remoteStatic ∧ (m1.b.state = .done ∨ m1.b.state = .none) := by
      by_cases hz : m0.b.hasSize = true
      · rw [if_pos hz] at hp
        unfold parseBody at hp
        by_cases h1 : msg.length < 16
        · rw [if_pos h1] at hp; cases hp
        rw [if_neg h1] at hp
        dsimp only at hp
        generalize csDecrypt P m0.b.recv none (msg.take (msg.length - 16)) = d at hp
        by_cases h2 : csVerify d.1 (msg.drop (msg.length - 16)) = false
        · rw [if_pos h2] at hp; cases Out.ok.inj hp; exact ⟨rfl, Or.inl hd0⟩
        rw [if_neg h2] at hp
        have k := runHost_kept P E (E.readCb m0.host d.2)
          ({ m0 with b := { m0.b with recv := d.1, hasSize := false }, trace := m0.trace ++ [.message d.2] } : M σ)
        cases Out.ok.inj hp
        obtain ⟨sd, st, eb⟩ := k.b
        refine ⟨?_, ?_⟩
        · unfold deliver; rw [eb]
        · unfold deliver
          rcases k.state with hk | hk
          · exact Or.inl (hk.trans hd0)
          · exact Or.inr hk
      · rw [if_neg hz] at hp
        unfold parseHeader at hp
        by_cases h1 : msg.length ≠ headerSize
        · rw [if_pos h1] at hp; cases hp
        rw [if_neg h1] at hp
        dsimp only at hp
        generalize csDecrypt P m0.b.recv none (msg.take 4) = d at hp
        by_cases h2 : csVerify d.1 (msg.drop 4) = false
        · rw [if_pos h2] at hp; cases Out.ok.inj hp; exact ⟨rfl, Or.inl hd0⟩
        rw [if_neg h2] at hp
        by_cases h3 : 2 ^ 31 ≤ leNat d.2 ∨ maxMessage < leNat d.2
        · rw [if_pos h3] at hp; cases Out.ok.inj hp; exact ⟨rfl, Or.inl hd0⟩
        · rw [if_neg h3] at hp; cases Out.ok.inj hp; exact ⟨rfl, Or.inl hd0⟩
    cases p with
    | fail c => cases Out.ok.inj hr; exact key.1.trans hr0
    | next n =>
      dsimp only at hr
      by_cases hz : m1.b.state = .none
      · rw [if_pos hz] at hr; cases Out.ok.inj hr; exact key.1.trans hr0
      rw [if_neg hz] at hr
      by_cases hn0 : n = 0
      · rw [if_pos hn0] at hr; cases hr
      rw [if_neg hn0] at hr
      refine (ih _ _ _ r ?_ hr).trans (key.1.trans hr0)
      exact key.2.resolve_right hz

/-! ### The initiator -/

/-- The initiator waiting for act two, having read `x` of it. -/
structure Waits2 (b : B) (s e : KeyPair) (n : Noise) (x : Bytes) : Prop extends Two b s e n where
  stored : b.buf = some x
  short : x.length < 80

theorem loop_two {P : Prim} {E : Env σ} {m : M σ} {s e : KeyPair} {n : Noise × Bytes} {x data : Bytes} {r : M σ × Nat}
    (hs : P.pubOf s.priv = some s.pub) (h : Waits2 m.b s e n.1 x)
    (h5 : messages m.trace = []) (h6 : writes m.trace = []) (h7 : outs m.trace = n.2)
    (hr : readLoop P E (data.length + 1) m x data = .ok r) :
    (Waits2 r.1.b s e n.1 (x ++ data) ∧ r.1.trace = m.trace) ∨
    (∃ g, iThree P s e n.1 ((x ++ data).take 80) = some g ∧ 80 ≤ (x ++ data).length ∧
      Live P g.1.2 g.1.1 (n.2 ++ g.2) (initiatorHears P s e n.1) (initiatorSays P s e n) (x ++ data) r.1) ∨
    Dead (initiatorHears P s e n.1) (initiatorSays P s e n) (x ++ data) r.1 := by
  unfold readLoop at hr
  rw [h.need] at hr
  by_cases hn : 80 ≤ x.length + data.length
  case neg =>
    rw [if_neg hn] at hr
    cases Out.ok.inj hr
    refine Or.inl ⟨⟨⟨h.state, h.init, sym_edit h.sym rfl rfl rfl, h.eph, h.stat, h.send, h.recv, h.size, h.need⟩, rfl, ?_⟩, rfl⟩
    simp only [List.length_append]; omega
  refine Or.inr ?_
  rw [if_pos hn, if_neg (by have := h.short; omega)] at hr
  dsimp only at hr
  have hmsg : x ++ data.take (80 - x.length) = (x ++ data).take 80 := by
    rw [List.take_append, List.take_of_length_le (l := x) (by have := h.short; omega)]
  have hx : x ++ data = (x ++ data).take 80 ++ data.drop (80 - x.length) := by
    rw [← hmsg, List.append_assoc, List.take_append_drop]
  have hl80 : ((x ++ data).take 80).length = 80 := by
    simp only [List.length_take, List.length_append]; omega
  rw [hmsg] at hr
  have hdrop : (data.drop (80 - x.length)).length < data.length := by
    have := h.short; rw [List.length_drop]; omega
  generalize (x ++ data).take 80 = msg at hr hx hl80 ⊢
  generalize data.drop (80 - x.length) = rest at hr hx hdrop
  obtain ⟨⟨m', p⟩, hp, hr⟩ := Out.bind_eq_ok.1 hr
  have h0 : Two ({ m with b := { m.b with buf := some msg } } : M σ).b s e n.1 :=
    ⟨h.state, h.init, sym_edit h.sym rfl rfl rfl, h.eph, h.stat, h.send, h.recv, h.size, h.need⟩
  have ex : ∀ t : Bytes, ¬ (msg ++ t).length < 80 := by intro t; simp only [List.length_append]; omega
  have et : ∀ t : Bytes, (msg ++ t).take 80 = msg := by
    intro t; rw [List.take_append_of_le_length (by omega), List.take_of_length_le (by omega)]
  have ed : ∀ t : Bytes, (msg ++ t).drop 80 = t := by
    intro t; rw [List.drop_append, List.drop_of_length_le (by omega), hl80]; rfl
  have hH : ∀ t, initiatorHears P s e n.1 (msg ++ t) =
      match iThree P s e n.1 msg with
      | none => ([], false)
      | some g => plain P g.1.2 0 t := by
    intro t; unfold initiatorHears; rw [if_neg (ex t), et, ed]; cases iThree P s e n.1 msg <;> rfl
  have hS : ∀ t w, initiatorSays P s e n (msg ++ t) w =
      n.2 ++ match iThree P s e n.1 msg with
      | none => []
      | some g => g.2 ++ packets P g.1.1 0 w := by
    intro t w; unfold initiatorSays; rw [if_neg (ex t), et]; cases iThree P s e n.1 msg <;> rfl
  rw [hx]
  rcases two_spec hs h0 hp with ⟨c, rfl, htr, hi⟩ | ⟨g, c, rfl, hi, htr, hc⟩ | ⟨g, m1, hst, rfl, hi, hm', htr, hd, hhs, hrc, hsd, _⟩
  · cases Out.ok.inj hr
    refine Or.inr ⟨rfl, Or.inr fun t => ?_⟩
    dsimp only
    rw [List.append_assoc, hH, hS, hi, htr, h5, h7]
    simp
  · cases Out.ok.inj hr
    refine Or.inr ⟨rfl, Or.inl ⟨?_, fun t => ?_⟩⟩
    · dsimp only; rw [htr]; exact Or.inr ⟨g.2, c, by simp, hc⟩
    · dsimp only
      rw [List.append_assoc, hH, hS, hi, htr, messages_append, outs_append, writes_append, h5, h6, h7]
      simp [messages, outs, writes, hc]
  · have hr' : (if m'.b.state = .none then (Out.ok (m', 0) : Out Unit (M σ × Nat))
        else readLoop P E data.length { m' with b := { m'.b with buf := some [], need := headerSize } } [] rest) = .ok r := by
      have : headerSize ≠ 0 := by decide
      simpa [this] using hr
    rw [hm'] at hr'
    rw [hi] at hH hS
    have := loop_done (lr := g.1.2) (ls := g.1.1) (pre := n.2 ++ g.2) (x := msg) (H := initiatorHears P s e n.1)
      (S := initiatorSays P s e n) hd hhs hrc hsd
      (by rw [htr, messages_append]; dsimp only; rw [h5]; rfl) (by rw [htr, writes_append]; dsimp only; rw [h6]; rfl)
      (by rw [htr, outs_append]; dsimp only; rw [h7]; simp [outs])
      hH (by intro t w; rw [hS]; simp) hdrop hr'
    rcases this with h | h
    · exact Or.inl ⟨g, hi, by simp only [List.length_append]; omega, h⟩
    · exact Or.inr h

/-! ### The responder -/

/-- The responder waiting for act three, having read `x` of it. -/
structure Waits3 (b : B) (e : KeyPair) (n : Noise) (x : Bytes) : Prop extends Three b e n where
  need : b.need = 65
  stored : b.buf = some x
  short : x.length < 65

/-- The responder waiting for act one. -/
structure Waits1 (P : Prim) (b : B) (s : KeyPair) (x : Bytes) : Prop extends One P b s where
  stored : b.buf = some x
  short : x.length < 80

theorem loop_three {P : Prim} {E : Env σ} {m : M σ} {s e : KeyPair} {n : Noise × Bytes} {a x data : Bytes} {r : M σ × Nat} {fuel : Nat}
    (ha : a.length = 80) (hn2 : rTwo P s e a = some n) (h : Waits3 m.b e n.1 x)
    (h5 : messages m.trace = []) (h6 : writes m.trace = []) (h7 : outs m.trace = n.2)
    (hf : data.length < fuel) (hr : readLoop P E fuel m x data = .ok r) :
    (Waits3 r.1.b e n.1 (x ++ data) ∧ r.1.trace = m.trace) ∨
    (∃ g, rDone P e n.1 ((x ++ data).take 65) = some g ∧ 65 ≤ (x ++ data).length ∧
      Live P g.1.1 g.1.2 n.2 (responderHears P s e) (responderSays P s e) (a ++ (x ++ data)) r.1 ∧
      (r.1.b.remoteStatic = g.2)) ∨
    Dead (responderHears P s e) (responderSays P s e) (a ++ (x ++ data)) r.1 := by
  cases fuel with
  | zero => omega
  | succ fuel =>
  unfold readLoop at hr
  rw [h.need] at hr
  by_cases hn : 65 ≤ x.length + data.length
  case neg =>
    rw [if_neg hn] at hr
    cases Out.ok.inj hr
    refine Or.inl ⟨⟨⟨h.state, h.init, sym_edit h.sym rfl rfl rfl, h.eph, h.send, h.recv, h.size⟩, h.need, rfl, ?_⟩, rfl⟩
    simp only [List.length_append]; omega
  refine Or.inr ?_
  rw [if_pos hn, if_neg (by have := h.short; omega)] at hr
  dsimp only at hr
  have hmsg : x ++ data.take (65 - x.length) = (x ++ data).take 65 := by
    rw [List.take_append, List.take_of_length_le (l := x) (by have := h.short; omega)]
  have hx : x ++ data = (x ++ data).take 65 ++ data.drop (65 - x.length) := by
    rw [← hmsg, List.append_assoc, List.take_append_drop]
  have hl80 : ((x ++ data).take 65).length = 65 := by
    simp only [List.length_take, List.length_append]; omega
  rw [hmsg] at hr
  have hdrop : (data.drop (65 - x.length)).length < fuel := by
    have := h.short; rw [List.length_drop]; omega
  generalize (x ++ data).take 65 = msg at hr hx hl80 ⊢
  generalize data.drop (65 - x.length) = rest at hr hx hdrop
  obtain ⟨⟨m', p⟩, hp, hr⟩ := Out.bind_eq_ok.1 hr
  have h0 : Three ({ m with b := { m.b with buf := some msg } } : M σ).b e n.1 :=
    ⟨h.state, h.init, sym_edit h.sym rfl rfl rfl, h.eph, h.send, h.recv, h.size⟩
  have ex1 : ∀ t : Bytes, ¬ (a ++ t).length < 80 := by intro t; simp only [List.length_append]; omega
  have et1 : ∀ t : Bytes, (a ++ t).take 80 = a := by
    intro t; rw [List.take_append_of_le_length (by omega), List.take_of_length_le (by omega)]
  have ed1 : ∀ t : Bytes, (a ++ t).drop 80 = t := by
    intro t; rw [List.drop_append, List.drop_of_length_le (by omega), ha]; rfl
  have ex : ∀ t : Bytes, ¬ (msg ++ t).length < 65 := by intro t; simp only [List.length_append]; omega
  have et : ∀ t : Bytes, (msg ++ t).take 65 = msg := by
    intro t; rw [List.take_append_of_le_length (by omega), List.take_of_length_le (by omega)]
  have ed : ∀ t : Bytes, (msg ++ t).drop 65 = t := by
    intro t; rw [List.drop_append, List.drop_of_length_le (by omega), hl80]; rfl
  have hH : ∀ t, responderHears P s e (a ++ msg ++ t) =
      match rDone P e n.1 msg with
      | none => ([], false)
      | some g => plain P g.1.1 0 t := by
    intro t; unfold responderHears
    rw [List.append_assoc, if_neg (ex1 _), et1, hn2]
    dsimp only
    rw [ed1, if_neg (ex t), et, ed]
    cases rDone P e n.1 msg <;> rfl
  have hS : ∀ t w, responderSays P s e (a ++ msg ++ t) w =
      n.2 ++ match rDone P e n.1 msg with
      | none => []
      | some g => packets P g.1.2 0 w := by
    intro t w; unfold responderSays
    rw [List.append_assoc, if_neg (ex1 _), et1, hn2]
    dsimp only
    rw [ed1, if_neg (ex t), et]
    cases rDone P e n.1 msg <;> rfl
  rw [hx, ← List.append_assoc]
  rcases three_spec h0 hp with ⟨c, rfl, htr, hi⟩ | ⟨g, m1, hst, rfl, hi, hm', htr, hd, hhs, hrc, hsd, hrs⟩
  · cases Out.ok.inj hr
    refine Or.inr ⟨rfl, Or.inr fun t => ?_⟩
    dsimp only
    rw [List.append_assoc, hH, hS, hi, htr, h5, h7]
    simp
  · have hr' : (if m'.b.state = .none then (Out.ok (m', 0) : Out Unit (M σ × Nat))
        else readLoop P E fuel { m' with b := { m'.b with buf := some [], need := headerSize } } [] rest) = .ok r := by
      have : headerSize ≠ 0 := by decide
      simpa [this] using hr
    have hrem : r.1.b.state = .none ∨ r.1.b.remoteStatic = g.2 := by
      have k := runHost_kept P E hst m1
      rw [← hm'] at k
      obtain ⟨sd, st, eb⟩ := k.b
      have e0 : m'.b.remoteStatic = g.2 := by rw [eb]; exact hrs
      by_cases hz : m'.b.state = .none
      · rw [if_pos hz] at hr'; cases Out.ok.inj hr'; exact Or.inl hz
      · rw [if_neg hz] at hr'
        refine Or.inr ((readLoop_remote _ _ _ _ _ ?_ hr').trans e0)
        rcases k.state with hk | hk
        · exact hk.trans hd
        · exact absurd hk hz
    rw [hm'] at hr'
    rw [hi] at hH hS
    have := loop_done (lr := g.1.1) (ls := g.1.2) (pre := n.2) (x := a ++ msg) (H := responderHears P s e)
      (S := responderSays P s e) hd hhs hrc hsd
      (by rw [htr, messages_append]; dsimp only; rw [h5]; rfl) (by rw [htr, writes_append]; dsimp only; rw [h6]; rfl)
      (by rw [htr, outs_append]; dsimp only; rw [h7]; simp [outs])
      hH hS hdrop hr'
    rcases this with h | h
    · refine Or.inl ⟨g, hi, by simp only [List.length_append]; omega, h, hrem.resolve_left ?_⟩
      obtain ⟨_, _, _, he, _⟩ := h.hear
      rw [he.done]; simp
    · exact Or.inr h

theorem loop_one {P : Prim} {E : Env σ} {m : M σ} {s e : KeyPair} {x data : Bytes} {r : M σ × Nat}
    (hl : KeepsLength P) (he : Draws P E.rand e) (h : Waits1 P m.b s x)
    (h5 : messages m.trace = []) (h6 : writes m.trace = []) (h7 : outs m.trace = [])
    (hr : readLoop P E (data.length + 1) m x data = .ok r) :
    (Waits1 P r.1.b s (x ++ data) ∧ r.1.trace = m.trace) ∨
    (∃ a n x', x ++ data = a ++ x' ∧ a.length = 80 ∧ rTwo P s e a = some n ∧ Waits3 r.1.b e n.1 x' ∧
      messages r.1.trace = [] ∧ writes r.1.trace = [] ∧ outs r.1.trace = n.2) ∨
    (∃ a n g x', x ++ data = a ++ x' ∧ a.length = 80 ∧ rTwo P s e a = some n ∧
      rDone P e n.1 (x'.take 65) = some g ∧ 65 ≤ x'.length ∧
      Live P g.1.1 g.1.2 n.2 (responderHears P s e) (responderSays P s e) (x ++ data) r.1 ∧
      (r.1.b.remoteStatic = g.2)) ∨
    Dead (responderHears P s e) (responderSays P s e) (x ++ data) r.1 := by
  unfold readLoop at hr
  rw [h.need] at hr
  by_cases hn : 80 ≤ x.length + data.length
  case neg =>
    rw [if_neg hn] at hr
    cases Out.ok.inj hr
    refine Or.inl ⟨⟨⟨h.state, h.init, sym_edit h.sym rfl rfl rfl, h.stat, h.send, h.recv, h.size, h.need⟩, rfl, ?_⟩, rfl⟩
    simp only [List.length_append]; omega
  refine Or.inr ?_
  rw [if_pos hn, if_neg (by have := h.short; omega)] at hr
  dsimp only at hr
  have hmsg : x ++ data.take (80 - x.length) = (x ++ data).take 80 := by
    rw [List.take_append, List.take_of_length_le (l := x) (by have := h.short; omega)]
  have hx : x ++ data = (x ++ data).take 80 ++ data.drop (80 - x.length) := by
    rw [← hmsg, List.append_assoc, List.take_append_drop]
  have hl80 : ((x ++ data).take 80).length = 80 := by
    simp only [List.length_take, List.length_append]; omega
  rw [hmsg] at hr
  have hdrop : (data.drop (80 - x.length)).length < data.length := by
    have := h.short; rw [List.length_drop]; omega
  generalize (x ++ data).take 80 = msg at hr hx hl80
  generalize data.drop (80 - x.length) = rest at hr hx hdrop
  obtain ⟨⟨m', p⟩, hp, hr⟩ := Out.bind_eq_ok.1 hr
  have h0 : One P ({ m with b := { m.b with buf := some msg } } : M σ).b s :=
    ⟨h.state, h.init, sym_edit h.sym rfl rfl rfl, h.stat, h.send, h.recv, h.size, h.need⟩
  have ex : ∀ t : Bytes, ¬ (msg ++ t).length < 80 := by intro t; simp only [List.length_append]; omega
  have et : ∀ t : Bytes, (msg ++ t).take 80 = msg := by
    intro t; rw [List.take_append_of_le_length (by omega), List.take_of_length_le (by omega)]
  rw [hx]
  rcases one_spec hl he h0 hp with ⟨c, rfl, htr, hi⟩ | ⟨n, c, rfl, hi, htr, hc⟩ | ⟨n, rfl, hi, htr, h3⟩
  · cases Out.ok.inj hr
    refine Or.inr (Or.inr ⟨rfl, Or.inr fun t => ?_⟩)
    dsimp only
    unfold responderHears responderSays
    rw [List.append_assoc, if_neg (ex _), if_neg (ex _), et, hi, htr, h5, h7]
    exact ⟨rfl, rfl⟩
  · cases Out.ok.inj hr
    refine Or.inr (Or.inr ⟨rfl, Or.inl ⟨?_, fun t => ?_⟩⟩)
    · dsimp only; rw [htr]; exact Or.inr ⟨n.2, c, by simp, hc⟩
    · dsimp only
      rw [htr, messages_append, outs_append, writes_append, h5, h7]
      simp [messages, outs, hc]
  · have hr' : readLoop P E data.length { m' with b := { m'.b with buf := some [], need := actThreeSize } } [] rest = .ok r := by
      have h1 : actThreeSize ≠ 0 := by decide
      have h2 : m'.b.state ≠ .none := by rw [h3.state]; simp
      simpa [h1, h2] using hr
    have hw : Waits3 ({ m' with b := { m'.b with buf := some [], need := actThreeSize } } : M σ).b e n.1 [] :=
      ⟨⟨h3.state, h3.init, sym_edit h3.sym rfl rfl rfl, h3.eph, h3.send, h3.recv, h3.size⟩, rfl, rfl, by decide⟩
    have e5 : messages m'.trace = [] := by rw [htr, messages_append, h5]; rfl
    have e6 : writes m'.trace = [] := by rw [htr, writes_append, h6]; rfl
    have e7 : outs m'.trace = n.2 := by rw [htr, outs_append, h7]; simp [outs]
    rcases loop_three (s := s) hl80 hi hw e5 e6 e7 hdrop hr' with ⟨h, ht⟩ | ⟨g, hg, h65, hlive, hrs⟩ | h
    · refine Or.inl ⟨msg, n, rest, rfl, hl80, hi, h, ?_⟩
      rw [ht]; exact ⟨e5, e6, e7⟩
    · exact Or.inr (Or.inl ⟨msg, n, g, rest, rfl, hl80, hi, hg, h65, hlive, hrs⟩)
    · exact Or.inr (Or.inr h)

/-! ### From the start -/

theorem initState_spec {P : Prim} {b : B} {k rs : Bytes} (h : b.cs.iv = ivOf 0) :
    ∃ b', connect P b k rs = .ok b' ∧ Sym b' (start P rs) 0 ∧ Same { b with initiator := true, localStatic := k, remoteStatic := rs } b' := by
  unfold connect initState
  simp only [Option.getD_some, if_true]
  have e : csInitKey b.cs (List.replicate 32 0) = { b.cs with key := List.replicate 32 0, nonce := 0, iv := ivOf 0 } := by
    unfold csInitKey; rw [csUpdate_iv (n := 0) (by exact h)]
  have a0 : Sym (initSym P ({ b with initiator := true, localStatic := k, remoteStatic := rs } : B) protocolName)
      ⟨P.sha name, P.sha name, List.replicate 32 0⟩ 0 := by
    unfold initSym
    refine ⟨rfl, rfl, ?_, ?_, ?_⟩ <;> dsimp only <;> rw [e]
  have a1 := sym_mix (P := P) a0 prologue
  have a2 := sym_mix (P := P) a1.1 rs
  refine ⟨_, rfl, a2.1, Same.trans ⟨_, _, _, _, rfl⟩ (a1.2.trans a2.2)⟩

theorem acceptState_spec {P : Prim} {b : B} {k p : Bytes} (h : b.cs.iv = ivOf 0) (hp : P.pubOf k = some p) :
    ∃ b', initState P b false k none = .ok b' ∧ Sym b' (start P p) 0 ∧
      Same { b with initiator := false, localStatic := k, remoteStatic := List.replicate 33 0 } b' := by
  unfold initState
  simp only [Option.getD_none, Bool.false_eq_true, if_false, hp]
  have e : csInitKey b.cs (List.replicate 32 0) = { b.cs with key := List.replicate 32 0, nonce := 0, iv := ivOf 0 } := by
    unfold csInitKey; rw [csUpdate_iv (n := 0) (by exact h)]
  have a0 : Sym (initSym P ({ b with initiator := false, localStatic := k, remoteStatic := List.replicate 33 0 } : B) protocolName)
      ⟨P.sha name, P.sha name, List.replicate 32 0⟩ 0 := by
    unfold initSym
    refine ⟨rfl, rfl, ?_, ?_, ?_⟩ <;> dsimp only <;> rw [e]
  have a1 := sym_mix (P := P) a0 prologue
  have a2 := sym_mix (P := P) a1.1 p
  refine ⟨_, rfl, a2.1, Same.trans ⟨_, _, _, _, rfl⟩ (a1.2.trans a2.2)⟩

/-- The state of a session of an initiator that has read `x`. -/
def InvI (P : Prim) (s e : KeyPair) (n : Noise × Bytes) (x : Bytes) (m : M σ) : Prop :=
  (Waits2 m.b s e n.1 x ∧ messages m.trace = [] ∧ writes m.trace = [] ∧ outs m.trace = n.2) ∨
  (∃ g, iThree P s e n.1 (x.take 80) = some g ∧ 80 ≤ x.length ∧
    Live P g.1.2 g.1.1 (n.2 ++ g.2) (initiatorHears P s e n.1) (initiatorSays P s e n) x m) ∨
  Dead (initiatorHears P s e n.1) (initiatorSays P s e n) x m

theorem dial_inv {P : Prim} {E : Env σ} (hl : KeepsLength P) {h : σ} {s e : KeyPair} {rs es : Bytes} {m : M σ}
    (he : Draws P E.rand e) (hes : P.ecdh rs e.priv = some es) (hd : dial P E h s.priv rs = .ok m) :
    InvI P s e (iOne P e rs es) [] m := by
  obtain ⟨b1, hb1, sy1, cs1, ck1, tp1, dg1, eb1⟩ := initState_spec (P := P) (b := bInit) (k := s.priv) (rs := rs) csInit_iv
  unfold dial at hd
  rw [hb1] at hd
  simp only [Out.bind] at hd
  obtain ⟨hp1, hp2, ent, hp3, hp4⟩ := he
  have sy2 : Sym ({ b1 with state := .two } : B) (start P rs) 0 := sym_edit sy1 rfl rfl rfl
  obtain ⟨b2, hb2, sy3, cs3, ck3, tp3, dg3, eb3⟩ := genEph_spec hl (remote := b1.remoteStatic) sy2 hp1 hp2 hp3 hp4 (by rw [eb1]; exact hes)
  have hin : b1.initiator = true := by rw [eb1]
  unfold onConnect at hd
  dsimp only at hd
  rw [if_pos hin] at hd
  unfold genActOne at hd
  dsimp only at hd
  rw [hb2] at hd
  simp only [Out.bind_ok] at hd
  generalize hw : emit E ({ b := b2, host := h, trace := [] } : M σ) (e.uniform ++ (Noise.enc P (ephemeral P (start P rs) e.pub es) 0 []).2) = w at hd
  have hw' : w.1.b = b2 ∧ w.1.trace = [.out (e.uniform ++ (Noise.enc P (ephemeral P (start P rs) e.pub es) 0 []).2) w.2] := by
    rw [← hw]; exact ⟨rfl, rfl⟩
  by_cases h0 : w.2 = 0
  case neg =>
    rw [if_pos h0] at hd
    cases Out.ok.inj hd
    refine Or.inr (Or.inr ⟨rfl, Or.inl ⟨?_, fun t => ?_⟩⟩)
    · dsimp only; rw [hw'.2]; exact Or.inr ⟨_, _, List.mem_singleton.2 rfl, h0⟩
    · dsimp only; rw [hw'.2]; simp [messages, outs, h0]
  rw [if_neg (by simp [h0])] at hd
  cases Out.ok.inj hd
  refine Or.inl ⟨⟨⟨?_, ?_, ?_, ?_, ?_, ?_, ?_, ?_, rfl⟩, rfl, by decide⟩, ?_⟩
  · dsimp only; rw [hw'.1, eb3]
  · dsimp only; rw [hw'.1, eb3]; exact hin
  · dsimp only
    refine sym_edit (b := b2) sy3 ?_ ?_ ?_ <;> dsimp only <;> rw [hw'.1]
  · dsimp only; rw [hw'.1, eb3]
  · dsimp only; rw [hw'.1, eb3, eb1]
  · dsimp only; rw [hw'.1, eb3, eb1]; exact csInit_iv
  · dsimp only; rw [hw'.1, eb3, eb1]; exact csInit_iv
  · dsimp only; rw [hw'.1, eb3, eb1]; rfl
  · dsimp only; rw [hw'.2, h0]; simp [messages, writes, outs, iOne]


/-- The host's calls while the handshake goes on: at most they end the session. -/
theorem act_wait {P : Prim} {E : Env σ} (f : Host σ) {m : M σ} (h : m.b.state ≠ .done) :
    ((runHost P E f m).b = m.b ∨ ((runHost P E f m).b.state = .none ∧ (m.b.state ≠ .none → Cut (runHost P E f m).trace))) ∧
    messages (runHost P E f m).trace = messages m.trace ∧ writes (runHost P E f m).trace = writes m.trace ∧
    outs (runHost P E f m).trace = outs m.trace := by
  have k := runHost_kept P E f m
  obtain ⟨t, et, em, ec, ed⟩ := k.trace
  obtain ⟨ew, eo⟩ := ed h
  refine ⟨?_, by rw [et, messages_append, em, List.append_nil], by rw [et, writes_append, ew, List.append_nil],
    by rw [et, outs_append, eo, List.append_nil]⟩
  by_cases hz : (runHost P E f m).b.state = .none
  · exact Or.inr ⟨hz, fun hn => cut_of (ec (by rw [hz]; exact Ne.symm hn)) et⟩
  refine Or.inl ?_
  clear k et em ec ed ew eo t
  induction f generalizing m with
  | ret s => rfl
  | write s data g ih =>
    have e : bWrite P E ({ m with host := s } : M σ) data = ({ m with host := s }, 0) := by
      unfold bWrite; rw [if_pos (by exact h)]
    unfold runHost at hz ⊢
    dsimp only at hz ⊢
    rw [e] at hz ⊢
    exact ih _ _ (m := { m with host := s }) h hz
  | destroy s g ih =>
    exfalso
    apply hz
    unfold runHost
    rcases (runHost_kept P E (g s) ({ m with host := s, b := destroy m.b, trace := m.trace ++ [.closed] } : M σ)).state with h | h
    · rw [h]; rfl
    · exact h

theorem step_invI {P : Prim} {E : Env σ} {s e : KeyPair} {n : Noise × Bytes} {x : Bytes} {m m' : M σ} {o : Op σ}
    (hs : P.pubOf s.priv = some s.pub) (h : InvI P s e n x m) (hst : step P E m o = .ok m') :
    InvI P s e n (x ++ arrived [o]) m' := by
  cases o with
  | read d =>
    simp only [arrived, List.append_nil]
    rcases h with ⟨hw, h5, h6, h7⟩ | ⟨g, hg, hx, hlive⟩ | hdead
    · have hf : feed P E m d = .ok m' := hst
      unfold feed onRead at hf
      rw [if_neg (by rw [hw.state]; simp), hw.stored] at hf
      obtain ⟨r, hr, e⟩ := Out.bind_eq_ok.1 hf
      cases Out.ok.inj e
      rcases loop_two hs hw h5 h6 h7 hr with ⟨h, ht⟩ | h | h
      · exact Or.inl ⟨h, by rw [ht]; exact ⟨h5, h6, h7⟩⟩
      · exact Or.inr (Or.inl h)
      · exact Or.inr (Or.inr h)
    · rcases feed_live hlive hst with h | h
      · refine Or.inr (Or.inl ⟨g, ?_, by simp only [List.length_append]; omega, h⟩)
        rw [List.take_append_of_le_length hx]; exact hg
      · exact Or.inr (Or.inr h)
    · exact Or.inr (Or.inr (feed_dead hdead hst))
  | act f =>
    simp only [arrived, List.append_nil]
    cases Out.ok.inj hst
    rcases h with ⟨hw, h5, h6, h7⟩ | ⟨g, hg, hx, hlive⟩ | hdead
    · obtain ⟨hb, e1, e2, e3⟩ := act_wait (P := P) (E := E) (f m.host) (m := m) (by rw [hw.state]; simp)
      rcases hb with hb | ⟨hz, hc⟩
      · exact Or.inl (by rw [hb, e1, e2, e3]; exact ⟨hw, h5, h6, h7⟩)
      · refine Or.inr (Or.inr ⟨hz, Or.inl ⟨hc (by rw [hw.state]; simp), fun t => ?_⟩⟩)
        rw [e1, e2, e3, h5, h7]
        exact ⟨List.nil_prefix, List.prefix_append _ _⟩
    · rcases act_live (E := E) hlive (f m.host) with h | h
      · exact Or.inr (Or.inl ⟨g, hg, hx, h⟩)
      · exact Or.inr (Or.inr h)
    · exact Or.inr (Or.inr (act_dead hdead (runHost_kept P E (f m.host) m)))

theorem arrived_cons (o : Op σ) (os : List (Op σ)) : arrived (o :: os) = arrived [o] ++ arrived os := by
  cases o <;> simp [arrived]

theorem run_invI {P : Prim} {E : Env σ} {s e : KeyPair} {n : Noise × Bytes} (hs : P.pubOf s.priv = some s.pub) :
    ∀ (os : List (Op σ)) {x : Bytes} {m m' : M σ}, InvI P s e n x m → run P E os m = .ok m' →
      InvI P s e n (x ++ arrived os) m' := by
  intro os
  induction os with
  | nil => intro x m m' h hr; cases Out.ok.inj hr; simpa [arrived] using h
  | cons o os ih =>
    intro x m m' h hr
    obtain ⟨m1, h1, h2⟩ := Out.bind_eq_ok.1 hr
    rw [arrived_cons, ← List.append_assoc]
    exact ih (step_invI hs h h1) h2

/-- The state of a session of a responder that has read `x`. -/
def InvR (P : Prim) (s e : KeyPair) (x : Bytes) (m : M σ) : Prop :=
  (Waits1 P m.b s x ∧ messages m.trace = [] ∧ writes m.trace = [] ∧ outs m.trace = []) ∨
  (∃ a n x', x = a ++ x' ∧ a.length = 80 ∧ rTwo P s e a = some n ∧ Waits3 m.b e n.1 x' ∧
    messages m.trace = [] ∧ writes m.trace = [] ∧ outs m.trace = n.2) ∨
  (∃ a n g x', x = a ++ x' ∧ a.length = 80 ∧ rTwo P s e a = some n ∧
    rDone P e n.1 (x'.take 65) = some g ∧ 65 ≤ x'.length ∧
    Live P g.1.1 g.1.2 n.2 (responderHears P s e) (responderSays P s e) x m ∧ m.b.remoteStatic = g.2) ∨
  Dead (responderHears P s e) (responderSays P s e) x m

theorem listen_inv {P : Prim} {E : Env σ} {h : σ} {s e : KeyPair} {m : M σ}
    (hs : P.pubOf s.priv = some s.pub) (hd : listen P E h s.priv = .ok m) : InvR P s e [] m := by
  obtain ⟨b1, hb1, sy1, cs1, ck1, tp1, dg1, eb1⟩ := acceptState_spec (P := P) (b := bInit) (k := s.priv) csInit_iv hs
  unfold listen accept at hd
  dsimp only at hd
  rw [hb1] at hd
  simp only [Out.bind_ok] at hd
  unfold onConnect at hd
  dsimp only at hd
  rw [if_neg (by rw [eb1]; simp)] at hd
  cases Out.ok.inj hd
  refine Or.inl ⟨⟨⟨rfl, ?_, sym_edit sy1 rfl rfl rfl, ?_, ?_, ?_, ?_, rfl⟩, rfl, by decide⟩, rfl, rfl, rfl⟩
  · dsimp only; rw [eb1]
  · dsimp only; rw [eb1]
  · dsimp only; rw [eb1]; exact csInit_iv
  · dsimp only; rw [eb1]; exact csInit_iv
  · dsimp only; rw [eb1]; rfl

theorem feed_remote {P : Prim} {E : Env σ} {lr ls : Line} {pre : Bytes} {H : Bytes → List Bytes × Bool}
    {S : Bytes → List Bytes → Bytes} {x : Bytes} {m m' : M σ} {data : Bytes} (h : Live P lr ls pre H S x m)
    (hf : feed P E m data = .ok m') : m'.b.remoteStatic = m.b.remoteStatic := by
  obtain ⟨i, buf, hb, he, hH⟩ := h.hear
  unfold feed onRead at hf
  rw [if_neg (by rw [he.done]; simp), hb] at hf
  obtain ⟨r, hr, e⟩ := Out.bind_eq_ok.1 hf
  cases Out.ok.inj e
  exact readLoop_remote _ _ _ _ _ he.done hr

theorem step_invR {P : Prim} {E : Env σ} {s e : KeyPair} {x : Bytes} {m m' : M σ} {o : Op σ}
    (hl : KeepsLength P) (he : Draws P E.rand e) (h : InvR P s e x m) (hst : step P E m o = .ok m') :
    InvR P s e (x ++ arrived [o]) m' := by
  cases o with
  | read d =>
    simp only [arrived, List.append_nil]
    have hf : feed P E m d = .ok m' := hst
    rcases h with ⟨hw, h5, h6, h7⟩ | ⟨a, n, x', rfl, ha, hn, hw, h5, h6, h7⟩ | ⟨a, n, g, x', rfl, ha, hn, hg, h65, hlive, hrs⟩ | hdead
    · unfold feed onRead at hf
      rw [if_neg (by rw [hw.state]; simp), hw.stored] at hf
      obtain ⟨r, hr, e⟩ := Out.bind_eq_ok.1 hf
      cases Out.ok.inj e
      rcases loop_one hl he hw h5 h6 h7 hr with ⟨h, ht⟩ | h | h
      · exact Or.inl ⟨h, by rw [ht]; exact ⟨h5, h6, h7⟩⟩
      · exact Or.inr (Or.inl h)
      · exact Or.inr (Or.inr h)
    · unfold feed onRead at hf
      rw [if_neg (by rw [hw.state]; simp), hw.stored] at hf
      obtain ⟨r, hr, e⟩ := Out.bind_eq_ok.1 hf
      cases Out.ok.inj e
      rw [List.append_assoc]
      rcases loop_three (s := s) ha hn hw h5 h6 h7 (by omega) hr with ⟨h, ht⟩ | ⟨g, hg, h65, hlive, hrs⟩ | h
      · exact Or.inr (Or.inl ⟨a, n, x' ++ d, rfl, ha, hn, h, by rw [ht]; exact ⟨h5, h6, h7⟩⟩)
      · exact Or.inr (Or.inr (Or.inl ⟨a, n, g, x' ++ d, rfl, ha, hn, hg, h65, hlive, hrs⟩))
      · exact Or.inr (Or.inr (Or.inr h))
    · rcases feed_live hlive hf with h | h
      · refine Or.inr (Or.inr (Or.inl ⟨a, n, g, x' ++ d, by rw [List.append_assoc], ha, hn, ?_,
          by simp only [List.length_append]; omega, h, (feed_remote hlive hf).trans hrs⟩))
        rw [List.take_append_of_le_length h65]; exact hg
      · exact Or.inr (Or.inr (Or.inr h))
    · exact Or.inr (Or.inr (Or.inr (feed_dead hdead hf)))
  | act f =>
    simp only [arrived, List.append_nil]
    cases Out.ok.inj hst
    rcases h with ⟨hw, h5, h6, h7⟩ | ⟨a, n, x', rfl, ha, hn, hw, h5, h6, h7⟩ | ⟨a, n, g, x', hx, ha, hn, hg, h65, hlive, hrs⟩ | hdead
    · obtain ⟨hb, e1, e2, e3⟩ := act_wait (P := P) (E := E) (f m.host) (m := m) (by rw [hw.state]; simp)
      rcases hb with hb | ⟨hz, hc⟩
      · exact Or.inl (by rw [hb, e1, e2, e3]; exact ⟨hw, h5, h6, h7⟩)
      · refine Or.inr (Or.inr (Or.inr ⟨hz, Or.inl ⟨hc (by rw [hw.state]; simp), fun t => ?_⟩⟩))
        rw [e1, e2, e3, h5, h7]
        exact ⟨List.nil_prefix, List.nil_prefix⟩
    · obtain ⟨hb, e1, e2, e3⟩ := act_wait (P := P) (E := E) (f m.host) (m := m) (by rw [hw.state]; simp)
      rcases hb with hb | ⟨hz, hc⟩
      · exact Or.inr (Or.inl ⟨a, n, x', rfl, ha, hn, by rw [hb, e1, e2, e3]; exact ⟨hw, h5, h6, h7⟩⟩)
      · refine Or.inr (Or.inr (Or.inr ⟨hz, Or.inl ⟨hc (by rw [hw.state]; simp), fun t => ?_⟩⟩))
        rw [e1, e2, e3, h5, h7]
        refine ⟨List.nil_prefix, ?_⟩
        unfold responderSays
        rw [if_neg (by simp only [List.length_append]; omega), List.append_assoc,
          List.take_append_of_le_length (by omega), List.take_of_length_le (by omega), hn]
        exact List.prefix_append _ _
    · rcases act_live (E := E) hlive (f m.host) with h | h
      · refine Or.inr (Or.inr (Or.inl ⟨a, n, g, x', hx, ha, hn, hg, h65, h, ?_⟩))
        obtain ⟨sd, st, eb⟩ := (runHost_kept P E (f m.host) m).b
        rw [eb]; exact hrs
      · exact Or.inr (Or.inr (Or.inr h))
    · exact Or.inr (Or.inr (Or.inr (act_dead hdead (runHost_kept P E (f m.host) m))))

theorem run_invR {P : Prim} {E : Env σ} {s e : KeyPair} (hl : KeepsLength P) (he : Draws P E.rand e) :
    ∀ (os : List (Op σ)) {x : Bytes} {m m' : M σ}, InvR P s e x m → run P E os m = .ok m' →
      InvR P s e (x ++ arrived os) m' := by
  intro os
  induction os with
  | nil => intro x m m' h hr; cases Out.ok.inj hr; simpa [arrived] using h
  | cons o os ih =>
    intro x m m' h hr
    obtain ⟨m1, h1, h2⟩ := Out.bind_eq_ok.1 hr
    rw [arrived_cons, ← List.append_assoc]
    exact ih (step_invR hl he h h1) h2

end Verif.Brontide
