import Verif.Spec.PoolSafe
import Verif.Lemmas.PoolTimer
import Verif.Lemmas.Framing
import Verif.Lemmas.Addrman
import Verif.Lemmas.Timedata
import Verif.Lemmas.PoolVet
import Verif.Props.Chain
/-
Which steps of the pool have a defined outcome. `Rest` is what this needs beyond
Verif.Pool.Inv; `Safe` is both.
-/
namespace Verif.Pool
open Verif.Spec.Pool
open Verif.Msg (Msg)
open Verif.Framing (Frame Rep)
open Verif.Spec.Framing (cut)

variable {e : Env} {g : Header.Hdr} {c0 : Chain.State}

structure Rest (e : Env) (g : Header.Hdr) (c0 : Chain.State) (p : Pool) : Prop where
  am : Addrman.Inv p.am
  td : ∃ v, Timedata.Inv v p.td
  tdOk : TdOk p.td
  chain : Offered e g c0 p.chain
  frames : ∀ q ∈ p.peers, ∃ pre, Rep e.magic q.frame pre

/-- Every peer that can be reached still can, and nothing that Rest speaks of has changed. -/
structure Stay (p p' : Pool) : Prop where
  am : p'.am = p.am
  td : p'.td = p.td
  chain : p'.chain = p.chain
  frames : ∀ q ∈ p'.peers, ∃ q' ∈ p.peers, q'.frame = q.frame
  ids : ∀ q ∈ p.peers ++ p.closing, ∃ q' ∈ p'.peers ++ p'.closing, q'.id = q.id

theorem Stay.refl (p : Pool) : Stay p p := ⟨rfl, rfl, rfl, fun q h => ⟨q, h, rfl⟩, fun q h => ⟨q, h, rfl⟩⟩

theorem Stay.trans {a b c : Pool} (h : Stay a b) (k : Stay b c) : Stay a c where
  am := k.am.trans h.am
  td := k.td.trans h.td
  chain := k.chain.trans h.chain
  frames := fun q hq => by
    obtain ⟨q1, m1, f1⟩ := k.frames q hq
    obtain ⟨q2, m2, f2⟩ := h.frames q1 m1
    exact ⟨q2, m2, f2.trans f1⟩
  ids := fun q hq => by
    obtain ⟨q1, m1, f1⟩ := h.ids q hq
    obtain ⟨q2, m2, f2⟩ := k.ids q1 m1
    exact ⟨q2, m2, f2.trans f1⟩

/-- Any change of other fields. -/
theorem Stay.core {p p' : Pool} (h1 : p'.peers = p.peers) (h2 : p'.closing = p.closing) (h3 : p'.am = p.am) (h4 : p'.td = p.td)
    (h5 : p'.chain = p.chain) : Stay p p' :=
  ⟨h3, h4, h5, fun q h => ⟨q, by rw [← h1]; exact h, rfl⟩, fun q h => ⟨q, by rw [h1, h2]; exact h, rfl⟩⟩

theorem stay_bump (p : Pool) : Stay p (bump p) := .core rfl rfl rfl rfl rfl

theorem stay_note (p : Pool) (l : List Act) : Stay p (note p l) := .core rfl rfl rfl rfl rfl

theorem stay_edit (p : Pool) (id : Nat) {f : Peer → Peer} (hf : ∀ q, (f q).id = q.id ∧ (f q).frame = q.frame) : Stay p (edit p id f) where
  am := rfl
  td := rfl
  chain := rfl
  frames := fun q hq => by
    obtain ⟨q', h1, h2⟩ := List.mem_map.1 hq
    refine ⟨q', h1, ?_⟩
    rw [← h2]; unfold editPeer
    split
    · exact (hf q').2.symm
    · rfl
  ids := fun q hq => by
    refine ⟨editPeer id f q, ?_, editPeer_id (fun q => (hf q).1) q⟩
    show _ ∈ p.peers.map _ ++ p.closing.map _
    rw [← List.map_append]
    exact List.mem_map_of_mem hq

theorem stay_close (p : Pool) (id : Nat) : Stay p (close p id) := by
  unfold close
  cases hf : p.peers.find? fun q => q.id = id with
  | none => exact .refl p
  | some q =>
    obtain ⟨hq, hid⟩ := find_some hf
    refine ⟨rfl, rfl, rfl, ?_, ?_⟩
    · intro x hx
      exact ⟨x, (List.mem_filter.1 hx).1, rfl⟩
    · intro x hx
      by_cases hxi : x.id = id
      · exact ⟨_, List.mem_append_right _ (List.mem_cons_self ..), hid.trans hxi.symm⟩
      · rcases List.mem_append.1 hx with hx | hx
        · exact ⟨x, List.mem_append_left _ (List.mem_filter.2 ⟨hx, by simpa using hxi⟩), rfl⟩
        · exact ⟨x, List.mem_append_right _ (List.mem_cons_of_mem _ hx), rfl⟩

theorem stay_send (e : Env) (p : Pool) (id : Nat) (m : Msg) : Stay p (send e p id m).2 := by
  unfold send
  split
  · exact .refl p
  · split
    · split
      · refine Stay.trans ((stay_note p _).trans (stay_edit _ id ?_)) (stay_bump _)
        exact fun q => ⟨rfl, rfl⟩
      · exact stay_bump p
      · exact stay_bump p
      · exact (stay_bump p).trans (stay_close _ id)
    · exact .refl p

theorem stay_sendVersion (e : Env) (p : Pool) (id : Nat) : Stay p (sendVersion e p id).2 := by
  unfold sendVersion
  split
  · exact .refl p
  · dsimp only
    refine Stay.trans ((stay_edit p id ?_).trans (stay_bump _)) (stay_send e _ id _)
    exact fun q => ⟨rfl, rfl⟩

theorem rest_stay {p p' : Pool} (h : Rest e g c0 p) (k : Stay p p') : Rest e g c0 p' where
  am := by rw [k.am]; exact h.am
  td := by rw [k.td]; exact h.td
  tdOk := by rw [k.td]; exact h.tdOk
  chain := by rw [k.chain]; exact h.chain
  frames := fun q hq => by
    obtain ⟨q', h1, h2⟩ := k.frames q hq
    rw [← h2]; exact h.frames q' h1

/-- The same with other addresses. -/
theorem rest_am {p : Pool} (h : Rest e g c0 p) {am : Addrman.Man} (ham : Addrman.Inv am) : Rest e g c0 { p with am := am } :=
  ⟨ham, h.td, h.tdOk, h.chain, h.frames⟩

theorem getheaders_defined (w : World e g c0) {p : Pool} (h : Rest e g c0 p) (id : Nat) :
    ∃ x, sendGetheaders e p id = .ok x ∧ Stay p x.2 := by
  obtain ⟨l, hl, _⟩ := Props.Chain.C12_locator_fits p.chain (w.height _ h.chain)
  unfold sendGetheaders
  rw [hl]
  refine ⟨_, rfl, Stay.trans ((stay_edit p id ?_).trans (stay_bump _)) (stay_send e _ id _)⟩
  exact fun q => ⟨rfl, rfl⟩

/-- An outcome: defined, keeping Rest and the peer `id`. -/
def Fine (e : Env) (g : Header.Hdr) (c0 : Chain.State) (id : Nat) (o : Out Unit (Bool × Pool)) : Prop :=
  ∃ x, o = .ok x ∧ Rest e g c0 x.2 ∧ ∃ q ∈ x.2.peers ++ x.2.closing, q.id = id

theorem fine_stay {p : Pool} (h : Rest e g c0 p) {q : Peer} (hq : q ∈ p.peers ++ p.closing) {x : Bool × Pool} (k : Stay p x.2) :
    Fine e g c0 q.id (.ok x) :=
  ⟨x, rfl, rest_stay h k, k.ids q hq⟩

theorem fine_getheaders (w : World e g c0) {p : Pool} (h : Rest e g c0 p) {q : Peer} (hq : q ∈ p.peers ++ p.closing) :
    Fine e g c0 q.id (sendGetheaders e p q.id) := by
  obtain ⟨x, h1, h2⟩ := getheaders_defined w h q.id
  rw [h1]; exact fine_stay h hq h2

theorem version_defined (w : World e g c0) {p : Pool} (h : Rest e g c0 p) {q : Peer} (hq : q ∈ p.peers ++ p.closing) {v : Msg.Version}
    (ha : v.agent.length < 255) (ht : v.time < 2 ^ 62) : Fine e g c0 q.id (handleVersion e p q v) := by
  unfold handleVersion
  rw [if_neg (by omega)]
  obtain ⟨vs, hvs⟩ := h.td
  have hti : Chain.toI64 v.time = v.time := by unfold Chain.toI64; split <;> omega
  obtain ⟨td, htd, hinv⟩ := hvs.add ⟨e.clock p.tick, Addrman.keyOf q.addr, Chain.toI64 v.time⟩
    ⟨(w.clock _).1, (w.clock _).2, (by dsimp only; rw [hti]; omega), (by dsimp only; rw [hti]; omega)⟩
  dsimp only at htd
  have htdOk := tdOk_add h.tdOk htd
  rw [htd]
  dsimp only [Out.bind]
  obtain ⟨am, b, ham, hai, _⟩ := h.am.update q.addr (fun e' => { e' with services := e'.services ||| v.services, lastSuccess := Timedata.adjusted td (e.clock (p.tick + 1)), lastAttempt := Timedata.adjusted td (e.clock (p.tick + 1)), attempts := 0, used := true })
    (fun en => ⟨rfl, rfl⟩)
  unfold Addrman.markAck
  rw [ham]
  dsimp only
  generalize hp1 : (bump (bump _) : Pool) = p1
  have h1 : Rest e g c0 p1 ∧ ∃ q1 ∈ p1.peers ++ p1.closing, q1.id = q.id := by
    have k : Stay p (edit p q.id fun q => { q with height := v.height }) := stay_edit p q.id fun q => ⟨rfl, rfl⟩
    have k2 := rest_stay h k
    rw [← hp1]
    exact ⟨⟨hai, ⟨_, hinv⟩, htdOk, k2.chain, k2.frames⟩, k.ids q hq⟩
  obtain ⟨h1, q1, hq1, hid⟩ := h1
  rw [← hid]
  have s1 := stay_send e p1 q1.id .verack
  generalize (send e p1 q1.id .verack).2 = p2 at s1 ⊢
  have s2 := stay_send e p2 q1.id .sendheaders
  generalize send e p2 q1.id .sendheaders = x at s2 ⊢
  have s12 := s1.trans s2
  split
  · exact fine_stay h1 hq1 s12
  have s3 := stay_send e x.2 q1.id .getaddr
  generalize send e x.2 q1.id .getaddr = y at s3 ⊢
  have s13 := s12.trans s3
  split
  · exact fine_stay h1 hq1 s13
  obtain ⟨q2, hq2, hid2⟩ := s13.ids q1 hq1
  rw [← hid2]
  exact fine_getheaders w (rest_stay h1 s13) hq2

theorem learn_defined {td : Timedata.State Addrman.Key} {now : Int} {t : Nat} {am : Addrman.Man} (h : Addrman.Inv am) (a : Addr.Netaddr) :
    ∃ am', learn e td now t am a = .ok am' ∧ Addrman.Inv am' := by
  unfold learn
  split
  · exact ⟨_, rfl, h⟩
  split
  · exact ⟨_, rfl, h⟩
  dsimp only
  generalize (if a.time ≤ 100000000 ∨ a.time > Addrman.u64 (now + 600) then
    { a with time := Addrman.u64 (now - 432000) } else a : Addr.Netaddr) = a'
  split
  · exact ⟨_, rfl, h⟩
  split
  · exact ⟨_, rfl, h⟩
  obtain ⟨m, b, h1, h2, _⟩ := h.add a' true (Timedata.adjusted td (e.clock t)) (e.rnd t)
  rw [h1]
  exact ⟨_, rfl, h2⟩

theorem learnAll_defined {td : Timedata.State Addrman.Key} {now : Int} : ∀ (l : List Addr.Netaddr) (t : Nat) {am : Addrman.Man}, Addrman.Inv am →
    ∃ am', learnAll e td now l t am = .ok am' ∧ Addrman.Inv am'
  | [], _, am, h => ⟨am, rfl, h⟩
  | a :: l, t, am, h => by
    obtain ⟨m, h1, h2⟩ := learn_defined (e := e) (td := td) (now := now) (t := t) h a
    unfold learnAll
    rw [h1]
    exact learnAll_defined l (t + 1) h2

theorem addr_defined {p : Pool} (h : Rest e g c0 p) {q : Peer} (hq : q ∈ p.peers ++ p.closing) (l : List Addr.Netaddr) :
    Fine e g c0 q.id (handleAddr e p l) := by
  unfold handleAddr
  split
  · exact fine_stay h hq (.refl p)
  obtain ⟨am, h1, h2⟩ := learnAll_defined (e := e) (td := p.td) (now := Timedata.adjusted p.td (e.clock p.tick)) l (p.tick + 1) h.am
  rw [h1]
  exact ⟨_, rfl, ⟨h2, h.td, h.tdOk, h.chain, h.frames⟩, q, hq, rfl⟩

theorem offered_add (w : World e g c0) {c : Chain.State} (h : Offered e g c0 c) {now : Int} (hn : 0 ≤ now ∧ now < 2 ^ 62 + 4200)
    {hd : Header.Hdr} (hw : Worked e.H hd) : ∃ x, Chain.add e.P e.H c now hd = .ok x ∧ Offered e g c0 x.2 := by
  obtain ⟨ops, h1, h2, h3⟩ := h.by_
  have hp : Props.Chain.Plausible e.H g (ops ++ [(now, hd)]) := by
    intro op hop
    rcases List.mem_append.1 hop with hop | hop
    · exact h1 op hop
    · rw [List.mem_singleton.1 hop]
      exact ⟨⟨by dsimp only; omega, by dsimp only; omega⟩, w.noLoop hd⟩
  obtain ⟨s, hs, _⟩ := w.boot.run hp
  have key : ∀ (ops : List (Int × Header.Hdr)) (c0 : Chain.State), Chain.run e.P e.H c0 ops = .ok c →
      Chain.run e.P e.H c0 (ops ++ [(now, hd)]) = .ok s → ∃ x, Chain.add e.P e.H c now hd = .ok x ∧ x.2 = s := by
    intro ops
    induction ops with
    | nil =>
      intro c0 k1 k2
      cases Out.ok.inj k1
      obtain ⟨y, hy, k2⟩ := Out.bind_eq_ok.1 k2
      exact ⟨y, hy, Out.ok.inj k2⟩
    | cons op ops ih =>
      intro c0 k1 k2
      obtain ⟨y, hy, k1⟩ := Out.bind_eq_ok.1 k1
      obtain ⟨z, hz, k2⟩ := Out.bind_eq_ok.1 k2
      rw [hy] at hz
      cases Out.ok.inj hz
      exact ih y.2 k1 k2
  obtain ⟨x, hx, hxs⟩ := key ops c0 h3 hs
  refine ⟨x, hx, ⟨_, hp, ?_, by rw [hxs]; exact hs⟩⟩
  intro op hop
  rcases List.mem_append.1 hop with hop | hop
  · exact h2 op hop
  · rw [List.mem_singleton.1 hop]; exact hw

theorem addAll_defined (w : World e g c0) {td : Timedata.State Addrman.Key} (htd : TdOk td) : ∀ (l : List Header.Hdr) (o : Bool) (n t : Nat)
    {c : Chain.State}, Offered e g c0 c → (∀ h ∈ l, Worked e.H h) → ∃ x, addAll e td l o n t c = .ok x ∧ Offered e g c0 x.2.1
  | [], o, n, t, c, h, _ => ⟨_, rfl, h⟩
  | hd :: l, o, n, t, c, h, hw => by
    have hc := w.clock t
    obtain ⟨x, h1, h2⟩ := offered_add w h (now := Timedata.adjusted td (e.clock t))
      (by unfold Timedata.adjusted; have := htd.1; have := htd.2; omega) (hw hd (List.mem_cons_self ..))
    have hw' : ∀ h ∈ l, Worked e.H h := fun h hm => hw h (List.mem_cons_of_mem _ hm)
    unfold addAll
    rw [h1]
    dsimp only [Out.bind]
    split <;> first
      | exact ⟨_, rfl, h2⟩
      | exact addAll_defined w htd l _ _ _ h2 hw'

theorem headers_defined (w : World e g c0) {p : Pool} (h : Rest e g c0 p) {q : Peer} (hq : q ∈ p.peers ++ p.closing) (n : Nat)
    (l : List Header.Hdr) : Fine e g c0 q.id (handleHeaders e p q n l) := by
  unfold handleHeaders
  split
  · exact fine_stay h hq (.refl p)
  split
  · exact fine_stay h hq (.refl p)
  split
  · exact fine_stay h hq (.refl p)
  rename_i hv
  obtain ⟨x, h1, h2⟩ := addAll_defined w h.tdOk l false 0 p.tick h.chain ((vetted_iff w.boot.hash l none).1 (by simpa using hv)).2.2
  rw [h1]
  dsimp only [Out.bind]
  generalize hp1 : ({ edit p q.id (fun q => { q with headers := q.headers + x.2.2.1 }) with chain := x.2.1, tick := x.2.2.2 } : Pool) = p1
  have h3 : Rest e g c0 p1 ∧ ∃ q1 ∈ p1.peers ++ p1.closing, q1.id = q.id := by
    have k : Stay p (edit p q.id fun q => { q with headers := q.headers + x.2.2.1 }) := stay_edit p q.id fun q => ⟨rfl, rfl⟩
    have k2 := rest_stay h k
    rw [← hp1]
    exact ⟨⟨k2.am, k2.td, k2.tdOk, h2, k2.frames⟩, k.ids q hq⟩
  obtain ⟨h3, q1, hq1, hid⟩ := h3
  unfold afterHeaders
  split
  · have h4 : Rest e g c0 (bump { p1 with am := Addrman.addBan p1.am q.addr (e.clock p1.tick) }) :=
      rest_stay (rest_am h3 (h3.am.bans _)) (stay_bump _)
    rw [← hid]
    exact fine_stay h4 hq1 (stay_close _ _)
  · rw [← hid]; exact fine_stay h3 hq1 (stay_close _ _)
  · rw [← hid]; exact fine_stay h3 hq1 (.refl _)
  · obtain ⟨y, k1, k2⟩ := getheaders_defined w h3 q.id
    rw [k1, ← hid]
    exact fine_stay h3 hq1 k2
  · dsimp only
    have k : Stay p1 (bump (edit { p1 with blockTime := e.clock p1.tick } q.id fun q => { q with getheadersTime := 0 })) := by
      refine Stay.trans (Stay.trans (Stay.core (p' := { p1 with blockTime := e.clock p1.tick }) rfl rfl rfl rfl rfl) (stay_edit _ q.id ?_)) (stay_bump _)
      exact fun q => ⟨rfl, rfl⟩
    generalize (bump (edit { p1 with blockTime := e.clock p1.tick } q.id fun q => { q with getheadersTime := 0 })) = p2 at k ⊢
    rw [← hid]
    split
    · obtain ⟨q2, hq2, hid2⟩ := k.ids q1 hq1
      rw [← hid2]
      exact fine_getheaders w (rest_stay h3 k) hq2
    · exact fine_stay h3 hq1 k

theorem proof_defined {p : Pool} (hi : Inv e p) (h : Rest e g c0 p) {q : Peer} (hq : q ∈ p.peers ++ p.closing) {root key : Bytes} {pf : Proof.Proof}
    (hf : Spec.Msg.Fits (.proof root key pf)) : Fine e g c0 q.id (handleProof e p q root key pf) := by
  unfold handleProof
  split
  · exact fine_stay h hq (.refl p)
  · rename_i hg
    exfalso
    rcases List.mem_append.1 hq with hq | hq
    · exact ((hi.peer q hq).ent _ (AMap.get_mem hg)).1 rfl
    · rw [hi.closed q hq] at hg; cases hg
  · rename_i r l hg
    split
    · exact fine_stay h hq (.refl p)
    obtain ⟨_, hk, s, t, hrd⟩ := hf
    have := Props.Proof.C04_verify_safe e.hashProof root key hk s t pf hrd
    split
    · rename_i hv; exact absurd hv this
    · exact fine_stay h hq (.refl p)
    · refine fine_stay h hq (Stay.trans (stay_edit p q.id ?_) (stay_note _ _))
      exact fun q => ⟨rfl, rfl⟩

theorem msg_defined (w : World e g c0) {p : Pool} (hi : Inv e p) (h : Rest e g c0 p) {id : Nat} (hid : ∃ q ∈ p.peers ++ p.closing, q.id = id) {m : Msg}
    (hf : Spec.Msg.Fits m) (hm : ¬ Rude m) : Fine e g c0 id (handleMsg e id p m) := by
  unfold handleMsg
  cases hq : peer p id with
  | none => obtain ⟨q, h1, h2⟩ := hid; exact absurd h2 (find_none hq q h1)
  | some q =>
    obtain ⟨hqm, rfl⟩ := peer_some hq
    have hi' : Inv e (note p [.heard q.id m]) := inv_note hi trivial
    have h' : Rest e g c0 (note p [.heard q.id m]) := rest_stay h (stay_note _ _)
    have hq' : q ∈ (note p [.heard q.id m]).peers ++ (note p [.heard q.id m]).closing := hqm
    dsimp only
    generalize note p [.heard q.id m] = p1 at hi' h' hq'
    cases m with
    | version v =>
      have hm' : ¬ (255 ≤ v.agent.length ∨ 2 ^ 62 ≤ v.time) := hm
      exact version_defined w h' hq' (by omega) (by omega)
    | verack =>
      refine fine_stay h' hq' (stay_edit p1 q.id ?_)
      exact fun q => ⟨rfl, rfl⟩
    | ping n => exact fine_stay h' hq' (stay_send _ _ _ _)
    | pong n =>
      refine fine_stay h' hq' ?_
      show Stay p1 (handlePong e p1 q n)
      unfold handlePong
      split
      · exact .refl _
      split
      · split
        · exact stay_edit p1 q.id fun q => ⟨rfl, rfl⟩
        · exact .refl _
      · refine Stay.trans (stay_edit p1 q.id ?_) (stay_bump _)
        intro q; unfold pong; split <;> exact ⟨rfl, rfl⟩
    | addr l => exact addr_defined h' hq' l
    | headers n l => exact headers_defined w h' hq' n l
    | proof root key pf => exact proof_defined hi' h' hq' hf
    | getaddr => exact fine_stay h' hq' (.refl _)
    | getheaders _ _ => exact fine_stay h' hq' (.refl _)
    | sendheaders => exact fine_stay h' hq' (.refl _)
    | getproof _ _ => exact fine_stay h' hq' (.refl _)

/-! ### Reading -/

theorem deliver_defined {σ : Type} {handle : σ → Msg → Out Unit (Bool × σ)} {I : σ → Prop}
    (hh : ∀ s m, I s → Spec.Msg.Fits m → ¬ Rude m → ∃ x, handle s m = .ok x ∧ I x.2) : ∀ (l : List (Nat × Bytes)) (s : σ), I s →
    (∀ fr ∈ l, ¬ Provoking fr) → ∃ x, Spec.Framing.deliver handle l s = .ok x ∧ I x.2
  | [], s, h, _ => ⟨_, rfl, h⟩
  | (cmd, payload) :: l, s, h, hp => by
    have hl : ∀ fr ∈ l, ¬ Provoking fr := fun fr hm => hp fr (List.mem_cons_of_mem _ hm)
    have h0 := hp _ (List.mem_cons_self ..)
    unfold Spec.Framing.deliver
    split
    · split
      · rename_i m hm
        have hfit : Spec.Msg.Fits m := by
          obtain ⟨w, hw, hm⟩ := Out.bind_eq_ok.1 hm
          cases Out.ok.inj hm
          exact (Props.Msg.C47_read_fits _ _ _ _ hw).2.1
        obtain ⟨x, h1, h2⟩ := hh s m h hfit fun hr => h0 (Or.inr ⟨m, hm, hr⟩)
        rw [h1]
        dsimp only [Out.bind]
        split
        · exact deliver_defined hh l x.2 h2 hl
        · exact ⟨_, rfl, h2⟩
      · exact ⟨_, rfl, h⟩
      · rename_i hm
        refine absurd ?_ h0
        refine Or.inl ((Props.Msg.C47_safe_partial cmd payload).1 ?_)
        unfold Msg.decode at hm
        cases hr : Msg.readMsg cmd payload with
        | ub => rfl
        | ok r => rw [hr] at hm; cases hm
        | err r => rw [hr] at hm; cases hm
    · exact deliver_defined hh l s h hl

/-- What is assumed and kept. -/
structure Safe (e : Env) (g : Header.Hdr) (c0 : Chain.State) (p : Pool) : Prop extends Inv e p, Rest e g c0 p

theorem read_defined (w : World e g c0) {p : Pool} (h : Safe e g c0 p) {id : Nat} {data : Bytes} (hp : ¬ Provokes e p (.data id data)) :
    ∃ p', onRead e p id data = .ok p' ∧ Rest e g c0 p' := by
  unfold onRead
  cases hf : p.peers.find? fun q => q.id = id with
  | none => exact ⟨p, rfl, h.toRest⟩
  | some q =>
    obtain ⟨hq, hid⟩ := find_some hf
    dsimp only
    split
    swap
    · exact ⟨p, rfl, h.toRest⟩
    rename_i hst
    obtain ⟨pre, hpre⟩ := h.frames q hq
    have hno : ∀ fr ∈ (cut e.magic (pre ++ data)).1, ¬ Provoking fr := fun fr hm hc => hp ⟨q, hq, hid, hst, pre, hpre, fr, hm, hc⟩
    have k : Stay p (bump (edit p id fun q => { q with lastRecv := e.clock p.tick })) := by
      refine Stay.trans (stay_edit p id ?_) (stay_bump _)
      exact fun q => ⟨rfl, rfl⟩
    have hi : Inv e (bump (edit p id fun q => { q with lastRecv := e.clock p.tick })) := by
      refine inv_bump (inv_edit h.toInv ?_)
      exact fun q => ⟨rfl, rfl⟩
    generalize (bump (edit p id fun q => { q with lastRecv := e.clock p.tick })) = p1 at k hi
    have hids := k.ids q (List.mem_append_left _ hq)
    rw [hid] at hids
    obtain ⟨x, h1, ⟨h2, h3, h4⟩⟩ := deliver_defined (handle := handleMsg e id)
      (I := fun s => Inv e s ∧ Rest e g c0 s ∧ ∃ q ∈ s.peers ++ s.closing, q.id = id)
      (by
        intro s m ⟨i1, i2, i3⟩ hfit hr
        obtain ⟨x, x1, x2, x3⟩ := msg_defined w i1 i2 i3 hfit hr
        exact ⟨x, x1, (keep_msg (good_refl i1) hfit x1).toInv, x2, x3⟩)
      (cut e.magic (pre ++ data)).1 p1 ⟨hi, rest_stay h.toRest k, hids⟩ hno
    obtain ⟨f1, f2⟩ := Framing.feed_spec e.magic (handleMsg e id) (data := data) (s := p1) hpre
    unfold Spec.Framing.meaning at f1
    rw [h1] at f1
    dsimp only [Out.bind] at f1
    cases hx : Framing.feed e.magic (handleMsg e id) data q.frame p1 with
    | ub => rw [hx] at f1; cases f1
    | err _ => rw [hx] at f1; cases f1
    | ok y =>
      rw [hx] at f1
      obtain ⟨b, f', p2⟩ := y
      have e2 : p2 = x.2 := congrArg (fun z => z.2) (Out.ok.inj f1)
      subst e2
      refine ⟨_, rfl, ?_⟩
      unfold finishRead
      dsimp only
      cases b with
      | true =>
        obtain ⟨rest, _, hrep, _⟩ := f2 f' _ hx
        refine ⟨h3.am, h3.td, h3.tdOk, h3.chain, ?_⟩
        intro z hz
        obtain ⟨z', z1, z2⟩ := List.mem_map.1 hz
        rw [← z2]; unfold editPeer
        split
        · exact ⟨rest, hrep⟩
        · exact h3.frames z' z1
      | false =>
        have c : ∀ p0 : Pool, (∀ z ∈ p0.peers, z.id ≠ id → ∃ pre, Rep e.magic z.frame pre) → ∀ z ∈ (close p0 id).peers,
            ∃ pre, Rep e.magic z.frame pre := by
          intro p0 hp0 z hz
          unfold close at hz
          cases hg : p0.peers.find? fun q => q.id = id with
          | none => rw [hg] at hz; exact hp0 z hz (find_none hg z hz)
          | some z' =>
            rw [hg] at hz
            obtain ⟨z1, z2⟩ := List.mem_filter.1 hz
            exact hp0 z z1 (by simpa using z2)
        have s := stay_close (edit x.2 id fun q => { q with frame := f' }) id
        refine ⟨by rw [if_neg (by simp), s.am]; exact h3.am, by rw [if_neg (by simp), s.td]; exact h3.td,
          by rw [if_neg (by simp), s.td]; exact h3.tdOk, by rw [if_neg (by simp), s.chain]; exact h3.chain, ?_⟩
        rw [if_neg (by simp)]
        refine c _ ?_
        intro z hz hzi
        obtain ⟨z', z1, z2⟩ := List.mem_map.1 hz
        have : (editPeer id (fun q => { q with frame := f' }) z').id = z'.id := by
          refine editPeer_id ?_ z'
          exact fun q => rfl
        rw [z2] at this
        rw [← z2]; unfold editPeer
        rw [if_neg (by rw [← this]; exact hzi)]
        exact h3.frames z' z1

/-! ### The rest -/

theorem refill_defined {p : Pool} (h : Rest e g c0 p) : ∃ p', refill e p = .ok p' ∧ Rest e g c0 p' := by
  unfold refill
  split
  swap
  · exact ⟨p, rfl, h⟩
  dsimp only
  obtain ⟨b, hb⟩ := Addrman.pickLoop_man (e.rnd p.tick) (fun k => p.peers.any fun q => Addrman.keyOf q.addr = k)
    (Timedata.adjusted p.td (e.clock p.tick)) (e.clock p.tick) 100 0 p.am
  have hai : Addrman.Inv (Addrman.pick p.am (e.rnd p.tick) (fun k => p.peers.any fun q => Addrman.keyOf q.addr = k)
    (Timedata.adjusted p.td (e.clock p.tick)) (e.clock p.tick)).1 := by
    unfold Addrman.pick; rw [hb]; exact h.am.bans b
  cases hx : (Addrman.pick p.am (e.rnd p.tick) (fun k => p.peers.any fun q => Addrman.keyOf q.addr = k)
    (Timedata.adjusted p.td (e.clock p.tick)) (e.clock p.tick)).2 with
  | none => exact ⟨_, rfl, rest_stay (rest_am h hai) (stay_bump _)⟩
  | some en =>
    have hs := Addrman.pickLoop_spec _ _ _ _ _ _ _ _ hx
    dsimp only
    have h1 := rest_stay (rest_am h hai) (stay_bump _)
    have hpe : (bump { p with am := (Addrman.pick p.am (e.rnd p.tick) (fun k => p.peers.any fun q => Addrman.keyOf q.addr = k)
      (Timedata.adjusted p.td (e.clock p.tick)) (e.clock p.tick)).1 }).peers = p.peers := rfl
    generalize (bump { p with am := (Addrman.pick p.am (e.rnd p.tick) (fun k => p.peers.any fun q => Addrman.keyOf q.addr = k)
      (Timedata.adjusted p.td (e.clock p.tick)) (e.clock p.tick)).1 }) = p1 at h1 hpe ⊢
    unfold open_
    split
    · obtain ⟨am, b, k1, k2, _⟩ := h1.am.update en.addr (fun e => { e with removed := true }) (fun e => ⟨rfl, rfl⟩)
      unfold Addrman.removeAddr
      rw [k1]
      exact ⟨_, rfl, rest_am h1 k2⟩
    · obtain ⟨am, b, k1, k2, _⟩ := h1.am.update en.addr
        (fun e' => { e' with attempts := e'.attempts + 1, lastAttempt := Timedata.adjusted p1.td (e.clock p1.tick) }) (fun e => ⟨rfl, rfl⟩)
      unfold Addrman.markAttempt
      rw [k1]
      dsimp only [Out.bind]
      split
      · rw [if_neg (by rw [hpe, hs.2.2.1]; simp)]
        refine ⟨_, rfl, k2, h1.td, h1.tdOk, h1.chain, ?_⟩
        intro q hq
        rcases List.mem_append.1 hq with hq | hq
        · exact h1.frames q hq
        · rw [List.mem_singleton.1 hq]; exact ⟨[], Framing.rep_fresh e.magic⟩
      · exact ⟨_, rfl, k2, h1.td, h1.tdOk, h1.chain, h1.frames⟩

theorem secure_defined {p : Pool} (h : Rest e g c0 p) (id : Nat) : ∃ p', onSecure e p id = .ok p' ∧ Rest e g c0 p' := by
  unfold onSecure
  split
  · exact ⟨p, rfl, h⟩
  · rename_i q _
    split
    · obtain ⟨am, b, k1, k2, _⟩ := h.am.update q.addr
        (fun e' => if Addrman.u64 (Timedata.adjusted p.td (e.clock p.tick) - e'.time) > 1200 then
          { e' with time := Addrman.u64 (Timedata.adjusted p.td (e.clock p.tick)) } else e') (fun e => by split <;> exact ⟨rfl, rfl⟩)
      unfold Addrman.markSuccess
      rw [k1]
      refine ⟨_, rfl, rest_stay (rest_stay (rest_am h k2) (Stay.trans (stay_edit _ id ?_) (stay_bump _))) (stay_sendVersion e _ id)⟩
      exact fun q => ⟨rfl, rfl⟩
    · exact ⟨p, rfl, h⟩

theorem stay_connect (e : Env) (p : Pool) (id : Nat) (ok readOk : Bool) : Stay p (onConnect e p id ok readOk) := by
  unfold onConnect
  split
  · exact .refl p
  · split
    · split
      · dsimp only
        have k : Stay p (bump (edit p id fun q => { q with st := if q.secure then .reading else .handshake, connTime := e.clock p.tick })) := by
          refine Stay.trans (stay_edit p id ?_) (stay_bump _)
          exact fun q => ⟨rfl, rfl⟩
        split
        · exact k
        · exact k.trans (stay_sendVersion e _ id)
      · exact stay_close p id
    · exact .refl p

theorem overdue_defined (now : Int) : ∀ (m : AMap Bytes (List Req)), (∀ x ∈ m, x.2 ≠ []) → ∃ b, overdue now m = .ok b
  | [], _ => ⟨_, rfl⟩
  | (k, []) :: m, h => absurd rfl (h _ (List.mem_cons_self ..))
  | (k, r :: l) :: m, h => by
    unfold overdue
    split
    · exact ⟨_, rfl⟩
    · exact overdue_defined now m fun x hx => h x (List.mem_cons_of_mem _ hx)

theorem stay_ping (e : Env) (now : Int) (p : Pool) (q : Peer) : Stay p (ping e now p q) := by
  unfold ping
  split
  · split
    · exact stay_edit p q.id fun q => ⟨rfl, rfl⟩
    · dsimp only
      refine Stay.trans (Stay.trans (stay_edit p q.id ?_) (stay_bump _)) (stay_send e _ q.id _)
      exact fun q => ⟨rfl, rfl⟩
  · exact .refl p

theorem tend_defined {p : Pool} (h : Inv e p) (now : Int) (id : Nat) : ∃ p', tend e now p id = .ok p' ∧ Stay p p' := by
  unfold tend
  split
  · exact ⟨p, rfl, .refl p⟩
  · rename_i q _
    split
    swap
    · exact ⟨p, rfl, .refl p⟩
    split
    · exact ⟨_, rfl, stay_close p id⟩
    have k := stay_ping e now p q
    have hi := (keep_ping (good_refl h) now q).toInv
    generalize ping e now p q = p1 at k hi
    unfold judge
    cases hf : p1.peers.find? fun q => q.id = id with
    | none => exact ⟨p1, rfl, k⟩
    | some z =>
      dsimp only
      split
      · exact ⟨_, rfl, k.trans (stay_close _ _)⟩
      · obtain ⟨b, hb⟩ := overdue_defined (e.clock p1.tick) z.names fun x hx => ((hi.peer z (find_some hf).1).ent x hx).1
        rw [hb]
        refine ⟨_, rfl, k.trans ?_⟩
        split
        · exact (stay_bump _).trans (stay_close _ _)
        · exact stay_bump _

theorem tendAll_defined (now : Int) : ∀ (l : List Nat) {p : Pool}, Inv e p → ∃ p', tendAll e now l p = .ok p' ∧ Stay p p' ∧ Inv e p'
  | [], p, h => ⟨p, rfl, .refl p, h⟩
  | id :: l, p, h => by
    obtain ⟨p1, h1, h2⟩ := tend_defined h now id
    obtain ⟨p2, h3, h4, h5⟩ := tendAll_defined now l (keep_tend (good_refl h) h1).toInv
    unfold tendAll
    rw [h1]
    exact ⟨p2, h3, h2.trans h4, h5⟩

theorem getheadersAll_defined (w : World e g c0) : ∀ (l : List Nat) {p : Pool}, Rest e g c0 p → ∃ p', getheadersAll e l p = .ok p' ∧ Stay p p'
  | [], p, _ => ⟨p, rfl, .refl p⟩
  | id :: l, p, h => by
    unfold getheadersAll
    split
    · exact getheadersAll_defined w l h
    · split
      · obtain ⟨x, h1, h2⟩ := getheaders_defined w h id
        rw [h1]
        dsimp only [Out.bind]
        split
        · exact ⟨_, rfl, h2⟩
        · obtain ⟨p', h3, h4⟩ := getheadersAll_defined w l (rest_stay h h2)
          exact ⟨p', h3, h2.trans h4⟩
      · exact getheadersAll_defined w l h

theorem timer_defined (w : World e g c0) {p : Pool} (h : Safe e g c0 p) : ∃ p', timer e p = .ok p' ∧ Rest e g c0 p' := by
  unfold timer
  obtain ⟨p1, h1, h2, _⟩ := tendAll_defined (e.clock p.tick) (p.peers.map fun q => q.id) (inv_bump h.toInv)
  rw [h1]
  dsimp only [Out.bind]
  have r1 := rest_stay (rest_stay h.toRest (stay_bump p)) h2
  have : ∃ p2, askAgain e (e.clock p.tick) p1 = .ok p2 ∧ Rest e g c0 p2 := by
    unfold askAgain
    split
    · obtain ⟨p2, k1, k2⟩ := getheadersAll_defined w (p1.peers.map fun q => q.id) r1
      rw [k1]
      exact ⟨_, rfl, rest_stay r1 (k2.trans (Stay.core rfl rfl rfl rfl rfl))⟩
    · exact ⟨_, rfl, r1⟩
  obtain ⟨p2, h3, r2⟩ := this
  rw [h3]
  exact refill_defined r2

theorem resolve_defined (w : World e g c0) {p : Pool} (h : Safe e g c0 p) {name : Bytes} (arg : Nat) (hn : name.length < 256) :
    ∃ p', resolve e p name arg = .ok p' ∧ Rest e g c0 p' := by
  unfold resolve
  split
  · exact ⟨_, rfl, rest_stay h.toRest (stay_note _ _)⟩
  rw [if_neg (by omega)]
  obtain ⟨ops, o1, _, o3⟩ := h.chain.by_
  obtain ⟨_, en, _, _, _, hroot⟩ := Props.Chain.C13_safe_root_exists w.boot o1 o3
  rw [hroot]
  dsimp only [Out.bind]
  have k : Stay p (bump { p with nextReq := p.nextReq + 1 }) := .core rfl rfl rfl rfl rfl
  generalize (bump { p with nextReq := p.nextReq + 1 }) = p1 at k
  split
  · refine ⟨_, rfl, rest_stay h.toRest (k.trans ?_)⟩
    exact .core rfl rfl rfl rfl rfl
  · rename_i q hq
    have hqm := pick_mem hq
    have kf : ∀ r l, Stay p (file p1 q.id r l) := by
      intro r l
      refine k.trans (Stay.trans (stay_edit p1 q.id ?_) (stay_note _ _))
      exact fun q => ⟨rfl, rfl⟩
    unfold assign
    split
    · exact ⟨_, rfl, rest_stay h.toRest ((kf _ _).trans (stay_note _ _))⟩
    · rename_i hg
      exact absurd rfl ((h.peer q hqm).ent _ (AMap.get_mem hg)).1
    · exact ⟨_, rfl, rest_stay h.toRest (((kf _ _).trans (stay_send _ _ _ _)).trans (stay_note _ _))⟩

theorem step_defined (w : World e g c0) {p : Pool} (h : Safe e g c0 p) {ev : Ev} (hp : ¬ Provokes e p ev) :
    ∃ p', step e p ev = .ok p' ∧ Safe e g c0 p' := by
  have key : ∃ p', step e p ev = .ok p' ∧ Rest e g c0 p' := by
    cases ev with
    | resolve name arg => exact resolve_defined w h arg (Nat.lt_of_not_le hp)
    | connect id ok readOk => exact ⟨_, rfl, rest_stay h.toRest (stay_connect e p id ok readOk)⟩
    | secure id => exact secure_defined h.toRest id
    | data id data => exact read_defined w h hp
    | lost id => exact ⟨_, rfl, rest_stay h.toRest (stay_close p id)⟩
    | closed id => exact ⟨_, rfl, h.am, h.td, h.tdOk, h.chain, h.frames⟩
    | timer => exact timer_defined w h
  obtain ⟨p', h1, h2⟩ := key
  exact ⟨p', h1, { toInv := keep_step h.toInv h1, toRest := h2 }⟩

theorem safe_init (w : World e g c0) {am : Addrman.Man} (ham : Addrman.Inv am) (max : Nat) : Safe e g c0 (init c0 am max) where
  toInv := inv_init e c0 am max
  am := ham
  td := ⟨[], Timedata.init_inv⟩
  tdOk := ⟨Int.le_refl _, (by decide : (0 : Int) < 4200)⟩
  chain := ⟨[], (fun op hop => by cases hop), (fun op hop => by cases hop), rfl⟩
  frames := fun q hq => by cases hq

theorem run_safe (w : World e g c0) : ∀ (evs : List Ev) {p : Pool}, Safe e g c0 p →
    (∃ p', run e p evs = .ok p' ∧ Safe e g c0 p') ∨
    ∃ before ev after p', evs = before ++ ev :: after ∧ run e p before = .ok p' ∧ Provokes e p' ev
  | [], p, h => Or.inl ⟨p, rfl, h⟩
  | ev :: evs, p, h => by
    by_cases hp : Provokes e p ev
    · exact Or.inr ⟨[], ev, evs, p, rfl, rfl, hp⟩
    obtain ⟨p1, h1, h2⟩ := step_defined w h hp
    rcases run_safe w evs h2 with ⟨p', k1, k2⟩ | ⟨before, ev', after, p', k1, k2, k3⟩
    · refine Or.inl ⟨p', ?_, k2⟩
      unfold run; rw [h1]; exact k1
    · refine Or.inr ⟨ev :: before, ev', after, p', by rw [k1]; rfl, ?_, k3⟩
      unfold run; rw [h1]; exact k2

/-- For evaluation by the kernel. -/
def isUb {α : Type} : Out Unit α → Bool
  | .ub => true
  | _ => false

theorem isUb_spec {α : Type} {r : Out Unit α} (h : isUb r = true) : r = .ub := by
  cases r with
  | ub => rfl
  | ok a => cases h
  | err e => cases h

end Verif.Pool
