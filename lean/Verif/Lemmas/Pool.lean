import Verif.Lemmas.PoolLog
import Verif.Lemmas.Framing
import Verif.Spec.ChainView
import Verif.Props.Msg
import Mathlib.Data.List.Perm.Subperm
/-
The invariant of the pool.
-/
namespace Verif.Pool
open Verif.Spec.Pool
open Verif.Msg (Msg)
open Verif.Framing (Frame)

/-- All requests in an entry of a peer's table are for its key and have the time of the
first. -/
def Entry (k : Bytes) (l : List Req) : Prop := l ≠ [] ∧ ∀ r ∈ l, r.hash = k ∧ l.head?.map (fun x => x.time) = some r.time

/-- What holds of the table of each peer in the list. -/
structure PeerInv (q : Peer) : Prop where
  keys : q.names.Nodup
  ent : ∀ x ∈ q.names, Entry x.1 x.2
  uniq : ((reqsOf q).map fun r => r.no).Nodup

structure Inv (e : Env) (p : Pool) : Prop where
  ids : ((p.peers ++ p.closing).map fun q => q.id).Nodup
  idlt : ∀ q ∈ p.peers ++ p.closing, q.id < p.nextId
  closed : ∀ q ∈ p.closing, q.names = []
  peer : ∀ q ∈ p.peers, PeerInv q
  held : ∀ a r, (a, r) ∈ live p.log ↔ Held p a r
  fresh : ∀ r a, Act.asked r a ∈ p.log → r.no < p.nextReq ∧ r.hash = e.hashName r.name
  sound : Sound e.hashProof p.log

theorem inv_init (e : Env) (chain : Chain.State) (am : Addrman.Man) (max : Nat) : Inv e (init chain am max) where
  ids := List.nodup_nil
  idlt := fun q hq => by cases hq
  closed := fun q hq => by cases hq
  peer := fun q hq => by cases hq
  held := fun a r => by
    cases a with
    | none => exact ⟨(fun h => by cases h), (fun h => by cases h)⟩
    | some id => exact ⟨(fun h => by cases h), (fun ⟨_, h, _⟩ => by cases h)⟩
  fresh := fun r a h => by cases h
  sound := sound_nil

/-- Fields the invariant does not speak of. -/
theorem inv_core {e : Env} {p p' : Pool} (h : Inv e p) (h1 : p'.peers = p.peers) (h2 : p'.closing = p.closing)
    (h3 : p'.pending = p.pending) (h4 : p'.log = p.log) (h5 : p'.nextId = p.nextId) (h6 : p'.nextReq = p.nextReq) : Inv e p' where
  ids := by rw [h1, h2]; exact h.ids
  idlt := by rw [h1, h2, h5]; exact h.idlt
  closed := by rw [h2]; exact h.closed
  peer := by rw [h1]; exact h.peer
  held := by
    intro a r; rw [h4, h.held]
    cases a with
    | none => unfold Held; dsimp only; rw [h3]
    | some id => unfold Held; dsimp only; rw [h1]
  fresh := by rw [h4, h6]; exact h.fresh
  sound := by rw [h4]; exact h.sound

theorem inv_bump {e : Env} {p : Pool} (h : Inv e p) : Inv e (bump p) := inv_core h rfl rfl rfl rfl rfl rfl

/-- A plain observation. -/
theorem inv_note {e : Env} {p : Pool} (h : Inv e p) {a : Act} (ha : Plain a) : Inv e (note p [a]) where
  ids := h.ids
  idlt := h.idlt
  closed := h.closed
  peer := h.peer
  held := by
    intro b r
    show (b, r) ∈ live (p.log ++ [a]) ↔ _
    rw [live_plain ha, h.held]
    cases b <;> exact Iff.rfl
  fresh := by
    intro r b hm
    rcases List.mem_append.1 hm with hm | hm
    · exact h.fresh r b hm
    · rw [← List.mem_singleton.1 hm] at ha; exact ha.elim
  sound := sound_snoc h.sound (may_plain ha)

/-- Edits that keep identity and requests. -/
def Keeps (f : Peer → Peer) : Prop := ∀ q, (f q).id = q.id ∧ (f q).names = q.names

theorem editPeer_id {id : Nat} {f : Peer → Peer} (hf : ∀ q, (f q).id = q.id) (q : Peer) : (editPeer id f q).id = q.id := by
  unfold editPeer; split
  · exact hf q
  · rfl

theorem editPeer_names {id : Nat} {f : Peer → Peer} (hf : Keeps f) (q : Peer) : (editPeer id f q).names = q.names := by
  unfold editPeer; split
  · exact (hf q).2
  · rfl

theorem map_id_edit {id : Nat} {f : Peer → Peer} (hf : ∀ q, (f q).id = q.id) (l : List Peer) :
    (l.map (editPeer id f)).map (fun q => q.id) = l.map fun q => q.id := by
  rw [List.map_map]
  exact List.map_congr_left fun q _ => editPeer_id hf q

theorem edit_ids {p : Pool} {id : Nat} {f : Peer → Peer} (hf : ∀ q, (f q).id = q.id) :
    ((edit p id f).peers ++ (edit p id f).closing).map (fun q => q.id) = (p.peers ++ p.closing).map fun q => q.id := by
  unfold edit; dsimp only
  rw [← List.map_append]
  exact map_id_edit hf _

theorem peerInv_congr {q q' : Peer} (hn : q'.names = q.names) (h : PeerInv q) : PeerInv q' := by
  refine ⟨by rw [hn]; exact h.keys, by rw [hn]; exact h.ent, ?_⟩
  have : reqsOf q' = reqsOf q := by unfold reqsOf; rw [hn]
  rw [this]; exact h.uniq

theorem held_edit {p : Pool} {id : Nat} {f : Peer → Peer} (hf : Keeps f) (a : Option Nat) (r : Req) : Held (edit p id f) a r ↔ Held p a r := by
  cases a with
  | none => exact Iff.rfl
  | some i =>
    constructor
    · rintro ⟨q, hq, h1, h2⟩
      obtain ⟨q0, hq0, rfl⟩ := List.mem_map.1 hq
      refine ⟨q0, hq0, ?_, ?_⟩
      · rw [← h1]; exact (editPeer_id (fun q => (hf q).1) q0).symm
      · unfold reqsOf at h2 ⊢; rw [editPeer_names hf] at h2; exact h2
    · rintro ⟨q, hq, h1, h2⟩
      refine ⟨editPeer id f q, List.mem_map_of_mem hq, ?_, ?_⟩
      · rw [← h1]; exact editPeer_id (fun q => (hf q).1) q
      · unfold reqsOf at h2 ⊢; rw [editPeer_names hf]; exact h2

theorem inv_edit {e : Env} {p : Pool} (h : Inv e p) {id : Nat} {f : Peer → Peer} (hf : Keeps f) : Inv e (edit p id f) where
  ids := by rw [edit_ids (fun q => (hf q).1)]; exact h.ids
  idlt := by
    intro q hq
    have : q.id ∈ (p.peers ++ p.closing).map fun q => q.id := by
      rw [← edit_ids (f := f) (id := id) (fun q => (hf q).1)]; exact List.mem_map_of_mem (f := fun q : Peer => q.id) hq
    obtain ⟨q0, hq0, he⟩ := List.mem_map.1 this
    rw [← he]; exact h.idlt q0 hq0
  closed := by
    intro q hq
    obtain ⟨q0, hq0, rfl⟩ := List.mem_map.1 hq
    rw [editPeer_names hf]; exact h.closed q0 hq0
  peer := by
    intro q hq
    obtain ⟨q0, hq0, rfl⟩ := List.mem_map.1 hq
    exact peerInv_congr (editPeer_names hf q0) (h.peer q0 hq0)
  held := by
    intro a r
    rw [held_edit hf]; exact h.held a r
  fresh := h.fresh
  sound := h.sound

theorem find_some {l : List Peer} {id : Nat} {q : Peer} (h : (l.find? fun q => q.id = id) = some q) : q ∈ l ∧ q.id = id :=
  ⟨List.mem_of_find?_eq_some h, by simpa using List.find?_some h⟩

theorem find_none {l : List Peer} {id : Nat} (h : (l.find? fun q => q.id = id) = none) : ∀ q ∈ l, q.id ≠ id := by
  intro q hq; simpa using List.find?_eq_none.1 h q hq

theorem Inv.ids_left {e : Env} {p : Pool} (h : Inv e p) : (p.peers.map fun q => q.id).Nodup := by
  have := h.ids; rw [List.map_append, List.nodup_append] at this; exact this.1

theorem Inv.peer_unique {e : Env} {p : Pool} (h : Inv e p) {q q' : Peer} (hq : q ∈ p.peers) (hq' : q' ∈ p.peers)
    (he : q.id = q'.id) : q = q' := nodup_inj (f := fun q : Peer => q.id) h.ids_left hq hq' he

theorem Inv.disjoint {e : Env} {p : Pool} (h : Inv e p) {q q' : Peer} (hq : q ∈ p.peers) (hq' : q' ∈ p.closing) : q.id ≠ q'.id := by
  have := h.ids; rw [List.map_append, List.nodup_append] at this
  exact this.2.2 _ (List.mem_map_of_mem (f := fun q : Peer => q.id) hq) _ (List.mem_map_of_mem (f := fun q : Peer => q.id) hq')

/-- What destroying a peer does. -/
theorem inv_close {e : Env} {p : Pool} (h : Inv e p) (id : Nat) : Inv e (close p id) := by
  unfold close
  cases hf : p.peers.find? fun q => q.id = id with
  | none => exact h
  | some q =>
    obtain ⟨hq, hid⟩ := find_some hf
    dsimp only
    have hlive : ∀ r ∈ reqsOf q, (some id, r) ∈ live p.log := fun r hr => (h.held _ _).2 ⟨q, hq, hid, hr⟩
    obtain ⟨s1, s2⟩ := calls_append h.sound none (reqsOf q) (fun r hr => ⟨_, hlive r hr⟩) (h.peer q hq).uniq
      (fun a ha => by cases ha)
    have hfilt : ∀ x, x ∈ p.peers.filter (fun x => x.id ≠ id) ↔ x ∈ p.peers ∧ x.id ≠ id := by
      intro x; rw [List.mem_filter]; simp
    refine ⟨?_, ?_, ?_, ?_, ?_, ?_, s1⟩
    · have h0 := h.ids
      rw [List.map_append, List.nodup_append] at h0
      show ((p.peers.filter (fun x => x.id ≠ id) ++ { q with st := .disconnecting, names := [] } :: p.closing).map fun q => q.id).Nodup
      rw [List.map_append, List.nodup_append]
      refine ⟨List.Nodup.sublist (List.Sublist.map _ List.filter_sublist) h0.1, ?_, ?_⟩
      · rw [List.map_cons, List.nodup_cons]
        refine ⟨?_, h0.2.1⟩
        intro hc
        exact h0.2.2 _ (List.mem_map_of_mem (f := fun q : Peer => q.id) hq) _ hc rfl
      · intro a ha b hb hab
        obtain ⟨x, hx, rfl⟩ := List.mem_map.1 ha
        rw [List.map_cons, List.mem_cons] at hb
        rcases hb with hb | hb
        · exact ((hfilt x).1 hx).2 (by rw [hab, hb]; exact hid)
        · exact h0.2.2 _ (List.mem_map_of_mem (f := fun q : Peer => q.id) ((hfilt x).1 hx).1) _ hb hab
    · intro x hx
      rcases List.mem_append.1 hx with hx | hx
      · exact h.idlt x (List.mem_append_left _ ((hfilt x).1 hx).1)
      · rcases List.mem_cons.1 hx with rfl | hx
        · exact h.idlt q (List.mem_append_left _ hq)
        · exact h.idlt x (List.mem_append_right _ hx)
    · intro x hx
      rcases List.mem_cons.1 hx with rfl | hx
      · rfl
      · exact h.closed x hx
    · intro x hx; exact h.peer x ((hfilt x).1 hx).1
    · intro a r
      show (a, r) ∈ live (p.log ++ timeouts q) ↔ _
      unfold timeouts
      rw [s2, h.held]
      cases a with
      | none =>
        constructor
        · exact fun hx => hx.1
        · intro hx
          refine ⟨hx, fun r' hr' hno => ?_⟩
          have := live_inj h.sound ((h.held none r).2 hx) (hlive r' hr') hno
          cases this
      | some i =>
        constructor
        · rintro ⟨⟨x, hx, hxi, hxr⟩, hno⟩
          refine ⟨x, (hfilt x).2 ⟨hx, ?_⟩, hxi, hxr⟩
          intro hc
          rw [h.peer_unique hx hq (hc.trans hid.symm)] at hxr
          exact hno r hxr rfl
        · rintro ⟨x, hx, hxi, hxr⟩
          obtain ⟨hx1, hx2⟩ := (hfilt x).1 hx
          refine ⟨⟨x, hx1, hxi, hxr⟩, fun r' hr' hno => ?_⟩
          have := live_inj h.sound ((h.held (some i) r).2 ⟨x, hx1, hxi, hxr⟩) (hlive r' hr') hno
          simp only [Prod.mk.injEq, Option.some.injEq] at this
          exact hx2 (hxi.trans this.1)
    · intro r a hm
      rcases List.mem_append.1 hm with hm | hm
      · exact h.fresh r a hm
      · unfold timeouts at hm
        obtain ⟨x, _, hx⟩ := List.mem_map.1 hm
        cases hx

/-! ### Changing the requests of a peer -/

theorem edit_peers {e : Env} {p : Pool} (h : Inv e p) {q : Peer} (hq : q ∈ p.peers) (f : Peer → Peer) (x : Peer) :
    x ∈ (edit p q.id f).peers ↔ x = f q ∨ (x ∈ p.peers ∧ x.id ≠ q.id) := by
  unfold edit; dsimp only
  rw [List.mem_map]
  constructor
  · rintro ⟨y, hy, rfl⟩
    unfold editPeer
    by_cases hi : y.id = q.id
    · rw [if_pos hi, h.peer_unique hy hq hi]; exact Or.inl rfl
    · rw [if_neg hi]; exact Or.inr ⟨hy, hi⟩
  · rintro (rfl | ⟨hx, hi⟩)
    · exact ⟨q, hq, by unfold editPeer; rw [if_pos rfl]⟩
    · exact ⟨x, hx, by unfold editPeer; rw [if_neg hi]⟩

theorem edit_closing {e : Env} {p : Pool} (h : Inv e p) {q : Peer} (hq : q ∈ p.peers) (f : Peer → Peer) :
    (edit p q.id f).closing = p.closing := by
  unfold edit; dsimp only
  conv => rhs; rw [← List.map_id p.closing]
  refine List.map_congr_left fun x hx => ?_
  unfold editPeer; rw [if_neg (fun hc => h.disjoint hq hx hc.symm)]; rfl

theorem inv_names {e : Env} {p : Pool} (h : Inv e p) {q : Peer} (hq : q ∈ p.peers) {f : Peer → Peer} (hf : ∀ x, (f x).id = x.id)
    {acts : List Act} (hpi : PeerInv (f q)) (hs : Sound e.hashProof (p.log ++ acts))
    (hl : ∀ a r, (a, r) ∈ live (p.log ++ acts) ↔ if a = some q.id then r ∈ reqsOf (f q) else Held p a r)
    (hfr : ∀ r a, Act.asked r a ∈ acts → r.no < p.nextReq ∧ r.hash = e.hashName r.name) :
    Inv e (note (edit p q.id f) acts) where
  ids := by
    show (((edit p q.id f).peers ++ (edit p q.id f).closing).map fun q => q.id).Nodup
    rw [edit_ids hf]; exact h.ids
  idlt := by
    intro x hx
    have : x.id ∈ (p.peers ++ p.closing).map fun q => q.id := by
      rw [← edit_ids (f := f) (id := q.id) hf]; exact List.mem_map_of_mem (f := fun q : Peer => q.id) hx
    obtain ⟨q0, hq0, he⟩ := List.mem_map.1 this
    rw [← he]; exact h.idlt q0 hq0
  closed := by
    show ∀ x ∈ (edit p q.id f).closing, x.names = []
    rw [edit_closing h hq]; exact h.closed
  peer := by
    intro x hx
    rcases (edit_peers h hq f x).1 hx with rfl | ⟨hx, _⟩
    · exact hpi
    · exact h.peer x hx
  held := by
    intro a r
    show (a, r) ∈ live (p.log ++ acts) ↔ _
    rw [hl]
    cases a with
    | none => rw [if_neg (by simp)]; exact Iff.rfl
    | some i =>
      by_cases hi : some i = some q.id
      · rw [if_pos hi]
        have hi' : i = q.id := Option.some.inj hi
        constructor
        · intro hr
          exact ⟨f q, (edit_peers h hq f _).2 (Or.inl rfl), (hf q).trans hi'.symm, hr⟩
        · rintro ⟨x, hx, hxi, hxr⟩
          rcases (edit_peers h hq f x).1 hx with rfl | ⟨_, hne⟩
          · exact hxr
          · exact absurd (hxi.trans hi') hne
      · rw [if_neg hi]
        constructor
        · rintro ⟨x, hx, hxi, hxr⟩
          refine ⟨x, (edit_peers h hq f x).2 (Or.inr ⟨hx, ?_⟩), hxi, hxr⟩
          rw [hxi]; exact fun hc => hi (by rw [hc])
        · rintro ⟨x, hx, hxi, hxr⟩
          rcases (edit_peers h hq f x).1 hx with rfl | ⟨hx, hne⟩
          · exact absurd (congrArg some (hxi.symm.trans (hf q))) hi
          · exact ⟨x, hx, hxi, hxr⟩
  fresh := by
    intro r a hm
    rcases List.mem_append.1 hm with hm | hm
    · exact h.fresh r a hm
    · exact hfr r a hm
  sound := hs

theorem flat_del {m : AMap Bytes (List Req)} (hn : m.Nodup) {k : Bytes} {l : List Req} (hg : m.get k = some l) :
    List.Perm (m.flatMap fun e => e.2) (l ++ (m.del k).flatMap fun e => e.2) := by
  induction m with
  | nil => cases hg
  | cons x m ih =>
    obtain ⟨k', l'⟩ := x
    have hn' : k' ∉ m.map (fun x => x.1) ∧ AMap.Nodup m := List.nodup_cons.1 hn
    by_cases hk : k' = k
    · subst hk
      have hl : l' = l := by
        have := AMap.get_of_mem hn (List.mem_cons_self (a := (k', l')) (l := m))
        rw [this] at hg; exact Option.some.inj hg
      subst hl
      have hd : AMap.del ((k', l') :: m) k' = m := by
        unfold AMap.del
        rw [List.filter_cons_of_neg (by simp)]
        refine List.filter_eq_self.2 fun y hy => ?_
        have : y.1 ≠ k' := fun hc => hn'.1 (hc ▸ List.mem_map_of_mem (f := fun x : Bytes × List Req => x.1) hy)
        simpa using this
      rw [hd, List.flatMap_cons]
    · have hd : AMap.del ((k', l') :: m) k = (k', l') :: AMap.del m k := by
        unfold AMap.del
        rw [List.filter_cons_of_pos (by simpa using hk)]
      have hg' : AMap.get m k = some l := by
        have h0 := AMap.get_mem hg
        rcases List.mem_cons.1 h0 with h0 | h0
        · simp only [Prod.mk.injEq] at h0; exact absurd h0.1.symm hk
        · exact AMap.get_of_mem hn'.2 h0
      rw [hd, List.flatMap_cons, List.flatMap_cons]
      refine ((ih hn'.2 hg').append_left l').trans ?_
      rw [← List.append_assoc, ← List.append_assoc]
      exact (List.perm_append_comm).append_right _

theorem del_none {m : AMap Bytes (List Req)} {k : Bytes} (hg : m.get k = none) : m.del k = m := by
  unfold AMap.del
  refine List.filter_eq_self.2 fun y hy => ?_
  have : y.1 ≠ k := by
    intro hc
    have hex : ∀ (m : AMap Bytes (List Req)), y ∈ m → AMap.get m y.1 ≠ none := by
      intro m
      induction m with
      | nil => intro h; cases h
      | cons z m ih =>
        intro h
        obtain ⟨zk, zv⟩ := z
        unfold AMap.get
        split
        · simp
        · rename_i hne
          rcases List.mem_cons.1 h with h | h
          · rw [h] at hne; exact absurd rfl hne
          · exact ih h
    exact hex m hy (by rw [hc]; exact hg)
  simpa using this

theorem inv_push {e : Env} {p : Pool} (h : Inv e p) (a : Addr.Addr) (st : St) :
    Inv e { p with nextId := p.nextId + 1, peers := p.peers ++ [newPeer p.nextId a st] } := by
  have hne : ∀ q ∈ p.peers ++ p.closing, q.id ≠ p.nextId := fun q hq => Nat.ne_of_lt (h.idlt q hq)
  have h0 := h.ids
  rw [List.map_append, List.nodup_append] at h0
  refine ⟨?_, ?_, h.closed, ?_, ?_, h.fresh, h.sound⟩
  · show ((p.peers ++ [newPeer p.nextId a st] ++ p.closing).map fun q => q.id).Nodup
    rw [List.append_assoc, List.map_append, List.nodup_append]
    refine ⟨h0.1, ?_, ?_⟩
    · show (p.nextId :: p.closing.map fun q => q.id).Nodup
      rw [List.nodup_cons]
      refine ⟨?_, h0.2.1⟩
      intro hc
      obtain ⟨x, hx, hxe⟩ := List.mem_map.1 hc
      exact hne x (List.mem_append_right _ hx) hxe
    · intro i hi j hj hij
      obtain ⟨x, hx, rfl⟩ := List.mem_map.1 hi
      rcases List.mem_cons.1 (show j ∈ p.nextId :: p.closing.map (fun q => q.id) from hj) with hj | hj
      · exact hne x (List.mem_append_left _ hx) (hij.trans hj)
      · exact h0.2.2 _ (List.mem_map_of_mem (f := fun q : Peer => q.id) hx) _ hj hij
  · intro q hq
    show q.id < p.nextId + 1
    rcases List.mem_append.1 hq with hq | hq
    · rcases List.mem_append.1 hq with hq | hq
      · exact Nat.lt_succ_of_lt (h.idlt q (List.mem_append_left _ hq))
      · rw [List.mem_singleton.1 hq]; exact Nat.lt_succ_self _
    · exact Nat.lt_succ_of_lt (h.idlt q (List.mem_append_right _ hq))
  · intro q hq
    rcases List.mem_append.1 hq with hq | hq
    · exact h.peer q hq
    · rw [List.mem_singleton.1 hq]
      exact ⟨List.nodup_nil, (fun x hx => by cases hx), List.nodup_nil⟩
  · intro b r
    refine (h.held b r).trans ?_
    cases b with
    | none => exact Iff.rfl
    | some i =>
      constructor
      · rintro ⟨q, hq, h1, h2⟩; exact ⟨q, List.mem_append_left _ hq, h1, h2⟩
      · rintro ⟨q, hq, h1, h2⟩
        rcases List.mem_append.1 hq with hq | hq
        · exact ⟨q, hq, h1, h2⟩
        · rw [List.mem_singleton.1 hq] at h2; cases h2

theorem inv_fail {e : Env} {p : Pool} (h : Inv e p) (a : Addr.Addr) :
    Inv e { p with nextId := p.nextId + 1, closing := newPeer p.nextId a .disconnecting :: p.closing } := by
  have hne : ∀ q ∈ p.peers ++ p.closing, q.id ≠ p.nextId := fun q hq => Nat.ne_of_lt (h.idlt q hq)
  have h0 := h.ids
  rw [List.map_append, List.nodup_append] at h0
  refine ⟨?_, ?_, ?_, h.peer, ?_, h.fresh, h.sound⟩
  · show ((p.peers ++ newPeer p.nextId a .disconnecting :: p.closing).map fun q => q.id).Nodup
    rw [List.map_append, List.nodup_append]
    refine ⟨h0.1, ?_, ?_⟩
    · show (p.nextId :: p.closing.map fun q => q.id).Nodup
      rw [List.nodup_cons]
      refine ⟨?_, h0.2.1⟩
      intro hc
      obtain ⟨x, hx, hxe⟩ := List.mem_map.1 hc
      exact hne x (List.mem_append_right _ hx) hxe
    · intro i hi j hj hij
      obtain ⟨x, hx, rfl⟩ := List.mem_map.1 hi
      rcases List.mem_cons.1 (show j ∈ p.nextId :: p.closing.map (fun q => q.id) from hj) with hj | hj
      · exact hne x (List.mem_append_left _ hx) (hij.trans hj)
      · exact h0.2.2 _ (List.mem_map_of_mem (f := fun q : Peer => q.id) hx) _ hj hij
  · intro q hq
    show q.id < p.nextId + 1
    rcases List.mem_append.1 hq with hq | hq
    · exact Nat.lt_succ_of_lt (h.idlt q (List.mem_append_left _ hq))
    · rcases List.mem_cons.1 hq with hq | hq
      · rw [hq]; exact Nat.lt_succ_self _
      · exact Nat.lt_succ_of_lt (h.idlt q (List.mem_append_right _ hq))
  · intro q hq
    rcases List.mem_cons.1 hq with hq | hq
    · rw [hq]; rfl
    · exact h.closed q hq
  · intro b r
    refine (h.held b r).trans ?_
    cases b <;> exact Iff.rfl

theorem inv_closed {e : Env} {p : Pool} (h : Inv e p) (id : Nat) : Inv e (onClosed p id) := by
  have hsub : (p.closing.filter fun q => q.id ≠ id).Sublist p.closing := List.filter_sublist
  refine ⟨?_, ?_, ?_, h.peer, ?_, h.fresh, h.sound⟩
  · exact List.Nodup.sublist (List.Sublist.map _ (hsub.append_left p.peers)) h.ids
  · exact fun q hq => h.idlt q ((hsub.append_left p.peers).subset hq)
  · exact fun q hq => h.closed q (hsub.subset hq)
  · intro b r
    refine (h.held b r).trans ?_
    cases b <;> exact Iff.rfl

/-! ### What an event other than a request leaves alone -/

/-- Observations that are not of hsk_pool_resolve. -/
def Quiet : Act → Prop
  | .asked _ _ => False
  | .unsynced _ => False
  | .returned _ _ => False
  | _ => True

/-- The time offset is what hsk_timedata_add can make it. -/
def TdOk (s : Timedata.State Addrman.Key) : Prop := 0 ≤ s.offset ∧ s.offset < 4200

/-- A header offered to the chain: when, and from which message. -/
def Fed (e : Env) (log : List Act) (op : Int × Header.Hdr) : Prop :=
  (∃ t, e.clock t ≤ op.1 ∧ op.1 < e.clock t + 4200) ∧
  ∃ id n l, Act.heard id (.headers n l) ∈ log ∧ n = l.length ∧ n ≤ 2000 ∧ vetted e.H none l = true ∧ op.2 ∈ l

def FedAll (e : Env) (b p : Pool) : Prop :=
  TdOk b.td → TdOk p.td ∧ ∃ ops, Chain.run e.P e.H b.chain ops = .ok p.chain ∧ ∀ op ∈ ops, Fed e p.log op

theorem fed_mono {e : Env} {l l' : List Act} {op : Int × Header.Hdr} (h : Fed e l op) : Fed e (l ++ l') op := by
  obtain ⟨h1, id, n, x, h2, h3⟩ := h
  exact ⟨h1, id, n, x, List.mem_append_left _ h2, h3⟩

theorem fedAll_ext {e : Env} {b p p' : Pool} (h : FedAll e b p) (hc : p'.chain = p.chain) (ht : p'.td = p.td)
    (hl : ∃ l, p'.log = p.log ++ l) : FedAll e b p' := by
  intro htd
  obtain ⟨h1, ops, h2, h3⟩ := h htd
  obtain ⟨l, hl⟩ := hl
  exact ⟨by rw [ht]; exact h1, ops, by rw [hc]; exact h2, fun op hop => by rw [hl]; exact fed_mono (h3 op hop)⟩

/-- From `b` to `p`: no request is taken up, and requests at most leave their peers; the chain
is fed from messages. -/
structure Since (e : Env) (b p : Pool) : Prop where
  ext : ∃ l, p.log = b.log ++ l ∧ ∀ a ∈ l, Quiet a
  pend : p.pending = b.pending
  sub : ∀ q ∈ p.peers, q.id < b.nextId → ∃ q0 ∈ b.peers, q0.id = q.id ∧ ∀ x ∈ q.names, x ∈ q0.names
  tick : b.tick ≤ p.tick
  id : b.nextId ≤ p.nextId
  fed : FedAll e b p

structure Good (e : Env) (b p : Pool) : Prop extends Inv e p where
  since : Since e b p

theorem good_refl {e : Env} {p : Pool} (h : Inv e p) : Good e p p :=
  ⟨h, ⟨[], by simp, by simp⟩, rfl, fun q hq _ => ⟨q, hq, rfl, fun _ hx => hx⟩, Nat.le_refl _, Nat.le_refl _,
    fun h => ⟨h, [], rfl, fun _ hop => by cases hop⟩⟩

theorem keep_core' {e : Env} {b p p' : Pool} (h : Good e b p) (h1 : p'.peers = p.peers) (h2 : p'.closing = p.closing)
    (h3 : p'.pending = p.pending) (h4 : p'.log = p.log) (h5 : p'.nextId = p.nextId) (h6 : p'.nextReq = p.nextReq)
    (h7 : p.tick ≤ p'.tick) (h8 : FedAll e b p') : Good e b p' :=
  ⟨inv_core h.toInv h1 h2 h3 h4 h5 h6, by rw [h4]; exact h.since.ext, by rw [h3]; exact h.since.pend, by rw [h1]; exact h.since.sub,
    Nat.le_trans h.since.tick h7, by rw [h5]; exact h.since.id, h8⟩

theorem keep_core {e : Env} {b p p' : Pool} (h : Good e b p) (h1 : p'.peers = p.peers) (h2 : p'.closing = p.closing)
    (h3 : p'.pending = p.pending) (h4 : p'.log = p.log) (h5 : p'.nextId = p.nextId) (h6 : p'.nextReq = p.nextReq)
    (h7 : p.tick ≤ p'.tick) (h8 : p'.chain = p.chain := by rfl) (h9 : p'.td = p.td := by rfl) : Good e b p' :=
  keep_core' h h1 h2 h3 h4 h5 h6 h7 (fedAll_ext h.since.fed h8 h9 ⟨[], by rw [h4, List.append_nil]⟩)

theorem keep_bump {e : Env} {b p : Pool} (h : Good e b p) : Good e b (bump p) := keep_core h rfl rfl rfl rfl rfl rfl (Nat.le_succ _)

theorem ext_snoc {e : Env} {b p : Pool} (h : Since e b p) {l : List Act} (hl : ∀ a ∈ l, Quiet a) : ∃ l', p.log ++ l = b.log ++ l' ∧ ∀ a ∈ l', Quiet a := by
  obtain ⟨l0, h1, h2⟩ := h.ext
  refine ⟨l0 ++ l, by rw [h1, List.append_assoc], fun a ha => ?_⟩
  rcases List.mem_append.1 ha with ha | ha
  · exact h2 a ha
  · exact hl a ha

theorem keep_note {e : Env} {b p : Pool} (h : Good e b p) {a : Act} (ha : Plain a) (hq : Quiet a) : Good e b (note p [a]) :=
  ⟨inv_note h.toInv ha, ext_snoc h.since (fun x hx => by rw [List.mem_singleton.1 hx]; exact hq), h.since.pend, h.since.sub, h.since.tick, h.since.id,
    fedAll_ext h.since.fed rfl rfl ⟨_, rfl⟩⟩

theorem sub_edit {e : Env} {b p : Pool} (h : Since e b p) {id : Nat} {f : Peer → Peer} (hf : ∀ q, (f q).id = q.id ∧ ∀ x ∈ (f q).names, x ∈ q.names) :
    ∀ q ∈ (edit p id f).peers, q.id < b.nextId → ∃ q0 ∈ b.peers, q0.id = q.id ∧ ∀ x ∈ q.names, x ∈ q0.names := by
  intro q hq hlt
  obtain ⟨q1, hq1, rfl⟩ := List.mem_map.1 hq
  have hid := editPeer_id (id := id) (fun q => (hf q).1) q1
  rw [hid] at hlt
  obtain ⟨q0, hq0, h1, h2⟩ := h.sub q1 hq1 hlt
  refine ⟨q0, hq0, h1.trans hid.symm, fun x hx => h2 x ?_⟩
  unfold editPeer at hx
  split at hx
  · exact (hf q1).2 x hx
  · exact hx

theorem keep_edit {e : Env} {b p : Pool} (h : Good e b p) {id : Nat} {f : Peer → Peer} (hf : Keeps f) : Good e b (edit p id f) :=
  ⟨inv_edit h.toInv hf, h.since.ext, h.since.pend, sub_edit h.since (fun q => ⟨(hf q).1, fun x hx => by rw [(hf q).2] at hx; exact hx⟩),
    h.since.tick, h.since.id, h.since.fed⟩

theorem keep_close {e : Env} {b p : Pool} (h : Good e b p) (id : Nat) : Good e b (close p id) := by
  refine ⟨inv_close h.toInv id, ?_⟩
  unfold close
  cases hf : p.peers.find? fun q => q.id = id with
  | none => exact h.since
  | some q =>
    refine ⟨ext_snoc h.since ?_, h.since.pend, ?_, h.since.tick, h.since.id, fedAll_ext h.since.fed rfl rfl ⟨_, rfl⟩⟩
    · intro a ha
      unfold timeouts at ha
      obtain ⟨r, _, rfl⟩ := List.mem_map.1 ha
      trivial
    · intro x hx hlt
      exact h.since.sub x (List.mem_filter.1 hx).1 hlt

theorem keep_names {e : Env} {b p : Pool} (h : Good e b p) {q : Peer} {f : Peer → Peer} {acts : List Act}
    (hi : Inv e (note (edit p q.id f) acts)) (hf : ∀ q, (f q).id = q.id ∧ ∀ x ∈ (f q).names, x ∈ q.names)
    (ha : ∀ a ∈ acts, Quiet a) : Good e b (note (edit p q.id f) acts) :=
  ⟨hi, ext_snoc h.since ha, h.since.pend, sub_edit h.since hf, h.since.tick, h.since.id, fedAll_ext h.since.fed rfl rfl ⟨_, rfl⟩⟩

theorem keep_push {e : Env} {b p : Pool} (h : Good e b p) (a : Addr.Addr) (st : St) :
    Good e b { p with nextId := p.nextId + 1, peers := p.peers ++ [newPeer p.nextId a st] } := by
  refine ⟨inv_push h.toInv a st, h.since.ext, h.since.pend, ?_, h.since.tick, Nat.le_succ_of_le h.since.id, h.since.fed⟩
  intro q hq hlt
  rcases List.mem_append.1 hq with hq | hq
  · exact h.since.sub q hq hlt
  · rw [List.mem_singleton.1 hq] at hlt
    exact absurd hlt (Nat.not_lt.2 h.since.id)

theorem keep_fail {e : Env} {b p : Pool} (h : Good e b p) (a : Addr.Addr) :
    Good e b { p with nextId := p.nextId + 1, closing := newPeer p.nextId a .disconnecting :: p.closing } :=
  ⟨inv_fail h.toInv a, h.since.ext, h.since.pend, h.since.sub, h.since.tick, Nat.le_succ_of_le h.since.id, h.since.fed⟩

theorem keep_closed {e : Env} {b p : Pool} (h : Good e b p) (id : Nat) : Good e b (onClosed p id) :=
  ⟨inv_closed h.toInv id, h.since.ext, h.since.pend, h.since.sub, h.since.tick, h.since.id, h.since.fed⟩

theorem keep_send {e : Env} {b p : Pool} (h : Good e b p) (id : Nat) (m : Msg) : Good e b (send e p id m).2 := by
  unfold send
  cases p.peers.find? fun q => q.id = id with
  | none => exact h
  | some q =>
    dsimp only
    split
    · split
      · refine keep_bump (keep_edit (keep_note h ?_ ?_) ?_)
        · trivial
        · trivial
        · exact fun q => ⟨rfl, rfl⟩
      · exact keep_bump h
      · exact keep_bump h
      · exact keep_close (keep_bump h) id
    · exact h

theorem keep_sendVersion {e : Env} {b p : Pool} (h : Good e b p) (id : Nat) : Good e b (sendVersion e p id).2 := by
  unfold sendVersion
  cases peer p id with
  | none => exact h
  | some q =>
    dsimp only
    refine keep_send (keep_bump (keep_edit h ?_)) _ _
    exact fun q => ⟨rfl, rfl⟩

theorem keep_sendGetheaders {e : Env} {b p : Pool} (h : Good e b p) (id : Nat) {x : Bool × Pool} (hx : sendGetheaders e p id = .ok x) : Good e b x.2 := by
  unfold sendGetheaders at hx
  obtain ⟨l, _, hx⟩ := Out.bind_eq_ok.1 hx
  cases Out.ok.inj hx
  refine keep_send (keep_bump (keep_edit h ?_)) _ _
  exact fun q => ⟨rfl, rfl⟩


theorem keep_file {e : Env} {p : Pool} (h : Inv e p) {q : Peer} (hq : q ∈ p.peers) {r : Req} {l : List Req}
    (hno : ∀ r' a, Act.asked r' a ∈ p.log → r'.no < r.no) (hlt : r.no < p.nextReq) (hh : r.hash = e.hashName r.name)
    (hg : (l = [] ∧ q.names.get r.hash = none) ∨ (q.names.get r.hash = some l ∧ l.head?.map (fun x => x.time) = some r.time)) :
    Inv e (file p q.id r l) := by
  have hp := h.peer q hq
  have hflat : List.Perm (reqsOf q) (l ++ (q.names.del r.hash).flatMap fun e => e.2) := by
    rcases hg with ⟨rfl, hg⟩ | ⟨hg, _⟩
    · rw [del_none hg]; exact List.Perm.refl _
    · exact flat_del hp.keys hg
  have hreqs : reqsOf { q with names := q.names.set r.hash (r :: l) } = r :: (l ++ (q.names.del r.hash).flatMap fun e => e.2) := rfl
  have hold : ∀ x ∈ reqsOf q, x.no < r.no := fun x hx => hno x _ (live_sub ((h.held (some q.id) x).2 ⟨q, hq, rfl, hx⟩))
  refine inv_names (f := fun q => { q with names := q.names.set r.hash (r :: l) }) h hq (fun x => rfl)
    ⟨AMap.nodup_set hp.keys _ _, ?_, ?_⟩ ?_ ?_ ?_
  · intro x hx
    rcases List.mem_cons.1 hx with rfl | hx
    · refine ⟨by simp, ?_⟩
      intro y hy
      rcases List.mem_cons.1 hy with rfl | hy
      · exact ⟨rfl, rfl⟩
      · rcases hg with ⟨rfl, _⟩ | ⟨hg, ht⟩
        · cases hy
        · have := (hp.ent _ (AMap.get_mem hg)).2 y hy
          refine ⟨this.1, ?_⟩
          show some r.time = some y.time
          rw [← ht]; exact this.2
    · exact hp.ent x (List.mem_filter.1 hx).1
  · rw [hreqs, List.map_cons, List.nodup_cons]
    have hperm := hflat.map fun r => r.no
    refine ⟨?_, hperm.nodup_iff.1 hp.uniq⟩
    intro hc
    obtain ⟨x, hx, hxe⟩ := List.mem_map.1 (hperm.mem_iff.2 hc)
    exact absurd hxe (Nat.ne_of_lt (hold x hx))
  · exact sound_snoc h.sound fun r' a hm => Nat.ne_of_lt (hno r' a hm)
  · intro a x
    rw [live_snoc]
    show (a, x) ∈ (some q.id, r) :: live p.log ↔ _
    rw [List.mem_cons, h.held, hreqs, List.mem_cons, ← hflat.mem_iff]
    by_cases ha : a = some q.id
    · rw [if_pos ha, ha]
      simp only [Prod.mk.injEq, true_and]
      constructor
      · rintro (h1 | ⟨y, hy, hyi, hyr⟩)
        · exact Or.inl h1
        · rw [h.peer_unique hy hq hyi] at hyr; exact Or.inr hyr
      · rintro (h1 | h1)
        · exact Or.inl h1
        · exact Or.inr ⟨q, hq, rfl, h1⟩
    · rw [if_neg ha]
      simp only [Prod.mk.injEq]
      constructor
      · rintro (⟨h1, _⟩ | h1)
        · exact absurd h1 ha
        · exact h1
      · exact Or.inr
  · intro r' a hm
    simp only [List.mem_singleton, Act.asked.injEq] at hm
    rw [hm.1]; exact ⟨hlt, hh⟩

theorem keep_hold {e : Env} {p : Pool} (h : Inv e p) {r : Req}
    (hno : ∀ r' a, Act.asked r' a ∈ p.log → r'.no < r.no) (hlt : r.no < p.nextReq) (hh : r.hash = e.hashName r.name) :
    Inv e (hold p r) := by
  have h1 : Inv e (note { p with pending := r :: p.pending } [.asked r none]) := by
    refine ⟨h.ids, h.idlt, h.closed, h.peer, ?_, ?_, sound_snoc h.sound fun r' a hm => Nat.ne_of_lt (hno r' a hm)⟩
    · intro a x
      show (a, x) ∈ live (p.log ++ [.asked r none]) ↔ _
      rw [live_snoc]
      show (a, x) ∈ (none, r) :: live p.log ↔ _
      rw [List.mem_cons, h.held]
      cases a with
      | none => simp [Held, note]
      | some i => simp [Held, note]
    · intro r' a hm
      rcases List.mem_append.1 hm with hm | hm
      · exact h.fresh r' a hm
      · simp only [List.mem_singleton, Act.asked.injEq] at hm
        rw [hm.1]; exact ⟨hlt, hh⟩
  have h2 := inv_note h1 (a := .returned r.arg true) trivial
  refine inv_core h2 rfl rfl rfl ?_ rfl rfl
  unfold hold note; simp

theorem best_mem : ∀ (l : List Peer) (f : Peer) (s : Option Peer),
    ((best l f s).1 = f ∨ (best l f s).1 ∈ l) ∧ ∀ x, (best l f s).2 = some x → x = f ∨ x ∈ l ∨ s = some x
  | [], f, s => ⟨Or.inl rfl, fun x hx => Or.inr (Or.inr hx)⟩
  | q :: l, f, s => by
    unfold best
    split
    · obtain ⟨h1, h2⟩ := best_mem l q (some f)
      refine ⟨?_, ?_⟩
      · rcases h1 with h1 | h1
        · rw [h1]; exact Or.inr (List.mem_cons_self ..)
        · exact Or.inr (List.mem_cons_of_mem _ h1)
      · intro x hx
        rcases h2 x hx with h2 | h2 | h2
        · rw [h2]; exact Or.inr (Or.inl (List.mem_cons_self ..))
        · exact Or.inr (Or.inl (List.mem_cons_of_mem _ h2))
        · exact Or.inl (Option.some.inj h2).symm
    · obtain ⟨h1, h2⟩ := best_mem l f s
      refine ⟨?_, ?_⟩
      · rcases h1 with h1 | h1
        · exact Or.inl h1
        · exact Or.inr (List.mem_cons_of_mem _ h1)
      · intro x hx
        rcases h2 x hx with h2 | h2 | h2
        · exact Or.inl h2
        · exact Or.inr (Or.inl (List.mem_cons_of_mem _ h2))
        · exact Or.inr (Or.inr h2)

theorem pick_mem {e : Env} {p : Pool} {hash : Bytes} {q : Peer} (h : pickProver e p hash = some q) : q ∈ p.peers := by
  unfold pickProver at h
  cases hp : p.peers with
  | nil => rw [hp] at h; cases h
  | cons q0 l =>
    rw [hp] at h
    dsimp only at h
    by_cases h0 : (ready p).length = 0
    · rw [if_pos h0] at h; cases h
    · rw [if_neg h0] at h
      have hr : ∀ x ∈ ready p, x ∈ q0 :: l := fun x hx => by rw [← hp]; exact (List.mem_filter.1 hx).1
      obtain ⟨b1, b2⟩ := best_mem (q0 :: l) q0 none
      unfold choose at h
      split at h
      · exact hr q (List.mem_of_getElem? h)
      · split at h
        · rcases b2 q h with b2 | b2 | b2
          · rw [b2]; exact List.mem_cons_self ..
          · exact b2
          · cases b2
        · split at h
          · cases Option.some.inj h
            rcases b1 with b1 | b1
            · rw [b1]; exact List.mem_cons_self ..
            · exact b1
          · exact hr q (List.mem_of_getElem? h)

theorem keep_assign {e : Env} {p p' : Pool} (h : Inv e p) {q : Peer} (hq : q ∈ p.peers) {r : Req}
    (hno : ∀ r' a, Act.asked r' a ∈ p.log → r'.no < r.no) (hlt : r.no < p.nextReq) (hh : r.hash = e.hashName r.name)
    (hx : assign e p q r = .ok p') : Inv e p' := by
  unfold assign at hx
  cases hg : q.names.get r.hash with
  | none =>
    rw [hg] at hx
    cases Out.ok.inj hx
    exact inv_note (keep_send (good_refl (keep_file h hq hno hlt hh (Or.inl ⟨rfl, hg⟩))) _ _).toInv trivial
  | some l =>
    rw [hg] at hx
    cases l with
    | nil => cases hx
    | cons x l =>
      cases Out.ok.inj hx
      exact inv_note (keep_file (r := { r with time := x.time }) h hq hno hlt hh (Or.inr ⟨hg, rfl⟩)) trivial

theorem keep_resolve {e : Env} {p p' : Pool} (h : Inv e p) {name : Bytes} {arg : Nat} (hx : resolve e p name arg = .ok p') : Inv e p' := by
  unfold resolve at hx
  by_cases hs : p.chain.synced = false
  · rw [if_pos hs] at hx
    cases Out.ok.inj hx
    exact inv_note h trivial
  · rw [if_neg hs] at hx
    by_cases hl : name.length ≥ 256
    · rw [if_pos hl] at hx; cases hx
    · rw [if_neg hl] at hx
      obtain ⟨root, _, hx⟩ := Out.bind_eq_ok.1 hx
      dsimp only at hx
      have h1 : Inv e (bump { p with nextReq := p.nextReq + 1 }) := by
        refine ⟨h.ids, h.idlt, h.closed, h.peer, ?_, ?_, h.sound⟩
        · intro a r
          refine (h.held a r).trans ?_
          cases a <;> exact Iff.rfl
        · intro r a hm
          have := h.fresh r a hm
          exact ⟨Nat.lt_succ_of_lt this.1, this.2⟩
      cases hp : pickProver e p (e.hashName name) with
      | none =>
        rw [hp] at hx
        cases Out.ok.inj hx
        exact keep_hold h1 (fun r' a hm => (h.fresh r' a hm).1) (Nat.lt_succ_self _) rfl
      | some q =>
        rw [hp] at hx
        have hm := pick_mem hp
        exact keep_assign h1 hm (fun r' a hm => (h.fresh r' a hm).1) (Nat.lt_succ_self _) rfl hx

/-! ### Messages -/

theorem peer_some {p : Pool} {id : Nat} {q : Peer} (h : peer p id = some q) : q ∈ p.peers ++ p.closing ∧ q.id = id := find_some h

theorem tdOk_add {s s' : Timedata.State Addrman.Key} (h : TdOk s) {now : Int} {k : Addrman.Key} {t : Int}
    (hx : Timedata.add s now k t = .ok s') : TdOk s' := by
  unfold Timedata.add at hx
  split at hx
  · cases Out.ok.inj hx; exact h
  split at hx
  · cases Out.ok.inj hx; exact h
  obtain ⟨sample, _, hx⟩ := Out.bind_eq_ok.1 hx
  obtain ⟨l, _, hx⟩ := Out.bind_eq_ok.1 hx
  unfold Timedata.update at hx
  split at hx
  · split at hx
    · cases hx
    · obtain ⟨m, hm, hx⟩ := Out.bind_eq_ok.1 hx
      have hm0 : 0 ≤ m := by
        unfold Timedata.absI64 Timedata.i64 at hm
        split at hm
        · split at hm
          · cases Out.ok.inj hm; omega
          · cases hm
        · cases Out.ok.inj hm; omega
      unfold Timedata.judge at hx
      split at hx
      · split at hx
        · cases Out.ok.inj hx; exact ⟨Int.le_refl _, (by decide : (0 : Int) < 4200)⟩
        · obtain ⟨_, _, hx⟩ := Out.bind_eq_ok.1 hx
          cases Out.ok.inj hx; exact ⟨Int.le_refl _, (by decide : (0 : Int) < 4200)⟩
      · cases Out.ok.inj hx
        exact ⟨hm0, by show m < 4200; omega⟩
  · cases Out.ok.inj hx; exact h

theorem keep_version {e : Env} {b p : Pool} (h : Good e b p) {q : Peer} {v : Msg.Version} {x : Bool × Pool}
    (hx : handleVersion e p q v = .ok x) : Good e b x.2 := by
  unfold handleVersion at hx
  by_cases hl : v.agent.length ≥ 255
  · rw [if_pos hl] at hx; cases hx
  · rw [if_neg hl] at hx
    obtain ⟨td, htd, hx⟩ := Out.bind_eq_ok.1 hx
    obtain ⟨am, _, hx⟩ := Out.bind_eq_ok.1 hx
    dsimp only at hx
    have h1 : Good e b (bump (bump { edit p q.id (fun q => { q with height := v.height }) with td := td, am := am.1 })) := by
      refine keep_bump (keep_bump (keep_core' (p := edit p q.id (fun q => { q with height := v.height })) (keep_edit h ?_) rfl rfl rfl rfl rfl rfl (Nat.le_refl _) ?_))
      · exact fun q => ⟨rfl, rfl⟩
      · intro hb
        obtain ⟨f1, f2⟩ := h.since.fed hb
        exact ⟨tdOk_add f1 htd, f2⟩
    have h2 := keep_send h1 q.id .verack
    have h3 := keep_send h2 q.id .sendheaders
    split at hx
    · cases Out.ok.inj hx; exact h3
    · have h4 := keep_send h3 q.id .getaddr
      split at hx
      · cases Out.ok.inj hx; exact h4
      · exact keep_sendGetheaders h4 _ hx

theorem keep_pong {e : Env} {b p : Pool} (h : Good e b p) (q : Peer) (n : Nat) : Good e b (handlePong e p q n) := by
  unfold handlePong
  split
  · exact h
  · split
    · split
      · exact keep_edit h fun q => ⟨rfl, rfl⟩
      · exact h
    · refine keep_bump (keep_edit h ?_)
      intro q; unfold pong; split <;> exact ⟨rfl, rfl⟩

theorem keep_addr {e : Env} {b p : Pool} (h : Good e b p) {l : List Addr.Netaddr} {x : Bool × Pool} (hx : handleAddr e p l = .ok x) : Good e b x.2 := by
  unfold handleAddr at hx
  split at hx
  · cases Out.ok.inj hx; exact h
  · obtain ⟨am, _, hx⟩ := Out.bind_eq_ok.1 hx
    cases Out.ok.inj hx
    exact keep_core h rfl rfl rfl rfl rfl rfl (show p.tick ≤ p.tick + 1 + l.length by omega)

theorem addAll_tick {e : Env} {td : Timedata.State Addrman.Key} : ∀ (l : List Header.Hdr) {o : Bool} {n t : Nat} {c : Chain.State}
    {x : Added × Chain.State × Nat × Nat}, addAll e td l o n t c = .ok x → t ≤ x.2.2.2
  | [], o, n, t, c, x, h => by cases Out.ok.inj h; exact Nat.le_refl _
  | hd :: l, o, n, t, c, x, h => by
    unfold addAll at h
    obtain ⟨y, _, h⟩ := Out.bind_eq_ok.1 h
    split at h <;> first
      | (cases Out.ok.inj h; exact Nat.le_succ _)
      | exact Nat.le_trans (Nat.le_succ t) (addAll_tick l h)

/-- Offering a batch is a run of the chain. -/
theorem addAll_run {e : Env} {td : Timedata.State Addrman.Key} (htd : TdOk td) : ∀ (l : List Header.Hdr) {o : Bool} {n t : Nat} {c : Chain.State}
    {x : Added × Chain.State × Nat × Nat}, addAll e td l o n t c = .ok x →
    ∃ ops, Chain.run e.P e.H c ops = .ok x.2.1 ∧ ∀ op ∈ ops, (∃ t, e.clock t ≤ op.1 ∧ op.1 < e.clock t + 4200) ∧ op.2 ∈ l
  | [], o, n, t, c, x, h => by cases Out.ok.inj h; exact ⟨[], rfl, fun op hop => by cases hop⟩
  | hd :: l, o, n, t, c, x, h => by
    unfold addAll at h
    obtain ⟨y, hy, h⟩ := Out.bind_eq_ok.1 h
    have hin : ∃ t', e.clock t' ≤ Timedata.adjusted td (e.clock t) ∧ Timedata.adjusted td (e.clock t) < e.clock t' + 4200 := by
      refine ⟨t, ?_⟩
      unfold Timedata.adjusted
      have := htd.1; have := htd.2
      omega
    have one : ∀ ops c', Chain.run e.P e.H y.2 ops = .ok c' → Chain.run e.P e.H c ((Timedata.adjusted td (e.clock t), hd) :: ops) = .ok c' := by
      intro ops c' hr
      unfold Chain.run
      rw [hy]; exact hr
    have stop : ∀ x : Added × Chain.State × Nat × Nat, x.2.1 = y.2 →
        ∃ ops, Chain.run e.P e.H c ops = .ok x.2.1 ∧ ∀ op ∈ ops, (∃ t, e.clock t ≤ op.1 ∧ op.1 < e.clock t + 4200) ∧ op.2 ∈ hd :: l := by
      intro x hx
      refine ⟨[(Timedata.adjusted td (e.clock t), hd)], one [] _ (by rw [hx]; rfl), fun op hop => ?_⟩
      rw [List.mem_singleton.1 hop]
      exact ⟨hin, List.mem_cons_self ..⟩
    have go : ∀ {o n}, addAll e td l o n (t + 1) y.2 = .ok x →
        ∃ ops, Chain.run e.P e.H c ops = .ok x.2.1 ∧ ∀ op ∈ ops, (∃ t, e.clock t ≤ op.1 ∧ op.1 < e.clock t + 4200) ∧ op.2 ∈ hd :: l := by
      intro o n h
      obtain ⟨ops, h1, h2⟩ := addAll_run htd l h
      refine ⟨_ :: ops, one ops _ h1, fun op hop => ?_⟩
      rcases List.mem_cons.1 hop with rfl | hop
      · exact ⟨hin, List.mem_cons_self ..⟩
      · exact ⟨(h2 op hop).1, List.mem_cons_of_mem _ (h2 op hop).2⟩
    split at h <;> first
      | (cases Out.ok.inj h; exact stop _ rfl)
      | exact go h

theorem run_append {P : Chain.Params} {H : Header.Hdr → Bytes} : ∀ (a : List (Int × Header.Hdr)) {b : List (Int × Header.Hdr)} {s s1 s2 : Chain.State},
    Chain.run P H s a = .ok s1 → Chain.run P H s1 b = .ok s2 → Chain.run P H s (a ++ b) = .ok s2
  | [], b, s, s1, s2, h1, h2 => by cases Out.ok.inj h1; exact h2
  | (now, h) :: a, b, s, s1, s2, h1, h2 => by
    obtain ⟨y, hy, h1⟩ := Out.bind_eq_ok.1 h1
    show (Chain.add P H s now h).bind _ = _
    rw [hy]
    exact run_append a h1 h2

theorem keep_headers {e : Env} {b p : Pool} (h : Good e b p) {q : Peer} {n : Nat} {l : List Header.Hdr} {x : Bool × Pool}
    (hm : Act.heard q.id (.headers n l) ∈ p.log) (hn : n = l.length) (hx : handleHeaders e p q n l = .ok x) : Good e b x.2 := by
  unfold handleHeaders at hx
  split at hx
  · cases Out.ok.inj hx; exact h
  split at hx
  · cases Out.ok.inj hx; exact h
  rename_i hn0 hn1
  split at hx
  · cases Out.ok.inj hx; exact h
  rename_i hv
  obtain ⟨y, hy0, hx⟩ := Out.bind_eq_ok.1 hx
  have h1 : Good e b { edit p q.id (fun q => { q with headers := q.headers + y.2.2.1 }) with chain := y.2.1, tick := y.2.2.2 } := by
    refine keep_core' (p := edit p q.id (fun q => { q with headers := q.headers + y.2.2.1 })) (keep_edit h ?_) rfl rfl rfl rfl rfl rfl (addAll_tick l hy0) ?_
    · exact fun q => ⟨rfl, rfl⟩
    · intro hb
      obtain ⟨f1, ops, f2, f3⟩ := h.since.fed hb
      obtain ⟨ops', g1, g2⟩ := addAll_run f1 l hy0
      refine ⟨f1, ops ++ ops', run_append ops f2 g1, fun op hop => ?_⟩
      rcases List.mem_append.1 hop with hop | hop
      · exact f3 op hop
      · exact ⟨(g2 op hop).1, q.id, n, l, hm, hn, by omega, by simpa using hv, (g2 op hop).2⟩
  generalize hp1 : ({ edit p q.id (fun q => { q with headers := q.headers + y.2.2.1 }) with chain := y.2.1, tick := y.2.2.2 } : Pool) = p1 at hx h1
  unfold afterHeaders at hx
  cases hy : y.1 with
  | ban =>
    rw [hy] at hx; cases Out.ok.inj hx
    refine keep_close (keep_bump (keep_core h1 ?_ ?_ ?_ ?_ ?_ ?_ ?_)) _ <;> first | rfl | exact Nat.le_refl _
  | drop => rw [hy] at hx; cases Out.ok.inj hx; exact keep_close h1 _
  | fail => rw [hy] at hx; cases Out.ok.inj hx; exact h1
  | all o =>
    rw [hy] at hx
    cases o with
    | true =>
      obtain ⟨z, hz, hx⟩ := Out.bind_eq_ok.1 hx
      cases Out.ok.inj hx
      show Good e b z.2
      exact keep_sendGetheaders h1 _ hz
    | false =>
      dsimp only at hx
      have h2 : Good e b (bump (edit { p1 with blockTime := e.clock p1.tick } q.id fun q => { q with getheadersTime := 0 })) := by
        refine keep_bump (keep_edit (keep_core h1 ?_ ?_ ?_ ?_ ?_ ?_ ?_) ?_) <;> first | rfl | exact Nat.le_refl _ | exact fun q => ⟨rfl, rfl⟩
      split at hx
      · exact keep_sendGetheaders h2 _ hx
      · cases Out.ok.inj hx; exact h2

/-- A proof, noted last in the record. -/
theorem keep_proof {e : Env} {b p p0 : Pool} {q : Peer} {root key : Bytes} {pf : Proof.Proof} (hp : p = note p0 [.heard q.id (.proof root key pf)])
    (h : Good e b p) (hq : q ∈ p.peers ++ p.closing) {x : Bool × Pool} (hx : handleProof e p q root key pf = .ok x) : Good e b x.2 := by
  unfold handleProof at hx
  cases hg : q.names.get key with
  | none => rw [hg] at hx; cases Out.ok.inj hx; exact h
  | some l =>
    rw [hg] at hx
    cases l with
    | nil => cases hx
    | cons r0 l =>
      dsimp only at hx
      by_cases hr : root ≠ r0.root
      · rw [if_pos hr] at hx; cases Out.ok.inj hx; exact h
      rw [if_neg hr] at hx
      have hroot : root = r0.root := Classical.not_not.1 hr
      cases hv : Proof.verify e.hashProof root key pf with
      | ub => rw [hv] at hx; cases hx
      | err _ => rw [hv] at hx; cases Out.ok.inj hx; exact h
      | ok a =>
        rw [hv] at hx
        cases Out.ok.inj hx
        have hq' : q ∈ p.peers := by
          rcases List.mem_append.1 hq with hq | hq
          · exact hq
          · rw [h.closed q hq] at hg; cases hg
        have hpi := h.peer q hq'
        have hent := hpi.ent _ (AMap.get_mem hg)
        have hmem : ∀ r ∈ r0 :: l, r ∈ reqsOf q := fun r hr => List.mem_flatMap.2 ⟨_, AMap.get_mem hg, hr⟩
        have hlive : ∀ r ∈ r0 :: l, (some q.id, r) ∈ live p.log := fun r hr => (h.held _ _).2 ⟨q, hq', rfl, hmem r hr⟩
        have hflat := flat_del hpi.keys hg
        have hnod : (((r0 :: l) ++ (q.names.del key).flatMap fun e => e.2).map fun r => r.no).Nodup :=
          (hflat.map fun r => r.no).nodup_iff.1 hpi.uniq
        rw [List.map_append, List.nodup_append] at hnod
        have hlog : p.log = p0.log ++ [.heard q.id (.proof root key pf)] := by rw [hp]; rfl
        have hlive0 : live p.log = live p0.log := by rw [hlog]; exact live_plain trivial
        obtain ⟨s1, s2⟩ := calls_append h.sound (some a) (r0 :: l) (fun r hr => ⟨_, hlive r hr⟩) hnod.1 (by
          intro b hb r hr cs hcs
          cases hb
          have hrk := (hent.2 r hr).1
          have h0k := (hent.2 r0 (List.mem_cons_self ..)).1
          have hrk' : r.hash = key := hrk
          refine ⟨p0.log, cs, q.id, pf, r0, ?_, hcs, ?_, ?_, h0k.trans hrk.symm, ?_⟩
          · rw [hlog, hrk', ← hroot, List.append_assoc]; rfl
          · rw [← hlive0]; exact hlive r hr
          · rw [← hlive0]; exact hlive r0 (List.mem_cons_self ..)
          · rw [hrk', ← hroot]; exact hv)
        refine keep_names (q := q) h (inv_names (f := fun q => { q with names := q.names.del key, proofs := q.proofs + 1 }) h.toInv hq'
          (fun x => rfl) ⟨AMap.nodup_del hpi.keys _, ?_, ?_⟩ s1 ?_ ?_)
          (fun x => ⟨rfl, fun y hy => (List.mem_filter.1 hy).1⟩) (fun c hc => by obtain ⟨y, _, rfl⟩ := List.mem_map.1 hc; trivial)
        · intro y hy; exact hpi.ent y (List.mem_filter.1 hy).1
        · exact hnod.2.1
        · intro b r
          rw [s2, h.held]
          by_cases hb : b = some q.id
          · rw [if_pos hb, hb]
            show _ ↔ r ∈ (q.names.del key).flatMap fun e => e.2
            constructor
            · rintro ⟨⟨y, hy, hyi, hyr⟩, hno⟩
              rw [h.peer_unique hy hq' hyi] at hyr
              rcases List.mem_append.1 (hflat.mem_iff.1 hyr) with h1 | h1
              · exact absurd rfl (hno r h1)
              · exact h1
            · intro hr
              refine ⟨⟨q, hq', rfl, hflat.mem_iff.2 (List.mem_append_right _ hr)⟩, ?_⟩
              intro r' hr' hc
              exact hnod.2.2 _ (List.mem_map_of_mem (f := fun r : Req => r.no) hr') _
                (List.mem_map_of_mem (f := fun r : Req => r.no) hr) hc.symm
          · rw [if_neg hb]
            constructor
            · exact fun hx => hx.1
            · intro hx
              refine ⟨hx, fun r' hr' hc => ?_⟩
              have := live_inj h.sound ((h.held b r).2 hx) (hlive r' hr') hc
              simp only [Prod.mk.injEq] at this
              exact hb this.1
        · intro r b hm
          obtain ⟨y, _, hy⟩ := List.mem_map.1 hm
          cases hy

theorem keep_msg {e : Env} {b p : Pool} (h : Good e b p) {id : Nat} {m : Msg} {x : Bool × Pool}
    (hm : Spec.Msg.Fits m) (hx : handleMsg e id p m = .ok x) : Good e b x.2 := by
  unfold handleMsg at hx
  cases hq : peer p id with
  | none => rw [hq] at hx; cases hx
  | some q =>
    rw [hq] at hx
    dsimp only at hx
    obtain ⟨hqm, rfl⟩ := peer_some hq
    have h1 : Good e b (note p [.heard q.id m]) := keep_note h trivial trivial
    cases m with
    | version v => exact keep_version h1 hx
    | verack =>
      cases Out.ok.inj hx
      exact keep_edit h1 fun q => ⟨rfl, rfl⟩
    | ping n => cases Out.ok.inj hx; exact keep_send h1 _ _
    | pong n => cases Out.ok.inj hx; exact keep_pong h1 _ _
    | addr l => exact keep_addr h1 hx
    | headers n l => exact keep_headers h1 (List.mem_append_right _ (List.mem_singleton.2 rfl)) hm.1 hx
    | proof root key pf => exact keep_proof rfl h1 hqm hx
    | getaddr => cases Out.ok.inj hx; exact h1
    | getheaders _ _ => cases Out.ok.inj hx; exact h1
    | sendheaders => cases Out.ok.inj hx; exact h1
    | getproof _ _ => cases Out.ok.inj hx; exact h1

end Verif.Pool

namespace Verif.Framing
open Verif.Msg (Msg)

/-- What every handled message keeps, a read keeps. -/
theorem loop_keeps {σ : Type} {magic : Nat} {handle : σ → Msg → Out Unit (Bool × σ)} {I : σ → Prop}
    (hh : ∀ s m x, Spec.Msg.Fits m → I s → handle s m = .ok x → I x.2) (n : Nat) :
    ∀ (data : Bytes) (f : Frame) (s : σ), I s → ∀ x, loop magic handle n data f s = .ok x → I x.2.2 := by
  induction n with
  | zero => intro data f s _ x h; cases h
  | succ n ih =>
    intro data f s hs x h
    unfold loop at h
    split at h
    · split at h
      · cases h
      · obtain ⟨y, hy, h⟩ := Out.bind_eq_ok.1 h
        have hy2 : I y.2.2 := by
          unfold parse at hy
          split at hy
          · obtain ⟨z, hz, hy⟩ := Out.bind_eq_ok.1 hy
            cases Out.ok.inj hy
            unfold body at hz
            split at hz
            · split at hz
              · rename_i m hm
                obtain ⟨w, hw, hm⟩ := Out.bind_eq_ok.1 hm
                cases Out.ok.inj hm
                exact hh _ _ _ (Props.Msg.C47_read_fits _ _ _ _ hw).2.1 hs hz
              · cases Out.ok.inj hz; exact hs
              · cases hz
            · cases Out.ok.inj hz; exact hs
          · split at hy
            · cases Out.ok.inj hy; exact hs
            · cases Out.ok.inj hy; exact hs
            · cases hy
        split at h
        · exact ih _ _ _ hy2 x h
        · cases Out.ok.inj h; exact hy2
    · cases Out.ok.inj h; exact hs

end Verif.Framing

namespace Verif.Pool
open Verif.Spec.Pool

theorem keep_read {e : Env} {b p p' : Pool} (h : Good e b p) {id : Nat} {data : Bytes} (hx : onRead e p id data = .ok p') : Good e b p' := by
  unfold onRead at hx
  cases hf : p.peers.find? fun q => q.id = id with
  | none => rw [hf] at hx; cases Out.ok.inj hx; exact h
  | some q =>
    rw [hf] at hx
    dsimp only at hx
    split at hx
    · obtain ⟨y, hy, hx⟩ := Out.bind_eq_ok.1 hx
      cases Out.ok.inj hx
      have h1 : Good e b (bump (edit p id fun q => { q with lastRecv := e.clock p.tick })) := by
        refine keep_bump (keep_edit h ?_)
        exact fun q => ⟨rfl, rfl⟩
      have h2 : Good e b y.2.2 := Framing.loop_keeps (I := Good e b) (fun s m x hf hs hx => keep_msg hs hf hx) _ _ _ _ h1 y hy
      have h3 : Good e b (edit y.2.2 id fun q => { q with frame := y.2.1 }) := keep_edit h2 fun q => ⟨rfl, rfl⟩
      unfold finishRead; dsimp only
      split
      · exact h3
      · exact keep_close h3 id
    · cases Out.ok.inj hx; exact h

/-! ### Connections and the timer -/

theorem keep_refill {e : Env} {b p p' : Pool} (h : Good e b p) (hx : refill e p = .ok p') : Good e b p' := by
  unfold refill at hx
  split at hx
  · dsimp only at hx
    split at hx
    · cases Out.ok.inj hx; exact keep_bump (keep_core h rfl rfl rfl rfl rfl rfl (Nat.le_refl _))
    · generalize hx2 : (bump { p with am := _ } : Pool) = p1 at hx
      have h1 : Good e b p1 := by rw [← hx2]; exact keep_bump (keep_core h rfl rfl rfl rfl rfl rfl (Nat.le_refl _))
      unfold open_ at hx
      split at hx
      · obtain ⟨y, _, hx⟩ := Out.bind_eq_ok.1 hx
        cases Out.ok.inj hx; exact keep_core h1 rfl rfl rfl rfl rfl rfl (Nat.le_refl _)
      · obtain ⟨y, _, hx⟩ := Out.bind_eq_ok.1 hx
        dsimp only at hx
        split at hx
        · split at hx
          · cases hx
          · cases Out.ok.inj hx
            exact keep_core (keep_push h1 _ _) rfl rfl rfl rfl rfl rfl (Nat.le_succ _)
        · cases Out.ok.inj hx
          exact keep_core (keep_fail h1 _) rfl rfl rfl rfl rfl rfl (Nat.le_succ _)
  · cases Out.ok.inj hx; exact h

theorem keep_connect {e : Env} {b p : Pool} (h : Good e b p) (id : Nat) (ok readOk : Bool) : Good e b (onConnect e p id ok readOk) := by
  unfold onConnect
  cases hf : p.peers.find? fun q => q.id = id with
  | none => exact h
  | some q =>
    dsimp only
    split
    · split
      · have h1 : Good e b (bump (edit p id fun q => { q with st := if q.secure then .reading else .handshake, connTime := e.clock p.tick })) := by
          refine keep_bump (keep_edit h ?_)
          exact fun q => ⟨rfl, rfl⟩
        split
        · exact h1
        · exact keep_sendVersion h1 id
      · exact keep_close h id
    · exact h

theorem keep_secure {e : Env} {b p p' : Pool} (h : Good e b p) {id : Nat} (hx : onSecure e p id = .ok p') : Good e b p' := by
  unfold onSecure at hx
  cases hf : p.peers.find? fun q => q.id = id with
  | none => rw [hf] at hx; cases Out.ok.inj hx; exact h
  | some q =>
    rw [hf] at hx
    dsimp only at hx
    split at hx
    · obtain ⟨y, _, hx⟩ := Out.bind_eq_ok.1 hx
      cases Out.ok.inj hx
      refine keep_sendVersion (keep_bump (keep_edit (keep_core h ?_ ?_ ?_ ?_ ?_ ?_ ?_) ?_)) id <;>
        first | rfl | exact Nat.le_refl _ | exact fun q => ⟨rfl, rfl⟩
    · cases Out.ok.inj hx; exact h

theorem keep_ping {e : Env} {b p : Pool} (h : Good e b p) (now : Int) (q : Peer) : Good e b (ping e now p q) := by
  unfold ping
  split
  · split
    · exact keep_edit h fun q => ⟨rfl, rfl⟩
    · dsimp only
      refine keep_send (keep_bump (keep_edit h ?_)) _ _
      exact fun q => ⟨rfl, rfl⟩
  · exact h

theorem keep_judge {e : Env} {b p p' : Pool} (h : Good e b p) {now : Int} {id : Nat} (hx : judge e now p id = .ok p') : Good e b p' := by
  unfold judge at hx
  cases hf : p.peers.find? fun q => q.id = id with
  | none => rw [hf] at hx; cases Out.ok.inj hx; exact h
  | some q =>
    rw [hf] at hx
    dsimp only at hx
    split at hx
    · cases Out.ok.inj hx; exact keep_close h id
    · obtain ⟨b, _, hx⟩ := Out.bind_eq_ok.1 hx
      cases Out.ok.inj hx
      split
      · exact keep_close (keep_bump h) id
      · exact keep_bump h

theorem keep_tend {e : Env} {b p p' : Pool} (h : Good e b p) {now : Int} {id : Nat} (hx : tend e now p id = .ok p') : Good e b p' := by
  unfold tend at hx
  cases hf : p.peers.find? fun q => q.id = id with
  | none => rw [hf] at hx; cases Out.ok.inj hx; exact h
  | some q =>
    rw [hf] at hx
    dsimp only at hx
    split at hx
    · split at hx
      · cases Out.ok.inj hx; exact keep_close h id
      · exact keep_judge (keep_ping h now q) hx
    · cases Out.ok.inj hx; exact h

theorem keep_tendAll {e : Env} {now : Int} : ∀ (l : List Nat) {p p' : Pool}, Good e b p → tendAll e now l p = .ok p' → Good e b p'
  | [], p, p', h, hx => by cases Out.ok.inj hx; exact h
  | id :: l, p, p', h, hx => by
    obtain ⟨p1, h1, hx⟩ := Out.bind_eq_ok.1 hx
    exact keep_tendAll l (keep_tend h h1) hx

theorem keep_getheadersAll {e : Env} : ∀ (l : List Nat) {p p' : Pool}, Good e b p → getheadersAll e l p = .ok p' → Good e b p'
  | [], p, p', h, hx => by cases Out.ok.inj hx; exact h
  | id :: l, p, p', h, hx => by
    unfold getheadersAll at hx
    cases hf : p.peers.find? fun q => q.id = id with
    | none => rw [hf] at hx; exact keep_getheadersAll l h hx
    | some q =>
      rw [hf] at hx
      dsimp only at hx
      split at hx
      · obtain ⟨y, hy, hx⟩ := Out.bind_eq_ok.1 hx
        have h1 := keep_sendGetheaders h id hy
        split at hx
        · cases Out.ok.inj hx; exact h1
        · exact keep_getheadersAll l h1 hx
      · exact keep_getheadersAll l h hx

theorem keep_askAgain {e : Env} {b p p' : Pool} (h : Good e b p) {now : Int} (hx : askAgain e now p = .ok p') : Good e b p' := by
  unfold askAgain at hx
  split at hx
  · obtain ⟨y, hy, hx⟩ := Out.bind_eq_ok.1 hx
    cases Out.ok.inj hx
    exact keep_bump (keep_core (keep_getheadersAll _ h hy) rfl rfl rfl rfl rfl rfl (Nat.le_refl _))
  · cases Out.ok.inj hx; exact h

theorem keep_timer {e : Env} {b p p' : Pool} (h : Good e b p) (hx : timer e p = .ok p') : Good e b p' := by
  unfold timer at hx
  obtain ⟨p1, h1, hx⟩ := Out.bind_eq_ok.1 hx
  obtain ⟨p2, h2, hx⟩ := Out.bind_eq_ok.1 hx
  exact keep_refill (keep_askAgain (keep_tendAll _ (keep_bump h) h1) h2) hx

theorem keep_event {e : Env} {b p p' : Pool} (h : Good e b p) {ev : Ev} (hx : step e p ev = .ok p')
    (hr : ∀ name arg, ev ≠ .resolve name arg) : Good e b p' := by
  cases ev with
  | resolve name arg => exact absurd rfl (hr name arg)
  | connect id a b => cases Out.ok.inj hx; exact keep_connect h id a b
  | secure id => exact keep_secure h hx
  | data id d => exact keep_read h hx
  | lost id => cases Out.ok.inj hx; exact keep_close h id
  | closed id => cases Out.ok.inj hx; exact keep_closed h id
  | timer => exact keep_timer h hx

theorem keep_step {e : Env} {p p' : Pool} (h : Inv e p) {ev : Ev} (hx : step e p ev = .ok p') : Inv e p' := by
  by_cases hr : ∃ name arg, ev = .resolve name arg
  · obtain ⟨name, arg, rfl⟩ := hr
    exact keep_resolve h hx
  · exact (keep_event (good_refl h) hx fun name arg hc => hr ⟨name, arg, hc⟩).toInv

theorem keep_run {e : Env} : ∀ (l : List Ev) {p p' : Pool}, Inv e p → run e p l = .ok p' → Inv e p'
  | [], p, p', h, hx => by cases Out.ok.inj hx; exact h
  | ev :: l, p, p', h, hx => by
    obtain ⟨p1, h1, hx⟩ := Out.bind_eq_ok.1 hx
    exact keep_run l (keep_step h h1) hx

end Verif.Pool
