import Verif.Lemmas.NsSign
/-
What the server says about itself.
-/
namespace Verif.Ns
open Verif.Bio Verif.DnsName Verif.Dns Verif.Label Verif.Req Verif.Resource Verif.Hesiod
open Verif.Spec.DnsName Verif.Spec.Dns Verif.Spec.Req Verif.Spec.Resource Verif.Spec.Ns

theorem hex_eq (b : Bytes) : Hesiod.hex b = b.flatMap hexByte := by
  unfold Hesiod.hex
  have : ∀ i : Fin 16, hexDigit i.val = (str "0123456789abcdef").getD i.val 0 := by decide
  have key : ∀ n, n < 16 → hexDigit n = (str "0123456789abcdef").getD n 0 := fun n h => this ⟨n, h⟩
  congr 1
  funext c
  have := c.toNat_lt
  unfold hexByte
  rw [key _ (by omega), key _ (by omega)]

theorem hex_length (b : Bytes) : (b.flatMap hexByte).length = 2 * b.length := by
  induction b with
  | nil => rfl
  | cons c b ih => rw [List.flatMap_cons, List.length_append, ih]; simp [hexByte]; omega

/-- Digits are ordinary characters. -/
theorem digits_char {n : Nat} {c : UInt8} (h : c ∈ digits n) : 48 ≤ c.toNat ∧ c.toNat ≤ 57 := by
  unfold digits at h
  obtain ⟨d, hd, rfl⟩ := List.mem_map.1 h
  have := Nat.isDigit_of_mem_toDigits (by decide) (by decide) hd
  simp only [Char.isDigit, Bool.and_eq_true, decide_eq_true_eq] at this
  obtain ⟨h1, h2⟩ := this
  have h1 : (48 : UInt32) ≤ d.val := h1
  have h2 : d.val ≤ (57 : UInt32) := h2
  have e1 : 48 ≤ d.toNat := by have := UInt32.le_iff_toNat_le.1 h1; simpa using this
  have e2 : d.toNat ≤ 57 := by have := UInt32.le_iff_toNat_le.1 h2; simpa using this
  simp only [UInt8.toNat_ofNat']
  omega

theorem digits_length {n k : Nat} (hk : 0 < k) (h : n < 10 ^ k) : 1 ≤ (digits n).length ∧ (digits n).length ≤ k := by
  unfold digits
  rw [List.length_map]
  refine ⟨List.length_pos_iff.2 ?_, (Nat.length_toDigits_le_iff (by decide) hk).2 h⟩
  exact Nat.toDigits_ne_nil

/-- A label and name of ordinary characters. -/
def Plain (l : Bytes) : Prop := 1 ≤ l.length ∧ l.length ≤ 20 ∧ ∀ c ∈ l, (0x30 ≤ c.toNat ∧ c.toNat ≤ 0x39) ∨ (0x5f ≤ c.toNat ∧ c.toNat ≤ 0x7a)

instance (l : Bytes) : Decidable (Plain l) := by unfold Plain; infer_instance

theorem Plain.label {l : Bytes} (h : Plain l) : OkLabel l := by
  obtain ⟨h1, h2, h3⟩ := h
  refine ⟨h1, by omega, fun h0 => ?_, fun h0 => ?_⟩
  · rcases h3 _ h0 with h | h <;> simp at h
  · rcases h3 _ h0 with h | h <;> simp at h

theorem plain_digits {n : Nat} (h : n < 65536) : Plain (digits n) := by
  obtain ⟨h1, h2⟩ := digits_length (k := 5) (by decide) (by omega : n < 10 ^ 5)
  refine ⟨h1, by omega, fun c hc => .inl ?_⟩
  have := digits_char hc
  omega

theorem plain_name {ls : List Bytes} (h : ∀ l ∈ ls, Plain l) (hl : ls.length ≤ 5) (hne : ls ≠ []) : OkName ls ∧ Clean (text ls) := by
  have hlen : ∀ ls : List Bytes, (∀ l ∈ ls, Plain l) → (body ls).length ≤ 21 * ls.length := by
    intro ls
    induction ls with
    | nil => intro _; simp [body]
    | cons l ls ih =>
      intro h
      have h1 := ih fun x hx => h x (List.mem_cons_of_mem _ hx)
      have h2 := (h l List.mem_cons_self).2.1
      rw [body_cons]
      simp only [List.length_append, List.length_cons, List.length_nil]
      omega
  rw [← body_text hne]
  refine ⟨⟨fun l hm => (h l hm).label, ?_⟩, ?_⟩
  · rw [← body_text hne]
    have := hlen ls h
    omega
  · intro c hc
    unfold body at hc
    obtain ⟨x, hx, hcx⟩ := List.mem_flatten.1 hc
    obtain ⟨l, hl, rfl⟩ := List.mem_map.1 hx
    rcases List.mem_append.1 hcx with hcx | hcx
    · have := (h l hl).2.2 c hcx
      refine ⟨by omega, by omega, ?_⟩
      intro hm
      have : c.toNat ∈ ([0x28, 0x29, 0x3b, 0x40, 0x22, 0x5c] : List UInt8).map UInt8.toNat := List.mem_map_of_mem hm
      simp at this
      omega
    · rcases List.mem_singleton.1 hcx with rfl
      decide

/-! ### Items -/

/-- The record of an item. -/
def itemRr (x : List Bytes × Bytes) : Rr := ⟨text x.1, 16, 4, 0, some [.txts [x.2]]⟩

/-- Items that can be told. -/
structure GoodItem (x : List Bytes × Bytes) : Prop where
  plain : ∀ l ∈ x.1, Plain l
  length : x.1.length ≤ 5
  some : x.1 ≠ []
  text : x.2.length ≤ 254

theorem itemRr_good {x : List Bytes × Bytes} (h : GoodItem x) : GoodRr (itemRr x) := by
  obtain ⟨h1, h2⟩ := plain_name h.plain h.length h.some
  have h3 := h.text
  refine ⟨⟨x.1, h1, by have := h.length; omega, rfl⟩, (by decide : 16 < 65536), (by decide : 4 < 65536), (by decide : 0 < 4294967296), _, rfl, ⟨⟨by simp, ?_⟩, trivial⟩, ?_⟩
  · intro b hb
    rcases List.mem_singleton.1 hb with rfl
    omega
  · show ([x.2].map fun b => 1 + b.length).sum + 0 < 65536
    simp
    omega

theorem txtPush_eq {x : List Bytes × Bytes} (h : GoodItem x) {an : List Rr} (hl : an.length < 255) : txtPush (text x.1) x.2 an = .ok (an ++ [itemRr x]) := by
  obtain ⟨h1, h2⟩ := plain_name h.plain h.length h.some
  have h3 := h.text
  unfold txtPush
  rw [setName_text h1, if_pos h2]
  simp only [Out.bind]
  rw [if_neg (by omega), push_eq hl]
  rfl

theorem item_eq {q g : List Bytes} (hq : OkName q) (hg : OkName g) (add : List Rr → Out Unit (List Rr)) (an : List Rr) :
    item (text q) (text g) add an = if q.isSuffixOf g then add an else .ok an := by
  obtain ⟨b, h1, h2⟩ := isSubdomain_text hq hg
  unfold item
  rw [h1]
  simp only [Out.bind]
  have e : b = q.isSuffixOf g := by
    rw [Bool.eq_iff_iff, h2]
    exact List.isSuffixOf_iff_suffix.symm
  rw [e]

theorem state_eq (n : Nat) : (states.filter fun s => s.1 = n).map (fun s => (str "state", str s.2)) = match stateName n with
    | none => []
    | some s => [(str "state", s)] := by
  unfold stateName
  by_cases h0 : n = 0
  · subst h0; decide
  rw [if_neg h0]
  by_cases h2 : n = 2
  · subst h2; decide
  rw [if_neg h2]
  by_cases h3 : n = 3
  · subst h3; decide
  rw [if_neg h3]
  by_cases h4 : n = 4
  · subst h4; decide
  rw [if_neg h4]
  by_cases h5 : n = 5
  · subst h5; decide
  rw [if_neg h5]
  by_cases h6 : n = 6
  · subst h6; decide
  rw [if_neg h6]
  simp only
  rw [List.map_eq_nil_iff, List.filter_eq_nil_iff]
  intro s hs
  simp only [states, List.mem_cons, List.not_mem_nil, or_false] at hs
  rw [decide_eq_true_eq]
  rcases hs with rfl | rfl | rfl | rfl | rfl | rfl <;> dsimp only <;> omega

theorem stateName_length {n : Nat} {s : Bytes} (h : stateName n = some s) : s.length ≤ 254 := by
  unfold stateName at h
  by_cases h0 : n = 0
  · rw [if_pos h0] at h; cases Option.some.inj h; decide
  rw [if_neg h0] at h
  by_cases h2 : n = 2
  · rw [if_pos h2] at h; cases Option.some.inj h; decide
  rw [if_neg h2] at h
  by_cases h3 : n = 3
  · rw [if_pos h3] at h; cases Option.some.inj h; decide
  rw [if_neg h3] at h
  by_cases h4 : n = 4
  · rw [if_pos h4] at h; cases Option.some.inj h; decide
  rw [if_neg h4] at h
  by_cases h5 : n = 5
  · rw [if_pos h5] at h; cases Option.some.inj h; decide
  rw [if_neg h5] at h
  by_cases h6 : n = 6
  · rw [if_pos h6] at h; cases Option.some.inj h; decide
  rw [if_neg h6] at h
  cases h

/-- The labels of an item of a peer. -/
def peerName (l : Bytes) (n : Nat) : List Bytes := [l, digits n, str "peers", str "pool", str "hnsd"]

theorem peerName_text (l : Bytes) (n : Nat) : l ++ [0x2e] ++ (dec n ++ ascii ".peers.pool.hnsd.") = text (peerName l n) := by
  have e : ascii ".peers.pool.hnsd." = [0x2e] ++ str "peers" ++ [0x2e] ++ str "pool" ++ [0x2e] ++ str "hnsd" ++ [0x2e] := by decide
  rw [e]
  unfold peerName text body
  rw [if_neg (by simp)]
  simp only [List.map_cons, List.map_nil, List.flatten_cons, List.flatten_nil, List.append_nil, List.append_assoc]
  rfl

theorem peer_item {l t : Bytes} {n : Nat} (hl : Plain l) (hn : n < 65536) (ht : t.length ≤ 254) : GoodItem (peerName l n, t) := by
  refine ⟨?_, by simp [peerName], by simp [peerName], ht⟩
  intro x hx
  simp only [peerName, List.mem_cons, List.not_mem_nil, or_false] at hx
  rcases hx with rfl | rfl | rfl | rfl | rfl
  · exact hl
  · exact plain_digits hn
  · decide
  · decide
  · decide

/-- What fits the fields of a peer. -/
def GoodPeer (p : Peer) : Prop := p.host.length ≤ 254 ∧ p.agent.length ≤ 254 ∧ p.headers < 2 ^ 64 ∧ p.proofs < 2 ^ 64

theorem digits_short {n : Nat} (h : n < 2 ^ 64) : (digits n).length ≤ 254 := by
  have := (digits_length (k := 20) (by decide) (by omega : n < 10 ^ 20)).2
  omega

theorem aboutPeer_eq (p : Peer) (n : Nat) : aboutPeer p n = [(peerName (str "host") n, p.host), (peerName (str "agent") n, p.agent), (peerName (str "headers") n, digits p.headers),
    (peerName (str "proofs") n, digits p.proofs)] ++ (match stateName p.state with | none => [] | some s => [(peerName (str "state") n, s)]) := by
  unfold aboutPeer
  rw [state_eq]
  cases stateName p.state <;> rfl

theorem aboutPeer_good {p : Peer} (hp : GoodPeer p) {n : Nat} (hn : n < 65536) : (∀ x ∈ aboutPeer p n, GoodItem x) ∧ (aboutPeer p n).length ≤ 5 := by
  obtain ⟨h1, h2, h3, h4⟩ := hp
  rw [aboutPeer_eq]
  constructor
  · intro x hx
    rcases List.mem_append.1 hx with hx | hx
    · simp only [List.mem_cons, List.not_mem_nil, or_false] at hx
      rcases hx with rfl | rfl | rfl | rfl
      · exact peer_item (by decide) hn h1
      · exact peer_item (by decide) hn h2
      · exact peer_item (by decide) hn (digits_short h3)
      · exact peer_item (by decide) hn (digits_short h4)
    · cases hs : stateName p.state with
      | none => rw [hs] at hx; simp at hx
      | some s =>
        rw [hs] at hx
        rcases List.mem_singleton.1 hx with rfl
        exact peer_item (by decide) hn (stateName_length hs)
  · cases stateName p.state <;> simp

theorem pushPeer_eq {p : Peer} (hp : GoodPeer p) {n : Nat} (hn : n < 65536) {an : List Rr} (hl : an.length ≤ 250) :
    pushPeer p n an = .ok (an ++ (aboutPeer p n).map itemRr) := by
  obtain ⟨h1, h2, h3, h4⟩ := hp
  rw [aboutPeer_eq]
  unfold pushPeer
  dsimp only
  have e1 : ascii "host." ++ (dec n ++ ascii ".peers.pool.hnsd.") = text (peerName (str "host") n) := by rw [← peerName_text]; rfl
  have e2 : ascii "agent." ++ (dec n ++ ascii ".peers.pool.hnsd.") = text (peerName (str "agent") n) := by rw [← peerName_text]; rfl
  have e3 : ascii "headers." ++ (dec n ++ ascii ".peers.pool.hnsd.") = text (peerName (str "headers") n) := by rw [← peerName_text]; rfl
  have e4 : ascii "proofs." ++ (dec n ++ ascii ".peers.pool.hnsd.") = text (peerName (str "proofs") n) := by rw [← peerName_text]; rfl
  have e5 : ascii "state." ++ (dec n ++ ascii ".peers.pool.hnsd.") = text (peerName (str "state") n) := by rw [← peerName_text]; rfl
  have i1 := peer_item (l := str "host") (by decide) hn h1
  have i2 := peer_item (l := str "agent") (by decide) hn h2
  have i3 := peer_item (l := str "headers") (by decide) hn (digits_short h3)
  have i4 := peer_item (l := str "proofs") (by decide) hn (digits_short h4)
  rw [e1, e2, e3, e4, e5]
  rw [txtPush_eq i1 (by omega)]
  simp only [Out.bind]
  rw [txtPush_eq i2 (by simp; omega)]
  simp only
  have i3' := txtPush_eq i3 (an := an ++ [itemRr (peerName (str "host") n, p.host)] ++ [itemRr (peerName (str "agent") n, p.agent)]) (by simp; omega)
  have i4' := txtPush_eq i4 (an := an ++ [itemRr (peerName (str "host") n, p.host)] ++ [itemRr (peerName (str "agent") n, p.agent)] ++ [itemRr (peerName (str "headers") n, digits p.headers)])
    (by simp; omega)
  have d3 : dec p.headers = digits p.headers := rfl
  have d4 : dec p.proofs = digits p.proofs := rfl
  dsimp only at i3' i4'
  rw [d3, i3']
  simp only
  rw [d4, i4']
  simp only
  cases hs : stateName p.state with
  | none => simp
  | some s =>
    simp only
    rw [txtPush_eq (peer_item (l := str "state") (by decide) hn (stateName_length hs)) (by simp; omega)]
    simp

theorem pushPeers_eq : ∀ (ps : List Peer) (n : Nat) (an : List Rr), (∀ p ∈ ps, GoodPeer p) → n + ps.length ≤ 60000 → an.length + 5 * ps.length ≤ 255 →
    pushPeers ps n an = .ok (an ++ ((ps.zipIdx n).map fun x => aboutPeer x.1 x.2).flatten.map itemRr)
  | [], _, an, _, _, _ => by simp [pushPeers]
  | p :: ps, n, an, hp, hn, hl => by
    rw [List.length_cons] at hn hl
    have hg := hp p List.mem_cons_self
    have hlen := (aboutPeer_good hg (n := n) (by omega)).2
    rw [pushPeers, pushPeer_eq hg (by omega) (by omega)]
    simp only [Out.bind]
    rw [show (n + 1) % 65536 = n + 1 from by omega]
    rw [pushPeers_eq ps (n + 1) _ (fun x hx => hp x (List.mem_cons_of_mem _ hx)) (by omega) (by simp; omega)]
    simp

/-- The sum of a part of the items. -/
theorem step_eq {q g : List Bytes} (hq : OkName q) (hg : OkName g) {add : List Rr → Out Unit (List Rr)} {items : List (List Bytes × Bytes)}
    (h : ∀ an, an.length + items.length ≤ 255 → add an = .ok (an ++ items.map itemRr)) {an : List Rr} (hl : an.length + items.length ≤ 255) :
    item (text q) (text g) add an = .ok (an ++ ((if q.isSuffixOf g then items else []).map itemRr)) := by
  rw [item_eq hq hg]
  split
  · exact h an hl
  · simp

theorem resolve_eq {I : Info} (hI : GoodInfo I) {q : List Bytes} (hq : OkName q) : ∃ m, resolve I (text q) = .ok m ∧ AboutMsg I q m ∧ Answer m := by
  have peer : ∀ p ∈ I.peers, GoodPeer p := hI.each
  have plain4 : ∀ {ls : List Bytes} {t : Bytes}, (∀ l ∈ ls, Plain l) → ls.length ≤ 5 → ls ≠ [] → t.length ≤ 254 → GoodItem (ls, t) := fun h1 h2 h3 h4 => ⟨h1, h2, h3, h4⟩
  have t1 : ∀ (ls : List Bytes) (t : Bytes) {name : Bytes}, name = text ls → (∀ l ∈ ls, Plain l) → ls.length ≤ 5 → ls ≠ [] → t.length ≤ 254 → ∀ an : List Rr, an.length < 255 →
      item (text q) name (txtPush name t) an = .ok (an ++ ((if q.isSuffixOf ls then [(ls, t)] else []).map itemRr)) := by
    intro ls t name hname h1 h2 h3 h4 an hl
    subst hname
    have hi := plain4 h1 h2 h3 h4
    refine step_eq hq (plain_name h1 h2 h3).1 (fun an' h => ?_) (by simp; omega)
    exact txtPush_eq (x := (ls, t)) hi (by simp at h; omega)
  have len : ∀ (b : Bool) (x : List Bytes × Bytes), ((if b then [x] else []).map itemRr).length ≤ 1 := by intro b x; cases b <;> simp
  have th : ∀ h : Bytes, h.length = 32 → Hesiod.hex (h.take 32) = h.flatMap hexByte := by
    intro h hl
    rw [hex_eq, List.take_of_length_le (by omega)]
  have s1 := t1 [str "hash", str "tip", str "chain", str "hnsd"] (I.hash.flatMap hexByte) (name := ascii "hash.tip.chain.hnsd.") (by decide) (by decide) (by decide) (by decide)
    (by rw [hex_length, hI.hash]; decide)
  have s2 := t1 [str "height", str "tip", str "chain", str "hnsd"] (digits I.height) (name := ascii "height.tip.chain.hnsd.") (by decide) (by decide) (by decide) (by decide)
    (digits_short hI.height)
  have s3 := t1 [str "name_root", str "tip", str "chain", str "hnsd"] (I.nameRoot.flatMap hexByte) (name := ascii "name_root.tip.chain.hnsd.") (by decide) (by decide) (by decide) (by decide)
    (by rw [hex_length, hI.nameRoot]; decide)
  have s4 := t1 [str "time", str "tip", str "chain", str "hnsd"] (digits I.time) (name := ascii "time.tip.chain.hnsd.") (by decide) (by decide) (by decide) (by decide) (digits_short hI.time)
  have s5 := t1 [str "synced", str "chain", str "hnsd"] (if I.synced then str "true" else str "false") (name := ascii "synced.chain.hnsd.") (by decide) (by decide) (by decide) (by decide)
    (by split <;> decide)
  have s6 := t1 [str "progress", str "chain", str "hnsd"] I.progress (name := ascii "progress.chain.hnsd.") (by decide) (by decide) (by decide) (by decide) (by have := hI.progress; omega)
  have s7 := t1 [str "size", str "pool", str "hnsd"] (digits I.size) (name := ascii "size.pool.hnsd.") (by decide) (by decide) (by decide) (by decide) (digits_short hI.size)
  have np := hI.peers
  have flen : ∀ (ps : List Peer) (n : Nat), (∀ p ∈ ps, GoodPeer p) → n + ps.length ≤ 60000 → (((ps.zipIdx n).map fun x => aboutPeer x.1 x.2).flatten).length ≤ 5 * ps.length ∧
      ∀ x ∈ ((ps.zipIdx n).map fun x => aboutPeer x.1 x.2).flatten, GoodItem x := by
    intro ps
    induction ps with
    | nil => intro n _ _; simp
    | cons p ps ih =>
      intro n hp hn
      rw [List.length_cons] at hn
      obtain ⟨a1, a2⟩ := ih (n + 1) (fun x hx => hp x (List.mem_cons_of_mem _ hx)) (by omega)
      obtain ⟨b1, b2⟩ := aboutPeer_good (hp p List.mem_cons_self) (n := n) (by omega)
      simp only [List.zipIdx_cons, List.map_cons, List.flatten_cons, List.length_append, List.length_cons, List.mem_append]
      refine ⟨by omega, ?_⟩
      rintro x (hx | hx)
      · exact b1 x hx
      · exact a2 x hx
  obtain ⟨f1, f2⟩ := flen I.peers 0 peer (by omega)
  have s8 : ∀ an : List Rr, an.length ≤ 10 → item (text q) (ascii "peers.pool.hnsd.") (pushPeers I.peers 0) an =
      .ok (an ++ ((if q.isSuffixOf [str "peers", str "pool", str "hnsd"] then ((I.peers.zipIdx).map fun x => aboutPeer x.1 x.2).flatten else []).map itemRr)) := by
    intro an hl
    have e : ascii "peers.pool.hnsd." = text [str "peers", str "pool", str "hnsd"] := by decide
    rw [e, item_eq hq (plain_name (by decide) (by decide) (by decide)).1]
    split
    · exact pushPeers_eq I.peers 0 an peer (by omega) (by omega)
    · simp
  unfold resolve txtHash
  dsimp only
  rw [th _ hI.hash, th _ hI.nameRoot]
  have l1 := len (q.isSuffixOf [str "hash", str "tip", str "chain", str "hnsd"]) ([str "hash", str "tip", str "chain", str "hnsd"], I.hash.flatMap hexByte)
  have l2 := len (q.isSuffixOf [str "height", str "tip", str "chain", str "hnsd"]) ([str "height", str "tip", str "chain", str "hnsd"], digits I.height)
  have l3 := len (q.isSuffixOf [str "name_root", str "tip", str "chain", str "hnsd"]) ([str "name_root", str "tip", str "chain", str "hnsd"], I.nameRoot.flatMap hexByte)
  have l4 := len (q.isSuffixOf [str "time", str "tip", str "chain", str "hnsd"]) ([str "time", str "tip", str "chain", str "hnsd"], digits I.time)
  have l5 := len (q.isSuffixOf [str "synced", str "chain", str "hnsd"]) ([str "synced", str "chain", str "hnsd"], (if I.synced then str "true" else str "false"))
  have l6 := len (q.isSuffixOf [str "progress", str "chain", str "hnsd"]) ([str "progress", str "chain", str "hnsd"], I.progress)
  have l7 := len (q.isSuffixOf [str "size", str "pool", str "hnsd"]) ([str "size", str "pool", str "hnsd"], digits I.size)
  have l8 : ((if q.isSuffixOf [str "peers", str "pool", str "hnsd"] then ((I.peers.zipIdx).map fun x => aboutPeer x.1 x.2).flatten else []).map itemRr).length ≤ 245 := by
    split
    · rw [List.length_map]; omega
    · simp
  generalize hA1 : ((if q.isSuffixOf [str "hash", str "tip", str "chain", str "hnsd"] then [([str "hash", str "tip", str "chain", str "hnsd"], I.hash.flatMap hexByte)] else []).map itemRr) = A1 at *
  generalize hA2 : ((if q.isSuffixOf [str "height", str "tip", str "chain", str "hnsd"] then [([str "height", str "tip", str "chain", str "hnsd"], digits I.height)] else []).map itemRr) = A2 at *
  generalize hA3 : ((if q.isSuffixOf [str "name_root", str "tip", str "chain", str "hnsd"] then [([str "name_root", str "tip", str "chain", str "hnsd"], I.nameRoot.flatMap hexByte)]
    else []).map itemRr) = A3 at *
  generalize hA4 : ((if q.isSuffixOf [str "time", str "tip", str "chain", str "hnsd"] then [([str "time", str "tip", str "chain", str "hnsd"], digits I.time)] else []).map itemRr) = A4 at *
  generalize hA5 : ((if q.isSuffixOf [str "synced", str "chain", str "hnsd"] then [([str "synced", str "chain", str "hnsd"], (if I.synced then str "true" else str "false"))]
    else []).map itemRr) = A5 at *
  generalize hA6 : ((if q.isSuffixOf [str "progress", str "chain", str "hnsd"] then [([str "progress", str "chain", str "hnsd"], I.progress)] else []).map itemRr) = A6 at *
  generalize hA7 : ((if q.isSuffixOf [str "size", str "pool", str "hnsd"] then [([str "size", str "pool", str "hnsd"], digits I.size)] else []).map itemRr) = A7 at *
  generalize hA8 : ((if q.isSuffixOf [str "peers", str "pool", str "hnsd"] then ((I.peers.zipIdx).map fun x => aboutPeer x.1 x.2).flatten else []).map itemRr) = A8 at *
  have d2 : dec I.height = digits I.height := rfl
  have d4 : dec I.time = digits I.time := rfl
  have d7 : dec I.size = digits I.size := rfl
  have d5 : (if I.synced then ascii "true" else ascii "false") = if I.synced then str "true" else str "false" := rfl
  rw [s1 [] (by decide)]
  simp only [Out.bind, List.nil_append]
  rw [d2, s2 _ (by omega)]
  simp only
  rw [s3 _ (by simp only [List.length_append]; omega)]
  simp only
  rw [d4, s4 _ (by simp only [List.length_append]; omega)]
  simp only
  rw [d5, s5 _ (by simp only [List.length_append]; omega)]
  simp only
  rw [s6 _ (by simp only [List.length_append]; omega)]
  simp only
  rw [d7, s7 _ (by simp only [List.length_append]; omega)]
  simp only
  rw [s8 _ (by simp only [List.length_append]; omega)]
  have pick : ∀ (b : Bool) (items : List (List Bytes × Bytes)), (∀ x ∈ items, GoodItem x) → Goods ((if b then items else []).map itemRr) := by
    intro b items h r hr
    obtain ⟨x, hx, rfl⟩ := List.mem_map.1 hr
    cases b
    · simp at hx
    · exact itemRr_good (h x hx)
  have one : ∀ {ls : List Bytes} {t : Bytes}, (∀ l ∈ ls, Plain l) → ls.length ≤ 5 → ls ≠ [] → t.length ≤ 254 → ∀ x ∈ [(ls, t)], GoodItem x := by
    intro ls t h1 h2 h3 h4 x hx
    rcases List.mem_singleton.1 hx with rfl
    exact plain4 h1 h2 h3 h4
  refine ⟨_, rfl, ⟨rfl, rfl, rfl, rfl, rfl, ?_⟩, answer_mk (by dsimp only; decide) rfl (by dsimp only [newMsg]; decide) ⟨?_, ?_⟩
    ⟨by dsimp only [newMsg]; decide, fun _ h => by simp [newMsg] at h⟩ ⟨by dsimp only [newMsg]; decide, fun _ h => by simp [newMsg] at h⟩ (by simp [newMsg])⟩
  · rw [← hA1, ← hA2, ← hA3, ← hA4, ← hA5, ← hA6, ← hA7, ← hA8]
    unfold about
    dsimp only
    have fl : ∀ (g : List Bytes × List (List Bytes × Bytes)) (r : List (List Bytes × List (List Bytes × Bytes))),
        (((g :: r).filter fun g => q.isSuffixOf g.1).map fun g => g.2.map itemRr).flatten =
          ((if q.isSuffixOf g.1 then g.2 else []).map itemRr) ++ ((r.filter fun g => q.isSuffixOf g.1).map fun g => g.2.map itemRr).flatten := by
      intro g r
      rw [List.filter_cons]
      cases q.isSuffixOf g.1 <;> simp
    have ir : (fun g : List Bytes × List (List Bytes × Bytes) => g.2.map fun x => (⟨text x.1, 16, 4, 0, some [.txts [x.2]]⟩ : Rr)) = fun g => g.2.map itemRr := rfl
    rw [ir]
    simp only [fl]
    simp only [List.filter_nil, List.map_nil, List.flatten_nil, List.append_nil, List.append_assoc]
  · simp only [List.length_append]
    omega
  · dsimp only
    rw [← hA1, ← hA2, ← hA3, ← hA4, ← hA5, ← hA6, ← hA7, ← hA8]
    refine Goods.append (Goods.append (Goods.append (Goods.append (Goods.append (Goods.append (Goods.append ?_ ?_) ?_) ?_) ?_) ?_) ?_) ?_
    · exact pick _ _ (one (by decide) (by decide) (by decide) (by rw [hex_length, hI.hash]; decide))
    · exact pick _ _ (one (by decide) (by decide) (by decide) (digits_short hI.height))
    · exact pick _ _ (one (by decide) (by decide) (by decide) (by rw [hex_length, hI.nameRoot]; decide))
    · exact pick _ _ (one (by decide) (by decide) (by decide) (digits_short hI.time))
    · exact pick _ _ (one (by decide) (by decide) (by decide) (by split <;> decide))
    · exact pick _ _ (one (by decide) (by decide) (by decide) (by have := hI.progress; omega))
    · exact pick _ _ (one (by decide) (by decide) (by decide) (digits_short hI.size))
    · exact pick _ _ f2

end Verif.Ns
