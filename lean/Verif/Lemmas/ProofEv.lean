import Verif.Lemmas.Proof
namespace Verif.Proof
open Verif.Bio Verif.Spec.Radix

/-! ### evidence for a key's value under a digest -/

/-- `Ev H key d h qs v`: digest `h` at bit `d` is opened, along `key`, by hashing the
strings `qs`, down to a place that shows the value `v` for `key`. -/
inductive Ev (H : Bytes → Bytes) (key : Bytes) : Nat → Bytes → List Bytes → Option Bytes → Prop
  | dead {d h} (e : h = zero32) : Ev H key d h [] none
  | found {d h} (v : Bytes) (e : h = H ([0x00] ++ key ++ H v)) :
      Ev H key d h [v, [0x00] ++ key ++ H v] (some v)
  | other {d h} (qs : List Bytes) (k x : Bytes) (hk : k.length = 32) (hne : k ≠ key)
      (e : h = H ([0x00] ++ k ++ x)) (hq : [0x00] ++ k ++ x ∈ qs) : Ev H key d h qs none
  | short {d h} (qs : List Bytes) (pfx : Bytes) (size : Nat) (l r : Bytes)
      (hs : size ≤ 256) (hp : (size + 7) / 8 ≤ pfx.length)
      (hl : l.length = 32) (hr : r.length = 32)
      (hm : ¬ Match pfx size key d) (e : h = H (preOf pfx size l r))
      (hq : preOf pfx size l r ∈ qs) : Ev H key d h qs none
  | node {d h v} (qs qs' : List Bytes) (pfx : Bytes) (size : Nat) (l r : Bytes)
      (hs : size ≤ 256) (hp : (size + 7) / 8 ≤ pfx.length)
      (hl : l.length = 32) (hr : r.length = 32)
      (hm : Match pfx size key d) (e : h = H (preOf pfx size l r))
      (sub : Ev H key (d + size + 1) (if bitAt key (d + size) then r else l) qs v)
      (hq : preOf pfx size l r ∈ qs') (hqs : ∀ x ∈ qs, x ∈ qs') :
      Ev H key d h qs' v

/-- Two of the strings hashed collide, or one hashes to the digest of nothing. -/
def Broken (H : Bytes → Bytes) (qs qs' : List Bytes) : Prop :=
  (∃ x ∈ qs, ∃ y ∈ qs', x ≠ y ∧ H x = H y) ∨ ∃ x, (x ∈ qs ∨ x ∈ qs') ∧ H x = zero32

theorem Broken.mono {H : Bytes → Bytes} {a b a' b' : List Bytes} (h : Broken H a b)
    (ha : ∀ x ∈ a, x ∈ a') (hb : ∀ x ∈ b, x ∈ b') : Broken H a' b' := by
  rcases h with ⟨x, hx, y, hy, h⟩ | ⟨x, hx, h⟩
  · exact .inl ⟨x, ha x hx, y, hb y hy, h⟩
  · exact .inr ⟨x, hx.imp (ha x) (hb x), h⟩

theorem Broken.symm {H : Bytes → Bytes} {a b : List Bytes} (h : Broken H a b) : Broken H b a := by
  rcases h with ⟨x, hx, y, hy, h⟩ | ⟨x, hx, h⟩
  · exact .inl ⟨y, hy, x, hx, fun e => h.1 e.symm, h.2.symm⟩
  · exact .inr ⟨x, hx.symm, h⟩

theorem preOf_head (p : Bytes) (s : Nat) (l r : Bytes) :
    (∃ t, preOf p s l r = 1 :: t ∧ s = 0) ∨ (∃ t, preOf p s l r = 2 :: t ∧ s ≠ 0) := by
  unfold preOf
  by_cases h : s = 0
  · left; simp [h]
  · right; simp [h]

theorem leaf_ne_preOf (k x p : Bytes) (s : Nat) (l r : Bytes) :
    [0x00] ++ k ++ x ≠ preOf p s l r := by
  rcases preOf_head p s l r with ⟨t, h, _⟩ | ⟨t, h, _⟩ <;> rw [h] <;> simp

theorem preOf_inj {p p' l l' r r' : Bytes} {s s' : Nat}
    (hs : s ≤ 256) (hs' : s' ≤ 256) (hp : (s + 7) / 8 ≤ p.length) (hp' : (s' + 7) / 8 ≤ p'.length)
    (hl : l.length = 32) (hl' : l'.length = 32) (_hr : r.length = 32) (_hr' : r'.length = 32)
    (h : preOf p s l r = preOf p' s' l' r') :
    s = s' ∧ l = l' ∧ r = r' ∧ ∀ i, i < s → bitAt p i = bitAt p' i := by
  unfold preOf at h
  by_cases h0 : s = 0 <;> by_cases h0' : s' = 0
  · simp only [h0, h0', if_true, List.append_assoc, List.append_cancel_left_eq] at h
    obtain ⟨e1, e2⟩ := List.append_inj h (by omega)
    exact ⟨by omega, e1, e2, by omega⟩
  · simp [h0, h0'] at h
  · simp [h0, h0'] at h
  · simp only [h0, h0', if_false, List.append_assoc, List.append_cancel_left_eq] at h
    obtain ⟨e1, h⟩ := List.append_inj h (by simp)
    have es : s = s' := by
      have := congrArg leNat e1
      rw [leNat_leBytes_of_lt (by omega), leNat_leBytes_of_lt (by omega)] at this
      exact this
    subst es
    obtain ⟨e2, h⟩ := List.append_inj h (by simp; omega)
    obtain ⟨e3, e4⟩ := List.append_inj h (by omega)
    refine ⟨rfl, e3, e4, fun i hi => ?_⟩
    rw [← bitAt_take (s := p) (n := (s + 7) / 8) (by omega) hp, e2, bitAt_take (by omega) hp']

theorem Match_congr {p p' key : Bytes} {s d : Nat} (h : ∀ i, i < s → bitAt p i = bitAt p' i)
    (hm : Match p s key d) : Match p' s key d :=
  ⟨hm.1, fun i hi => by rw [← h i hi]; exact hm.2 i hi⟩

theorem Ev.unique {H : Bytes → Bytes} {key : Bytes} (hk : key.length = 32) {d : Nat}
    {h : Bytes} {qs qs' : List Bytes} {v v' : Option Bytes}
    (a : Ev H key d h qs v) (b : Ev H key d h qs' v') : v = v' ∨ Broken H qs qs' := by
  induction a generalizing qs' v' with
  | @dead d h e =>
    cases b with
    | dead => exact .inl rfl
    | found v e' => exact .inr (.inr ⟨[0x00] ++ key ++ H v, .inr (by simp), by rw [← e', e]⟩)
    | other qs k x hk hne e' hq => exact .inl rfl
    | short => exact .inl rfl
    | node qs qs' p s l r _ _ _ _ _ e' _ hq _ => exact .inr (.inr ⟨_, .inr hq, by rw [← e', e]⟩)
  | @found d h v e =>
    cases b with
    | dead e' => exact .inr (.inr ⟨[0x00] ++ key ++ H v, .inl (by simp), by rw [← e, e']⟩)
    | found v' e' =>
      by_cases hh : v = v'
      · exact .inl (by rw [hh])
      · right; left
        by_cases hv : H v = H v'
        · exact ⟨v, by simp, v', by simp, hh, hv⟩
        · refine ⟨[0x00] ++ key ++ H v, by simp, [0x00] ++ key ++ H v', by simp, ?_, ?_⟩
          · simpa using hv
          · rw [← e, ← e']
    | other qs k x hk' hne e' hq =>
      refine .inr (.inl ⟨[0x00] ++ key ++ H v, by simp, _, hq, ?_, by rw [← e, ← e']⟩)
      intro hh
      simp only [List.append_assoc, List.append_cancel_left_eq] at hh
      exact hne (List.append_inj hh (by omega)).1.symm
    | short qs p s l r _ _ _ _ _ e' hq =>
      exact .inr (.inl ⟨[0x00] ++ key ++ H v, by simp, _, hq, leaf_ne_preOf _ _ _ _ _ _,
        by rw [← e, ← e']⟩)
    | node qs qs' p s l r _ _ _ _ _ e' _ hq _ =>
      exact .inr (.inl ⟨[0x00] ++ key ++ H v, by simp, _, hq, leaf_ne_preOf _ _ _ _ _ _,
        by rw [← e, ← e']⟩)
  | @other d h qs k x hk' hne e hq =>
    cases b with
    | dead => exact .inl rfl
    | found v e' =>
      refine .inr (.inl ⟨_, hq, [0x00] ++ key ++ H v, by simp, ?_, by rw [← e, ← e']⟩)
      intro hh
      simp only [List.append_assoc, List.append_cancel_left_eq] at hh
      exact hne (List.append_inj hh (by omega)).1
    | other => exact .inl rfl
    | short => exact .inl rfl
    | node qs qs' p s l r _ _ _ _ _ e' _ hq' _ =>
      exact .inr (.inl ⟨_, hq, _, hq', leaf_ne_preOf _ _ _ _ _ _, by rw [← e, ← e']⟩)
  | @short d h qs p s l r hs hp hl hr hm e hq =>
    cases b with
    | dead => exact .inl rfl
    | found v e' =>
      exact .inr (.inl ⟨_, hq, [0x00] ++ key ++ H v, by simp,
        fun e => leaf_ne_preOf _ _ _ _ _ _ e.symm, by rw [← e, ← e']⟩)
    | other => exact .inl rfl
    | short => exact .inl rfl
    | node qs qs' p' s' l' r' hs' hp' hl' hr' hm' e' _ hq' _ =>
      by_cases hh : preOf p s l r = preOf p' s' l' r'
      · obtain ⟨e1, e2, e3, e4⟩ := preOf_inj hs hs' hp hp' hl hl' hr hr' hh
        subst e1
        exact absurd (Match_congr (fun i hi => (e4 i hi).symm) hm') hm
      · exact .inr (.inl ⟨_, hq, _, hq', hh, by rw [← e, ← e']⟩)
  | @node d h v qs qs2 p s l r hs hp hl hr hm e sub hq hqs ih =>
    cases b with
    | dead e' => exact .inr (.inr ⟨_, .inl hq, by rw [← e, e']⟩)
    | found v e' =>
      exact .inr (.inl ⟨_, hq, [0x00] ++ key ++ H v, by simp,
        fun e => leaf_ne_preOf _ _ _ _ _ _ e.symm, by rw [← e, ← e']⟩)
    | other qs k x hk' hne e' hq' =>
      exact .inr (.inl ⟨_, hq, _, hq',
        fun e => leaf_ne_preOf _ _ _ _ _ _ e.symm, by rw [← e, ← e']⟩)
    | short qs p' s' l' r' hs' hp' hl' hr' hm' e' hq' =>
      by_cases hh : preOf p s l r = preOf p' s' l' r'
      · obtain ⟨e1, e2, e3, e4⟩ := preOf_inj hs hs' hp hp' hl hl' hr hr' hh
        subst e1
        exact absurd (Match_congr e4 hm) hm'
      · exact .inr (.inl ⟨_, hq, _, hq', hh, by rw [← e, ← e']⟩)
    | node qs' _ p' s' l' r' hs' hp' hl' hr' hm' e' sub' hq' hqs' =>
      by_cases hh : preOf p s l r = preOf p' s' l' r'
      · obtain ⟨e1, e2, e3, e4⟩ := preOf_inj hs hs' hp hp' hl hl' hr hr' hh
        subst e1 e2 e3
        rcases ih sub' with h1 | h1
        · exact .inl h1
        · exact .inr (h1.mono hqs hqs')
      · exact .inr (.inl ⟨_, hq, _, hq', hh, by rw [← e, ← e']⟩)

/-! ### from accepted proofs to evidence -/

theorem leafDigest_length {H : Bytes → Bytes} (hlen : ∀ x, (H x).length = 32) (key : Bytes)
    (p : Proof) : (leafDigest H key p).length = 32 := by
  unfold leafDigest
  split
  · exact hlen _
  · simp [zero32]

theorem nodeStrings_length {H : Bytes → Bytes} (hlen : ∀ x, (H x).length = 32) (key leaf : Bytes)
    (hl : leaf.length = 32) (d : Nat) (ns : List Node) :
    (nodeStrings H key leaf d ns).2.length = 32 := by
  cases ns with
  | nil => exact hl
  | cons n ns => exact hlen _

theorem ev_nodes {H : Bytes → Bytes} (hlen : ∀ x, (H x).length = 32) {key leaf : Bytes}
    (hleaf : leaf.length = 32) {qs : List Bytes} {v : Option Bytes} {ns : List Node} {d : Nat}
    (hn : ∀ n ∈ ns, NodeWF n) (hp : PathOk key d ns) (ev : Ev H key (d + span ns) leaf qs v) :
    Ev H key d (nodeStrings H key leaf d ns).2 ((nodeStrings H key leaf d ns).1 ++ qs) v := by
  induction ns generalizing d with
  | nil => simpa [nodeStrings, span] using ev
  | cons n ns ih =>
    obtain ⟨h1, h2, h3⟩ := hn n List.mem_cons_self
    obtain ⟨p1, p2, p3⟩ := hp
    have ih' := ih (d := d + n.pfxSize + 1) (fun m hm => hn m (List.mem_cons_of_mem _ hm)) p3
      (by simp only [span] at ev; rwa [Nat.add_assoc, Nat.add_assoc, ← Nat.add_assoc n.pfxSize])
    have hc := nodeStrings_length hlen key leaf hleaf (d + n.pfxSize + 1) ns
    simp only [nodeStrings]
    cases hb : bitAt key (d + n.pfxSize)
    · refine Ev.node ((nodeStrings H key leaf (d + n.pfxSize + 1) ns).1 ++ qs) _ n.pfx n.pfxSize _ n.node h2 (by omega) hc h3 p1 rfl ?_ ?_ ?_
      · rw [hb]; simpa using ih'
      · simp
      · intro x hx; simp only [List.cons_append, List.mem_cons]; exact .inr hx
    · refine Ev.node ((nodeStrings H key leaf (d + n.pfxSize + 1) ns).1 ++ qs) _ n.pfx n.pfxSize n.node _ h2 (by omega) h3 hc p1 rfl ?_ ?_ ?_
      · rw [hb]; simpa using ih'
      · simp
      · intro x hx; simp only [List.cons_append, List.mem_cons]; exact .inr hx

/-- The value a proof claims for its key. -/
def claim (p : Proof) : Option Bytes := if p.type = EXISTS then some (p.value.getD []) else none

theorem valueBuf_ok {ε : Type} {p : Proof} {v : Bytes} (e1 : p.value = some v)
    (e2 : v.length = p.valueSize) : (valueBuf p : Out ε Bytes) = .ok v := by
  unfold valueBuf
  by_cases h0 : p.valueSize = 0
  · have : v = [] := by rw [← List.length_eq_zero_iff, e2, h0]
    simp [h0, this]
  · simp only [h0, if_false, e1, deref, Out.bind_ok]
    rw [memSlice_ok (by omega)]
    simp [← e2]

theorem leafHash_spec {H : Bytes → Bytes} {key : Bytes} {p : Proof}
    (hk : key.length = 32) (wf : WF p) :
    leafHash H key p ≠ .ub ∧
    (∀ h, leafHash H key p = .ok h ↔
      h = leafDigest H key p ∧
      (p.type = SHORT → ¬ Match (p.pfx.getD []) p.pfxSize key p.depth) ∧
      (p.type = COLLISION → p.nxKey ≠ some key)) := by
  have ht := wf.type
  have : p.type = 0 ∨ p.type = 1 ∨ p.type = 2 ∨ p.type = 3 := by omega
  rcases this with h | h | h | h
  · simp only [leafHash, h, DEADEND, if_true, Out.pure_eq, leafDigest, leafStrings, SHORT, COLLISION, EXISTS]
    simp [zero32, eq_comm]
  · obtain ⟨h0, h1, b, l, r, e1, e2, e3, e4, e5, e6⟩ := wf.short h
    obtain ⟨c, hc, hm⟩ := proofHas_spec (ε := Err) (pfx := b) (size := p.pfxSize) (key := key)
      (d := p.depth) (by omega) hk wf.depth
    have hpre : (internalPreimage b p.pfxSize l r : Out Err Bytes) = .ok (preOf b p.pfxSize l r) :=
      internalPreimage_ok (by omega)
    have hm' : (¬ Match b p.pfxSize key p.depth) ↔ c = false := by rw [← hm]; simp
    simp only [leafHash, h, DEADEND, SHORT, e1, e3, e5, deref, Out.bind_ok, h0, hc, hpre, leafDigest,
      leafStrings, if_true, if_false, COLLISION, Option.getD_some]
    cases c <;> simp [hm', eq_comm]
  · obtain ⟨k, x, e1, e2, e3, e4⟩ := wf.coll h
    simp only [leafHash, h, DEADEND, SHORT, COLLISION, e1, e3, deref, Out.bind_ok, leafDigest,
      leafStrings, if_true, Option.getD_some, leafPreimage]
    by_cases hh : k = key
    · simp [hh]
    · simp [hh, eq_comm (b := H _)]
  · obtain ⟨h1, v, e1, e2⟩ := wf.exist h
    have hv : (valueBuf p : Out Err Bytes) = .ok v := valueBuf_ok e1 e2
    simp only [leafHash, h, DEADEND, SHORT, COLLISION, EXISTS, hv, Out.bind_ok, leafDigest,
      leafStrings, if_true, e1, Option.getD_some, leafPreimage]
    simp [eq_comm]

theorem ev_leaf {H : Bytes → Bytes} {key : Bytes} {p : Proof} (wf : WF p)
    (h1 : p.type = SHORT → ¬ Match (p.pfx.getD []) p.pfxSize key p.depth)
    (h2 : p.type = COLLISION → p.nxKey ≠ some key) :
    Ev H key p.depth (leafDigest H key p) (leafStrings H key p) (claim p) := by
  have ht := wf.type
  have : p.type = 0 ∨ p.type = 1 ∨ p.type = 2 ∨ p.type = 3 := by omega
  rcases this with h | h | h | h
  · simp only [leafDigest, leafStrings, claim, h, SHORT, COLLISION, EXISTS]
    exact .dead rfl
  · obtain ⟨h0, h3, b, l, r, e1, e2, e3, e4, e5, e6⟩ := wf.short h
    have h1 := h1 h
    simp only [leafDigest, leafStrings, claim, h, SHORT, EXISTS, e1, e3, e5, Option.getD_some, if_true] at h1 ⊢
    exact .short _ b p.pfxSize l r h3 (by omega) e4 e6 h1 (by simp) (by simp)
  · obtain ⟨k, x, e1, e2, e3, e4⟩ := wf.coll h
    have h2 := h2 h
    simp only [leafDigest, leafStrings, claim, h, SHORT, COLLISION, EXISTS, e1, e3, Option.getD_some,
      if_true] at h2 ⊢
    exact .other _ k x e2 (by simpa using h2) (by simp) (by simp)
  · obtain ⟨h3, v, e1, e2⟩ := wf.exist h
    simp only [leafDigest, leafStrings, claim, h, SHORT, COLLISION, EXISTS, e1, Option.getD_some, if_true]
    exact .found v (by simp)

theorem parseNamestate_spec (v : Bytes) :
    parseNamestate v ≠ .ub ∧
    ∀ d, parseNamestate v = .ok d ↔ v.length ≤ maxDataSize ∧ NameState v d := by
  unfold parseNamestate
  by_cases h : v.length > maxDataSize
  · simp only [h, if_true, ne_eq, reduceCtorEq, not_false_eq_true, true_and, false_iff, not_and]
    intro d h'; omega
  · simp only [h, if_false]
    constructor
    · refine Out.bind_ne_ub (by simp) fun a _ => ?_
      refine Out.bind_ne_ub (by simp) fun a _ => ?_
      refine Out.bind_ne_ub (by simp) fun a _ => ?_
      refine Out.bind_ne_ub (by simp) fun a _ => ?_
      simp
    · intro d
      have h' : v.length ≤ maxDataSize := by omega
      simp only [h', true_and, Out.bind_eq_ok, Prod.exists, readU8_eq_ok, readBytes_eq_ok,
        readU16_eq_ok, Out.pure_eq, Out.ok.injEq, NameState]
      constructor
      · rintro ⟨n, s, ⟨rfl, hn⟩, name, s2, ⟨rfl, rfl⟩, m, s3, ⟨rfl, hm⟩, res, rest, ⟨rfl, rfl⟩, rfl⟩
        exact ⟨name, rest, hn, hm, by simp⟩
      · rintro ⟨name, rest, hn, hm, rfl⟩
        exact ⟨_, _, ⟨by rw [List.append_assoc, List.append_assoc, List.append_assoc], hn⟩, name, _,
          ⟨rfl, rfl⟩, _, _, ⟨rfl, hm⟩, d, rest, ⟨rfl, rfl⟩, rfl⟩

theorem verify_spec {H : Bytes → Bytes} {root key : Bytes} {p : Proof}
    (hk : key.length = 32) (wf : WF p) :
    verify H root key p ≠ .ub ∧
    ∀ a, verify H root key p = .ok a ↔
      (p.type = SHORT → ¬ Match (p.pfx.getD []) p.pfxSize key p.depth) ∧
      (p.type = COLLISION → p.nxKey ≠ some key) ∧
      p.depth = span p.nodes ∧ PathOk key 0 p.nodes ∧
      root = (nodeStrings H key (leafDigest H key p) 0 p.nodes).2 ∧
      ((claim p = none ∧ a = .absent) ∨ ∃ v d, claim p = some v ∧ a = .present d ∧ NameState v d) := by
  have hvs : p.valueSize ≤ maxDataSize := by
    by_cases h : p.type = EXISTS
    · exact (wf.exist h).1
    · rw [wf.novalue h]; decide
  have hg : ¬ (p.depth > 256 ∨ p.nodes.length > 256 ∨ p.valueSize > maxDataSize) := by
    have := wf.depth; have := wf.count; omega
  obtain ⟨l1, l2⟩ := leafHash_spec (H := H) hk wf
  obtain ⟨f1, f2⟩ := foldNodes_spec H (leaf := leafDigest H key p) hk (ns := p.nodes) wf.nodes wf.depth
  simp only [verify, hg, if_false]
  cases hl : leafHash H key p with
  | ub => exact absurd hl l1
  | err e =>
    refine ⟨by simp, fun a => ?_⟩
    simp only [Out.bind_err, reduceCtorEq, false_iff, not_and]
    intro h1 h2
    have := (l2 _).2 ⟨rfl, h1, h2⟩
    rw [hl] at this; cases this
  | ok lf =>
    obtain ⟨rfl, h1, h2⟩ := (l2 _).1 hl
    simp only [Out.bind_ok]
    cases hf : foldNodes H key p.nodes.reverse p.depth (leafDigest H key p) with
    | ub => exact absurd hf f1
    | err e =>
      refine ⟨by simp, fun a => ?_⟩
      simp only [Out.bind_err, reduceCtorEq, false_iff, not_and]
      intro _ _ h3 h4
      have := (f2 0 _).2 ⟨by omega, h4, rfl⟩
      rw [hf] at this; cases this
    | ok r =>
      obtain ⟨d, h⟩ := r
      obtain ⟨e1, e2, e3⟩ := (f2 d h).1 hf
      simp only [Out.bind_ok]
      by_cases hd : d = 0
      · subst hd
        simp only [ne_eq, not_true_eq_false, if_false]
        by_cases hr : h = root
        · subst hr
          have e1' : p.depth = span p.nodes := by omega
          simp only [ not_true_eq_false, if_false]
          by_cases ht : p.type = EXISTS
          · obtain ⟨h3, v, e4, e5⟩ := wf.exist ht
            have hv : (valueBuf p : Out Err Bytes) = .ok v := valueBuf_ok e4 e5
            obtain ⟨n1, n2⟩ := parseNamestate_spec v
            simp only [ht, if_true, hv, Out.bind_ok, claim, e4, Option.getD_some]
            cases hps : parseNamestate v with
            | ub => exact absurd hps n1
            | err e =>
              refine ⟨by simp, fun a => ?_⟩
              simp only [reduceCtorEq, false_iff, not_and, false_and, false_or, not_exists]
              intro _ _ _ _ _ v' d' hh _ hns
              simp only [Option.some.injEq] at hh; subst hh
              have := (n2 d').2 ⟨by omega, hns⟩
              rw [hps] at this; cases this
            | ok dd =>
              have hns := (n2 dd).1 hps
              refine ⟨by simp, fun a => ?_⟩
              simp only [Out.pure_eq, Out.ok.injEq, reduceCtorEq, false_and, false_or]
              constructor
              · rintro rfl
                rw [ht] at h1 h2
                exact ⟨h1, h2, e1', e2, e3, v, dd, rfl, rfl, hns.2⟩
              · rintro ⟨_, _, _, _, _, v', d', hh, rfl, hns'⟩
                simp only [Option.some.injEq] at hh; subst hh
                have := (n2 d').2 ⟨by omega, hns'⟩
                rw [hps] at this; cases this; rfl
          · simp only [ht, if_false, Out.pure_eq, claim]
            refine ⟨by simp, fun a => ?_⟩
            simp only [Out.ok.injEq, true_and, reduceCtorEq, false_and, exists_false, or_false]
            constructor
            · rintro rfl; exact ⟨h1, h2, e1', e2, e3, rfl⟩
            · intro h; exact h.2.2.2.2.2.symm
        · simp only [hr, not_false_eq_true, if_true]
          refine ⟨by simp, fun a => ?_⟩
          simp only [reduceCtorEq, false_iff, not_and]
          intro _ _ _ _ hroot
          exact absurd (by rw [e3, hroot]) hr
      · simp only [ne_eq, hd, not_false_eq_true, if_true]
        refine ⟨by simp, fun a => ?_⟩
        simp only [reduceCtorEq, false_iff, not_and]
        intro _ _ h3; omega

theorem ev_of_verify {H : Bytes → Bytes} (hlen : ∀ x, (H x).length = 32) {root key : Bytes} {p : Proof}
    {a : Answer} (hk : key.length = 32) (wf : WF p) (h : verify H root key p = .ok a) :
    ∃ v, Ev H key 0 root (hashed H key p) v ∧
      ((v = none ∧ a = .absent) ∨ ∃ w d, v = some w ∧ a = .present d ∧ NameState w d) := by
  obtain ⟨h1, h2, h3, h4, rfl, h6⟩ := ((verify_spec hk wf).2 a).1 h
  refine ⟨claim p, ?_, h6⟩
  unfold hashed
  refine ev_nodes hlen (leafDigest_length hlen key p) wf.nodes h4 ?_
  rw [Nat.zero_add, ← h3]
  exact ev_leaf wf h1 h2

theorem NameState.unique {v d d' : Bytes} (h : NameState v d) (h' : NameState v d') : d = d' := by
  obtain ⟨n, r, hn, hd, rfl⟩ := h
  obtain ⟨n', r', hn', hd', h⟩ := h'
  simp only [List.append_assoc] at h
  obtain ⟨e1, h⟩ := List.append_inj h (by simp)
  have := congrArg leNat e1
  rw [leNat_leBytes_of_lt (by omega), leNat_leBytes_of_lt (by omega)] at this
  obtain ⟨_, h⟩ := List.append_inj h this
  obtain ⟨e1, h⟩ := List.append_inj h (by simp)
  have := congrArg leNat e1
  rw [leNat_leBytes_of_lt (by omega), leNat_leBytes_of_lt (by omega)] at this
  exact (List.append_inj h this).1

end Verif.Proof
