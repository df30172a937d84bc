import Verif.Spec.PeerList
namespace Verif.PeerList
open Verif.Spec.PeerList

variable {κ : Type} [DecidableEq κ]

omit [DecidableEq κ] in
theorem linked_congr {h h' : Nat → Option (Node κ)} {l : List (Nat × κ)} :
    ∀ {q : Option Nat}, Linked h q l → (∀ i ∈ l.map (·.1), h' i = h i) → Linked h' q l := by
  induction l with
  | nil => intro q hl _; exact hl
  | cons x l ih =>
    obtain ⟨i, a⟩ := x
    intro q ⟨h1, n, h2, h3, h4, h5⟩ hc
    exact ⟨h1, n, by rw [hc i (by simp), h2], h3, h4, ih h5 fun j hj => hc j (by simp at hj ⊢; exact Or.inr hj)⟩

omit [DecidableEq κ] in
theorem linked_head {h : Nat → Option (Node κ)} {l : List (Nat × κ)} {q : Option Nat} (hl : Linked h q l) :
    q = l.head?.map (·.1) := by
  cases l with
  | nil => exact hl
  | cons x l => exact hl.1

omit [DecidableEq κ] in
theorem linked_mem {h : Nat → Option (Node κ)} {l : List (Nat × κ)} :
    ∀ {q : Option Nat}, Linked h q l → ∀ {i a}, (i, a) ∈ l → ∃ n, h i = some n ∧ n.addr = a ∧ n.closing = false := by
  induction l with
  | nil => intro q _ i a hm; cases hm
  | cons x l ih =>
    obtain ⟨j, b⟩ := x
    intro q ⟨_, n, h2, h3, h4, h5⟩ i a hm
    rcases List.mem_cons.1 hm with he | hm
    · obtain ⟨rfl, rfl⟩ := Prod.mk.inj he
      exact ⟨n, h2, h3, h4⟩
    · exact ih h5 hm

omit [DecidableEq κ] in
theorem linked_drop {h : Nat → Option (Node κ)} {a b : List (Nat × κ)} :
    ∀ {q : Option Nat}, Linked h q (a ++ b) → Linked h (b.head?.map (·.1)) b := by
  induction a with
  | nil => intro q hl; rw [List.nil_append] at hl; rw [← linked_head hl]; exact hl
  | cons x a ih =>
    obtain ⟨i, k⟩ := x
    intro q ⟨_, n, _, _, _, h5⟩
    exact ih h5

omit [DecidableEq κ] in
/-- Appending one peer after the last. -/
theorem linked_snoc {h h' : Nat → Option (Node κ)} {l : List (Nat × κ)} {t p : Nat} {k a : κ} {nt np : Node κ} :
    ∀ {q : Option Nat}, Linked h q l → l.getLast? = some (t, k) → (l.map (·.1)).Nodup → p ∉ l.map (·.1) →
      h t = some nt → h' t = some { nt with next := some p } → h' p = some np → np.addr = a → np.closing = false → np.next = none →
      (∀ i, i ≠ t → i ≠ p → h' i = h i) → Linked h' q (l ++ [(p, a)]) := by
  induction l with
  | nil => intro q _ hc; cases hc
  | cons x l ih =>
    obtain ⟨i, b⟩ := x
    intro q ⟨h1, n, h2, h3, h4, h5⟩ hlast hn hp ht ht' hp' ha hcl hnext hother
    rw [List.map_cons, List.nodup_cons] at hn
    rw [List.map_cons, List.mem_cons, not_or] at hp
    cases l with
    | nil =>
      simp only [List.getLast?_singleton, Option.some.injEq, Prod.mk.injEq] at hlast
      obtain ⟨rfl, rfl⟩ := hlast
      rw [h2] at ht
      obtain rfl := Option.some.inj ht
      refine ⟨h1, _, ht', h3, h4, rfl, np, hp', ha, hcl, ?_⟩
      exact hnext
    | cons y l =>
      have hlast' : (y :: l).getLast? = some (t, k) := by rw [← hlast]; simp [List.getLast?_cons_cons]
      have hmem : (t, k) ∈ y :: l := List.mem_of_getLast? hlast'
      have hit : i ≠ t := by
        intro he
        subst he
        exact hn.1 (List.mem_map.2 ⟨_, hmem, rfl⟩)
      refine ⟨h1, n, by rw [hother i hit (fun he => hp.1 he.symm), h2], h3, h4, ?_⟩
      exact ih h5 hlast' hn.2 hp.2 ht ht' hp' ha hcl hnext hother

omit [DecidableEq κ] in
/-- Unlinking the peer after `r`. -/
theorem linked_skip {h h' : Nat → Option (Node κ)} {l1 l2 : List (Nat × κ)} {r p : Nat} {b a : κ} {nr np : Node κ} :
    ∀ {q : Option Nat}, Linked h q (l1 ++ (r, b) :: (p, a) :: l2) → ((l1 ++ (r, b) :: (p, a) :: l2).map (·.1)).Nodup →
      h r = some nr → h p = some np → h' r = some { nr with next := np.next } → (∀ i, i ≠ r → h' i = h i) →
      Linked h' q (l1 ++ (r, b) :: l2) := by
  induction l1 with
  | nil =>
    intro q hl hn hr hp hr' hother
    obtain ⟨h1, n, h2, h3, h4, h5, m, h6, h7, h8, h9⟩ := hl
    rw [h2] at hr
    obtain rfl := Option.some.inj hr
    rw [h6] at hp
    obtain rfl := Option.some.inj hp
    refine ⟨h1, _, hr', h3, h4, linked_congr h9 fun i hi => hother i ?_⟩
    simp only [List.nil_append, List.map_cons, List.nodup_cons, List.mem_cons, not_or] at hn
    intro he
    subst he
    exact hn.1.2 hi
  | cons x l1 ih =>
    obtain ⟨i, c⟩ := x
    intro q ⟨h1, n, h2, h3, h4, h5⟩ hn hr hp hr' hother
    rw [List.cons_append, List.map_cons, List.nodup_cons] at hn
    have hir : i ≠ r := by
      intro he
      subst he
      exact hn.1 (by simp)
    exact ⟨h1, n, by rw [hother i hir, h2], h3, h4, ih h5 hn.2 hr hp hr' hother⟩

theorem findPrev_none {s : State κ} {p : Nat} {l : List (Nat × κ)} :
    ∀ {q : Option Nat} {n : Nat}, Linked s.heap q l → p ∉ (l.map (·.1)).tail → l.length < n → findPrev s p n q = .ok none := by
  induction l with
  | nil =>
    intro q n hl _ hn
    cases n with
    | zero => cases hn
    | succ n => rw [show q = none from hl]; rfl
  | cons x l ih =>
    obtain ⟨i, a⟩ := x
    intro q n ⟨h1, m, h2, _, _, h5⟩ hp hn
    cases n with
    | zero => cases hn
    | succ n =>
      rw [h1]
      unfold findPrev deref
      rw [h2]
      have hnext : m.next ≠ some p := by
        intro hc
        rw [linked_head h5] at hc
        cases l with
        | nil => cases hc
        | cons y l =>
          have := Option.some.inj hc
          apply hp
          simp only [List.map_cons, List.tail_cons, List.mem_cons]
          exact Or.inl this.symm
      show (if m.next = some p then _ else _) = _
      rw [if_neg hnext]
      refine ih h5 ?_ (by simpa using hn)
      intro hc
      apply hp
      rw [List.map_cons, List.tail_cons]
      exact List.mem_of_mem_tail hc

theorem findPrev_some {s : State κ} {p r : Nat} {b a : κ} {l1 l2 : List (Nat × κ)} :
    ∀ {q : Option Nat} {n : Nat}, Linked s.heap q (l1 ++ (r, b) :: (p, a) :: l2) → ((l1 ++ (r, b) :: (p, a) :: l2).map (·.1)).Nodup →
      l1.length < n → findPrev s p n q = .ok (some r) := by
  induction l1 with
  | nil =>
    intro q n ⟨h1, m, h2, _, _, h5⟩ _ hn
    cases n with
    | zero => cases hn
    | succ n =>
      rw [h1]
      unfold findPrev deref
      rw [h2]
      show (if m.next = some p then _ else _) = _
      rw [if_pos (by rw [linked_head h5]; rfl)]
  | cons x l1 ih =>
    obtain ⟨i, c⟩ := x
    intro q n ⟨h1, m, h2, _, _, h5⟩ hd hn
    rw [List.cons_append, List.map_cons, List.nodup_cons] at hd
    cases n with
    | zero => cases hn
    | succ n =>
      rw [h1]
      unfold findPrev deref
      rw [h2]
      have hnext : m.next ≠ some p := by
        intro hc
        rw [linked_head h5] at hc
        cases l1 with
        | nil =>
          have := Option.some.inj hc
          have hd2 := hd.2
          simp only [List.nil_append, List.map_cons, List.nodup_cons, List.mem_cons, not_or] at hd2
          exact hd2.1.1 this
        | cons y l1 =>
          have : y.1 = p := Option.some.inj hc
          have hd2 := hd.2
          rw [List.cons_append, List.map_cons, List.nodup_cons] at hd2
          apply hd2.1
          rw [this]; simp
      show (if m.next = some p then _ else _) = _
      rw [if_neg hnext]
      exact ih h5 hd.2 (by simpa using hn)

/-! ### The invariant -/

/-- Consistent bookkeeping, with nothing allocated that is still to be allocated. -/
structure Inv (s : State κ) (l : List (Nat × κ)) : Prop where
  cons : Consistent s l
  fresh : ∀ i, s.fresh ≤ i → s.heap i = none

theorem filter_split {l1 l2 : List (Nat × κ)} {p : Nat} {a : κ} (hn : ((l1 ++ (p, a) :: l2).map (·.1)).Nodup) :
    (l1 ++ (p, a) :: l2).filter (fun x => x.1 ≠ p) = l1 ++ l2 := by
  rw [List.map_append, List.map_cons, List.nodup_append] at hn
  obtain ⟨_, h2, h3⟩ := hn
  rw [List.nodup_cons] at h2
  rw [List.filter_append, List.filter_cons_of_neg (by simp), List.filter_eq_self.2, List.filter_eq_self.2]
  · intro x hx
    simp only [ne_eq, decide_eq_true_eq]
    rintro rfl
    exact h2.1 (List.mem_map.2 ⟨x, hx, rfl⟩)
  · intro x hx
    simp only [ne_eq, decide_eq_true_eq]
    exact h3 x.1 (List.mem_map.2 ⟨x, hx, rfl⟩) p (by simp)

theorem filter_absent {l : List (Nat × κ)} {p : Nat} (h : p ∉ l.map (·.1)) : l.filter (fun x => x.1 ≠ p) = l := by
  rw [List.filter_eq_self]
  intro x hx
  simp only [ne_eq, decide_eq_true_eq]
  rintro rfl
  exact h (List.mem_map.2 ⟨x, hx, rfl⟩)

theorem nodup_key_unique {l : List (Nat × κ)} (h : (l.map (·.2)).Nodup) {i j : Nat} {a : κ} (hi : (i, a) ∈ l) (hj : (j, a) ∈ l) : i = j := by
  induction l with
  | nil => cases hi
  | cons x l ih =>
    rw [List.map_cons, List.nodup_cons] at h
    rcases List.mem_cons.1 hi with e1 | m1
    · rcases List.mem_cons.1 hj with e2 | m2
      · rw [← e1] at e2; exact (Prod.mk.inj e2).1.symm
      · exact absurd (List.mem_map.2 ⟨_, m2, by rw [← e1]⟩) h.1
    · rcases List.mem_cons.1 hj with e2 | m2
      · exact absurd (List.mem_map.2 ⟨_, m1, by rw [← e2]⟩) h.1
      · exact ih h.2 m1 m2

theorem has_index {s : State κ} {l : List (Nat × κ)} (hi : ∀ a i, s.index.get a = some i ↔ (i, a) ∈ l) (a : κ) :
    s.index.has a = true ↔ a ∈ l.map (·.2) := by
  rw [AMap.has_iff, List.mem_map]
  constructor
  · rintro ⟨v, hv⟩; exact ⟨(v, a), (hi a v).1 hv, rfl⟩
  · rintro ⟨⟨v, b⟩, hv, rfl⟩; exact ⟨v, (hi _ v).2 hv⟩

/-- Dropping one address from the index. -/
theorem index_del {m : AMap κ Nat} {l1 l2 : List (Nat × κ)} {p : Nat} {a : κ}
    (hi : ∀ b i, m.get b = some i ↔ (i, b) ∈ l1 ++ (p, a) :: l2) (hk : ((l1 ++ (p, a) :: l2).map (·.2)).Nodup) :
    ∀ b i, (m.del a).get b = some i ↔ (i, b) ∈ l1 ++ l2 := by
  intro b i
  rw [AMap.get_del]
  have hkk : a ∉ (l1 ++ l2).map (·.2) := by
    rw [List.map_append, List.map_cons, List.nodup_append] at hk
    obtain ⟨_, h2, h3⟩ := hk
    rw [List.nodup_cons] at h2
    rw [List.map_append, List.mem_append]
    rintro (hc | hc)
    · exact h3 a hc a (by simp) rfl
    · exact h2.1 hc
  by_cases hab : a = b
  · subst hab
    rw [if_pos rfl]
    refine ⟨fun h => (by cases h), fun h => ?_⟩
    exact absurd (List.mem_map.2 ⟨_, h, rfl⟩) hkk
  · rw [if_neg hab, hi, List.mem_append, List.mem_append, List.mem_cons]
    constructor
    · rintro (h | h | h)
      · exact Or.inl h
      · exact absurd (Prod.mk.inj h).2.symm hab
      · exact Or.inr h
    · rintro (h | h)
      · exact Or.inl h
      · exact Or.inr (Or.inr h)

theorem push_ok {s : State κ} {l : List (Nat × κ)} {p : Nat} {n : Node κ} (hi : Consistent s l) (hp : s.heap p = some n)
    (hpl : p ∉ l.map (·.1)) (ha : n.addr ∉ l.map (·.2)) (hcl : n.closing = false) (hsz : l.length < s.max) :
    ∃ s', push s p = .ok s' ∧ Consistent s' (l ++ [(p, n.addr)]) ∧ s'.fresh = s.fresh ∧ s'.max = s.max ∧
      (∀ i, s'.heap i = none ↔ s.heap i = none) := by
  have hidx : ∀ (m : AMap κ Nat), m = s.index → m.has n.addr = false := by
    intro m hm
    subst hm
    cases hx : s.index.has n.addr with
    | false => rfl
    | true => exact absurd ((has_index hi.index n.addr).1 hx) ha
  have hindex : ∀ b i, (s.index.set n.addr p).get b = some i ↔ (i, b) ∈ l ++ [(p, n.addr)] := by
    intro b i
    rw [AMap.get_set, List.mem_append, List.mem_singleton, Prod.mk.injEq]
    by_cases hb : n.addr = b
    · rw [if_pos hb]
      constructor
      · intro h; exact Or.inr ⟨(Option.some.inj h).symm, hb.symm⟩
      · rintro (h | h)
        · exact absurd (List.mem_map.2 ⟨_, h, hb.symm⟩) ha
        · rw [h.1]
    · rw [if_neg hb, hi.index]
      constructor
      · intro h; exact Or.inl h
      · rintro (h | h)
        · exact h
        · exact absurd h.2.symm hb
  have hids : ((l ++ [(p, n.addr)]).map (·.1)).Nodup := by
    rw [List.map_append, List.nodup_append]
    refine ⟨hi.ids, by simp, ?_⟩
    intro a haa b hb
    simp only [List.map_cons, List.map_nil, List.mem_singleton] at hb
    rintro rfl
    subst hb
    exact hpl haa
  have haddrs : ((l ++ [(p, n.addr)]).map (·.2)).Nodup := by
    rw [List.map_append, List.nodup_append]
    refine ⟨hi.addrs, by simp, ?_⟩
    intro a haa b hb
    simp only [List.map_cons, List.map_nil, List.mem_singleton] at hb
    rintro rfl
    subst hb
    exact ha haa
  have htail : (some p : Option Nat) = ((l ++ [(p, n.addr)]).getLast?).map (·.1) := by simp
  unfold push setNext deref
  rw [hp]
  simp only [Out.bind]
  cases hl : l.getLast? with
  | none =>
    have hnil : l = [] := List.getLast?_eq_none_iff.1 hl
    subst hnil
    have ht : s.tail = none := hi.tail
    have hh : s.head = none := hi.linked
    simp only [linkTail, store, ht, hh]
    simp only [if_true]
    rw [hidx s.index rfl]
    refine ⟨_, rfl, ⟨?_, htail, ?_, hids, haddrs, hindex, by simp; omega⟩, rfl, rfl, ?_⟩
    · exact ⟨rfl, _, if_pos rfl, rfl, hcl, rfl⟩
    · simp [hi.size]
    · intro i
      dsimp only
      by_cases hip : i = p
      · subst hip; rw [if_pos rfl, hp]; simp
      · rw [if_neg hip]
  | some x =>
    obtain ⟨t, k⟩ := x
    have hmem : (t, k) ∈ l := List.mem_of_getLast? hl
    have htp : t ≠ p := by
      intro he
      subst he
      exact hpl (List.mem_map.2 ⟨_, hmem, rfl⟩)
    obtain ⟨nt, hnt, _, _⟩ := linked_mem hi.linked hmem
    have ht : s.tail = some t := by rw [hi.tail, hl]; rfl
    have hh : ∃ h, s.head = some h := by
      rw [linked_head hi.linked]
      cases l with
      | nil => cases hmem
      | cons y l => exact ⟨y.1, rfl⟩
    obtain ⟨h, hh⟩ := hh
    simp only [linkTail, store, ht, hh, setNext, deref]
    simp only [if_neg htp, hnt, Out.bind]
    simp only [if_neg (Ne.symm htp), if_true]
    rw [hidx s.index rfl]
    refine ⟨_, rfl, ⟨?_, htail, ?_, hids, haddrs, hindex, by simp; omega⟩, rfl, rfl, ?_⟩
    · have hlk := hi.linked
      rw [hh] at hlk
      refine linked_snoc (np := { n with next := none }) hlk hl hi.ids hpl hnt ?_ ?_ rfl hcl rfl ?_
      · simp
      · simp [Ne.symm htp]
      · intro i h1 h2; simp [h1, h2]
    · simp [hi.size]
    · intro i
      dsimp only
      by_cases hit : i = t
      · subst hit; rw [if_pos rfl, hnt]; simp
      · rw [if_neg hit]
        by_cases hip : i = p
        · subst hip; rw [if_pos rfl, hp]; simp
        · rw [if_neg hip]

/-- Removing an unlisted peer does nothing. -/
theorem remove_absent {s : State κ} {l : List (Nat × κ)} {p : Nat} (hl : Linked s.heap s.head l) (hsz : s.size = l.length)
    (hp : p ∉ l.map (·.1)) : remove s p = .ok s := by
  unfold remove
  cases hh : s.head with
  | none => rfl
  | some h =>
    rw [hh] at hl
    have hhp : h ≠ p := by
      intro he
      subst he
      cases l with
      | nil => cases hl
      | cons x l => exact hp (by rw [Option.some.inj hl.1]; simp)
    dsimp only
    rw [if_neg hhp, findPrev_none hl (fun hc => hp (List.mem_of_mem_tail hc)) (by omega)]
    rfl

/-- Removing a listed peer, whether or not it is marked as being closed. -/
theorem remove_ok {s : State κ} {l1 l2 : List (Nat × κ)} {p : Nat} {a : κ} {n : Node κ}
    (hi : Consistent s (l1 ++ (p, a) :: l2)) (hp : s.heap p = some n) (c : Bool) :
    ∃ s', remove (store s p { n with closing := c }) p = .ok s' ∧ Consistent s' (l1 ++ l2) ∧ s'.fresh = s.fresh ∧ s'.max = s.max ∧
      (∀ i, s'.heap i = none ↔ s.heap i = none) := by
  have hna : n.addr = a := by
    obtain ⟨m, h1, h2, _⟩ := linked_mem hi.linked (i := p) (a := a) (by simp)
    rw [hp] at h1
    rw [Option.some.inj h1]; exact h2
  have hin : s.index.has a = true := (has_index hi.index a).2 (by simp)
  have hids : ((l1 ++ l2).map (·.1)).Nodup := by
    refine hi.ids.sublist (List.Sublist.map _ ?_)
    exact List.Sublist.append (List.Sublist.refl _) (List.sublist_cons_self _ _)
  have haddrs : ((l1 ++ l2).map (·.2)).Nodup := by
    refine hi.addrs.sublist (List.Sublist.map _ ?_)
    exact List.Sublist.append (List.Sublist.refl _) (List.sublist_cons_self _ _)
  have hsize : s.size = l1.length + l2.length + 1 := by rw [hi.size]; simp; omega
  have hmax : (l1 ++ l2).length ≤ s.max := by
    have := hi.max
    simp only [List.length_append, List.length_cons] at this ⊢
    omega
  have hindex := index_del hi.index hi.addrs
  rcases List.eq_nil_or_concat l1 with hnil | ⟨l0, x, hcat⟩
  · subst hnil
    obtain ⟨h1, m, h2, h3, h4, h5⟩ := hi.linked
    rw [hp] at h2
    obtain rfl := Option.some.inj h2
    have hpl : p ∉ l2.map (·.1) := by
      have := hi.ids
      rw [List.nil_append, List.map_cons, List.nodup_cons] at this
      exact this.1
    unfold remove
    simp only [store, h1]
    simp only [if_true, removeHead, deref, setNext, store, Out.bind, unindex]
    simp only [hna]
    rw [if_pos (by rw [hsize]; omega), if_pos hin]
    refine ⟨_, rfl, ⟨?_, ?_, ?_, hids, haddrs, hindex, hmax⟩, rfl, rfl, ?_⟩
    · refine linked_congr h5 fun i hil => ?_
      have hip : i ≠ p := by rintro rfl; exact hpl hil
      simp [hip]
    · dsimp only
      rw [hi.tail]
      cases l2 with
      | nil => simp
      | cons y l2 =>
        rw [List.nil_append, List.getLast?_cons_cons]
        rw [if_neg]; · rfl
        intro hc
        obtain ⟨z, hz, he⟩ := Option.map_eq_some_iff.1 hc
        exact hpl (List.mem_map.2 ⟨z, List.mem_of_getLast? hz, he⟩)
    · simp [hsize]
    · intro i
      dsimp only
      by_cases hip : i = p
      · subst hip; rw [if_pos rfl, hp]; simp
      · rw [if_neg hip, if_neg hip]
  · obtain ⟨r, b⟩ := x
    rw [List.concat_eq_append] at hcat
    subst hcat
    have hrew : l0 ++ [(r, b)] ++ (p, a) :: l2 = l0 ++ (r, b) :: (p, a) :: l2 := by simp
    have hrew2 : l0 ++ [(r, b)] ++ l2 = l0 ++ (r, b) :: l2 := by simp
    have hlk := hi.linked
    have hnd := hi.ids
    rw [hrew] at hlk hnd
    have hrp : r ≠ p := by
      have := hnd
      rw [List.map_append, List.nodup_append] at this
      have h2 := this.2.1
      simp only [List.map_cons, List.nodup_cons, List.mem_cons, not_or] at h2
      exact h2.1.1
    obtain ⟨nr, hnr, _, _⟩ := linked_mem hlk (i := r) (a := b) (by simp)
    obtain ⟨h, hh⟩ : ∃ h, s.head = some h := by
      rw [linked_head hlk]
      cases l0 with
      | nil => exact ⟨r, rfl⟩
      | cons y l0 => exact ⟨y.1, rfl⟩
    have hhp : h ≠ p := by
      rintro rfl
      rw [hh] at hlk
      cases l0 with
      | nil => exact hrp (Option.some.inj hlk.1).symm
      | cons y l0 =>
        have := Option.some.inj hlk.1
        rw [List.cons_append, List.map_cons, List.nodup_cons] at hnd
        exact hnd.1 (by rw [← this]; simp)
    -- the search ignores whether a peer is being closed
    have hfind : findPrev (store s p { n with closing := c }) p (s.size + 1) (some h) = .ok (some r) := by
      have heq : ∀ k q, findPrev (store s p { n with closing := c }) p k q = findPrev s p k q := by
        intro k
        induction k with
        | zero => intro q; rfl
        | succ k ih =>
          intro q
          cases q with
          | none => rfl
          | some q =>
            unfold findPrev deref store
            by_cases hqp : q = p
            · subst hqp
              simp only [if_true, hp, Out.bind]
              rw [← ih]; rfl
            · simp only [if_neg hqp]
              cases s.heap q with
              | none => rfl
              | some y =>
                simp only [Out.bind]
                rw [← ih]; rfl
      rw [heq]
      rw [hh] at hlk
      exact findPrev_some hlk hnd (by rw [hsize]; simp; omega)
    have hhs : (store s p { n with closing := c }).head = some h := hh
    have hss : (store s p { n with closing := c }).size = s.size := rfl
    unfold remove
    rw [hhs, hss]
    dsimp only
    rw [if_neg hhp, hfind]
    simp only [Out.bind, removeAfter, deref, store, setNext, if_true, if_neg hrp, hnr, unindex, if_neg (Ne.symm hrp), hna]
    rw [if_pos (by rw [hsize]; omega), if_pos hin]
    refine ⟨_, rfl, ⟨?_, ?_, ?_, hids, haddrs, hindex, hmax⟩, rfl, rfl, ?_⟩
    · rw [hrew2]
      have hpn : p ∉ (l0 ++ (r, b) :: l2).map (·.1) := by
        rw [List.map_append, List.nodup_append] at hnd
        obtain ⟨_, h2, h3⟩ := hnd
        rw [List.map_append, List.mem_append]
        rintro (hc | hc)
        · exact h3 p hc p (by simp) rfl
        · simp only [List.map_cons, List.nodup_cons, List.mem_cons] at h2 hc
          rcases hc with hc | hc
          · exact hrp hc.symm
          · exact h2.2.1 hc
      have hskip := linked_skip (h' := fun q => if q = r then some { nr with next := n.next } else s.heap q) hlk hnd hnr hp
        (if_pos rfl) (fun i hir => if_neg hir)
      refine linked_congr hskip fun i hil => ?_
      have hip : i ≠ p := by rintro rfl; exact hpn hil
      simp [hip]
    · dsimp only
      rw [hi.tail, hrew, hrew2]
      cases l2 with
      | nil => simp
      | cons y l2 =>
        have e1 : (l0 ++ (r, b) :: (p, a) :: y :: l2).getLast? = (y :: l2).getLast? := by
          simp [List.getLast?_append, List.getLast?_cons]
        have e2 : (l0 ++ (r, b) :: y :: l2).getLast? = (y :: l2).getLast? := by
          simp [List.getLast?_append, List.getLast?_cons]
        rw [e1, e2, if_neg]
        intro hc
        obtain ⟨z, hz, he⟩ := Option.map_eq_some_iff.1 hc
        have hzm := List.mem_of_getLast? hz
        rw [List.map_append, List.nodup_append] at hnd
        have h2 := hnd.2.1
        simp only [List.map_cons, List.nodup_cons] at h2
        exact h2.2.1 (by rw [← he]; exact List.mem_map.2 ⟨z, hzm, rfl⟩)
    · simp [hsize]; omega
    · intro i
      dsimp only
      by_cases hir : i = r
      · subst hir; rw [if_pos rfl, hnr]; simp
      · rw [if_neg hir]
        by_cases hip : i = p
        · subst hip; rw [if_pos rfl, hp]; simp
        · rw [if_neg hip]

omit [DecidableEq κ] in
theorem mem_split_ids {l : List (Nat × κ)} {p : Nat} (h : p ∈ l.map (·.1)) : ∃ l1 a l2, l = l1 ++ (p, a) :: l2 := by
  obtain ⟨⟨i, a⟩, hm, rfl⟩ := List.mem_map.1 h
  obtain ⟨l1, l2, rfl⟩ := List.append_of_mem hm
  exact ⟨l1, a, l2, rfl⟩

theorem destroy_ok {s : State κ} {l : List (Nat × κ)} {p : Nat} {n : Node κ} (hi : Inv s l) (hp : s.heap p = some n) :
    ∃ s', destroy s p = .ok s' ∧ Inv s' (l.filter fun x => x.1 ≠ p) ∧ s'.fresh = s.fresh ∧ s'.max = s.max := by
  unfold destroy deref
  rw [hp]
  simp only [Out.bind]
  by_cases hc : n.closing = true
  · rw [if_pos hc]
    have hpl : p ∉ l.map (·.1) := by
      intro hm0
      obtain ⟨⟨i, a⟩, hm, rfl⟩ := List.mem_map.1 hm0
      obtain ⟨m, h1, _, h3⟩ := linked_mem hi.cons.linked hm
      rw [hp] at h1
      rw [Option.some.inj h1, h3] at hc
      cases hc
    rw [filter_absent hpl]
    exact ⟨s, rfl, hi, rfl, rfl⟩
  · rw [if_neg hc]
    by_cases hm : p ∈ l.map (·.1)
    · obtain ⟨l1, a, l2, rfl⟩ := mem_split_ids hm
      obtain ⟨s', h1, h2, h3, h4, h5⟩ := remove_ok hi.cons hp true
      refine ⟨s', h1, ⟨by rw [filter_split hi.cons.ids]; exact h2, fun i hif => (h5 i).2 (hi.fresh i (by omega))⟩, h3, h4⟩
    · have hlk : Linked (store s p { n with closing := true }).heap (store s p { n with closing := true }).head l := by
        refine linked_congr hi.cons.linked fun i hil => ?_
        have : i ≠ p := by rintro rfl; exact hm hil
        simp [store, this]
      refine ⟨_, remove_absent hlk hi.cons.size hm, ⟨?_, ?_⟩, rfl, rfl⟩
      · rw [filter_absent hm]
        exact ⟨hlk, hi.cons.tail, hi.cons.size, hi.cons.ids, hi.cons.addrs, hi.cons.index, hi.cons.max⟩
      · intro i hif
        have := hi.fresh i hif
        have hip : i ≠ p := by rintro rfl; rw [hp] at this; cases this
        simp [store, hip, this]

theorem release_ok {s : State κ} {l : List (Nat × κ)} {p : Nat} {n : Node κ} (hi : Inv s l) (hp : s.heap p = some n)
    (hc : n.closing = true) : ∃ s', release s p = .ok s' ∧ Inv s' l ∧ s'.fresh = s.fresh ∧ s'.max = s.max := by
  unfold release deref
  rw [hp]
  simp only [Out.bind]
  refine ⟨_, rfl, ⟨⟨?_, hi.cons.tail, hi.cons.size, hi.cons.ids, hi.cons.addrs, hi.cons.index, hi.cons.max⟩, ?_⟩, rfl, rfl⟩
  · refine linked_congr hi.cons.linked fun i hil => ?_
    have : i ≠ p := by
      rintro rfl
      obtain ⟨⟨j, a⟩, hm, rfl⟩ := List.mem_map.1 hil
      obtain ⟨m, h1, _, h3⟩ := linked_mem hi.cons.linked hm
      rw [hp] at h1
      rw [Option.some.inj h1, h3] at hc
      cases hc
    simp [this]
  · intro i hif
    dsimp only
    split
    · rfl
    · exact hi.fresh i hif

theorem refill_ok {s : State κ} {l : List (Nat × κ)} (hi : Inv s l) (a : κ) (opens : Bool) :
    ∃ s', refill s a opens = .ok s' ∧ Inv s' (after s.max s.fresh l (.refill a opens)) ∧ s.fresh ≤ s'.fresh ∧ s'.max = s.max := by
  unfold refill after
  dsimp only
  rw [hi.cons.size]
  by_cases hsz : l.length < s.max
  · rw [if_pos hsz]
    by_cases hin : s.index.has a = true
    · rw [if_pos hin, if_neg (fun hc => hc.2.1 ((has_index hi.cons.index a).1 hin))]
      exact ⟨s, rfl, hi, Nat.le_refl _, rfl⟩
    · rw [if_neg hin]
      have ha : a ∉ l.map (·.2) := fun hc => hin ((has_index hi.cons.index a).2 hc)
      have hfl : s.fresh ∉ l.map (·.1) := by
        intro hm0
        obtain ⟨⟨j, b⟩, hm, he⟩ := List.mem_map.1 hm0
        obtain ⟨m, h1, _⟩ := linked_mem hi.cons.linked hm
        rw [show j = s.fresh from he, hi.fresh s.fresh (Nat.le_refl _)] at h1
        cases h1
      have hinv : Inv (alloc s a) l := by
        refine ⟨⟨?_, hi.cons.tail, hi.cons.size, hi.cons.ids, hi.cons.addrs, hi.cons.index, hi.cons.max⟩, ?_⟩
        · refine linked_congr hi.cons.linked fun i hil => ?_
          have : i ≠ s.fresh := by rintro rfl; exact hfl hil
          simp [alloc, this]
        · intro i hif
          have h1 : s.fresh + 1 ≤ i := hif
          have : i ≠ s.fresh := by omega
          simp only [alloc, this, if_false]
          exact hi.fresh i (by omega)
      have hheap : (alloc s a).heap s.fresh = some { addr := a, next := none, closing := false } := if_pos rfl
      cases opens with
      | true =>
        rw [if_pos rfl, if_pos ⟨hsz, ha, rfl⟩]
        obtain ⟨s', h1, h2, h3, h4, h5⟩ := push_ok hinv.cons hheap hfl ha rfl hsz
        refine ⟨s', h1, ⟨h2, fun i hif => (h5 i).2 (hinv.fresh i (by omega))⟩, ?_, h4⟩
        rw [h3]; exact Nat.le_succ _
      | false =>
        rw [if_neg (by decide), if_neg (fun hc => by cases hc.2.2)]
        obtain ⟨s', h1, h2, h3, h4⟩ := destroy_ok hinv hheap
        rw [filter_absent hfl] at h2
        refine ⟨s', h1, h2, ?_, h4⟩
        rw [h3]; exact Nat.le_succ _
  · rw [if_neg hsz, if_neg (fun hc => hsz hc.1)]
    exact ⟨s, rfl, hi, Nat.le_refl _, rfl⟩

/-- The timer visits every peer once, in order, whichever it destroys on the way. -/
theorem sweep_ok (kill : Nat → Bool) (rem : List (Nat × κ)) :
    ∀ (done : List (Nat × κ)) (s : State κ) (n : Nat), Inv s (done ++ rem) → rem.length < n →
      ∃ s', sweep kill n s (rem.head?.map (·.1)) = .ok (s', rem.map (·.1)) ∧
        Inv s' (done ++ rem.filter fun x => !kill x.1) ∧ s'.fresh = s.fresh ∧ s'.max = s.max := by
  induction rem with
  | nil =>
    intro done s n hi hn
    cases n with
    | zero => cases hn
    | succ n => exact ⟨s, rfl, by simpa using hi, rfl, rfl⟩
  | cons x rem ih =>
    obtain ⟨p, a⟩ := x
    intro done s n hi hn
    cases n with
    | zero => cases hn
    | succ n =>
      have hlk := linked_drop hi.cons.linked
      obtain ⟨_, m, h2, h3, h4, h5⟩ := hlk
      have hnext := linked_head h5
      show ∃ s', sweep kill (n + 1) s (some p) = _ ∧ _
      unfold sweep
      have hd : deref s p = .ok m := by unfold deref; rw [h2]
      rw [hd]
      simp only [Out.bind]
      by_cases hk : kill p = true
      · obtain ⟨s1, k1, k2, k3, k4⟩ := destroy_ok hi h2
        rw [filter_split hi.cons.ids] at k2
        obtain ⟨s2, j1, j2, j3, j4⟩ := ih done s1 n k2 (by simpa using hn)
        rw [if_pos hk, k1]
        dsimp only
        rw [hnext, j1]
        refine ⟨s2, rfl, ?_, by rw [j3, k3], by rw [j4, k4]⟩
        rw [List.filter_cons_of_neg (by simp [hk])]
        exact j2
      · have hi' : Inv s ((done ++ [(p, a)]) ++ rem) := by rw [List.append_assoc]; exact hi
        obtain ⟨s2, j1, j2, j3, j4⟩ := ih _ s n hi' (by simpa using hn)
        rw [if_neg hk]
        dsimp only
        rw [hnext, j1]
        refine ⟨s2, rfl, ?_, j3, j4⟩
        rw [List.filter_cons_of_pos (by simp [hk])]
        rw [List.append_assoc] at j2
        exact j2

theorem step_ok {s : State κ} {l : List (Nat × κ)} (hi : Inv s l) (e : Ev κ) :
    ∃ s', step s e = .ok s' ∧ Inv s' (after s.max s.fresh l e) ∧ s.fresh ≤ s'.fresh ∧ s'.max = s.max := by
  cases e with
  | refill a b => exact refill_ok hi a b
  | destroy p =>
    unfold step after
    dsimp only
    cases hp : s.heap p with
    | none =>
      refine ⟨s, rfl, ?_, Nat.le_refl _, rfl⟩
      rw [filter_absent]
      · exact hi
      · intro hm0
        obtain ⟨⟨j, b⟩, hm, rfl⟩ := List.mem_map.1 hm0
        obtain ⟨m, h1, _⟩ := linked_mem hi.cons.linked hm
        rw [hp] at h1; cases h1
    | some n =>
      obtain ⟨s', h1, h2, h3, h4⟩ := destroy_ok hi hp
      exact ⟨s', h1, h2, by rw [h3]; exact Nat.le_refl _, h4⟩
  | release p =>
    unfold step after
    dsimp only
    cases hp : s.heap p with
    | none => exact ⟨s, rfl, hi, Nat.le_refl _, rfl⟩
    | some n =>
      dsimp only
      by_cases hc : n.closing = true
      · rw [if_pos hc]
        obtain ⟨s', h1, h2, h3, h4⟩ := release_ok hi hp hc
        exact ⟨s', h1, h2, by rw [h3]; exact Nat.le_refl _, h4⟩
      · rw [if_neg hc]
        exact ⟨s, rfl, hi, Nat.le_refl _, rfl⟩
  | timer kill =>
    unfold step after
    dsimp only
    have := sweep_ok kill l [] s (s.size + 1) hi (by rw [hi.cons.size]; omega)
    obtain ⟨s', h1, h2, h3, h4⟩ := this
    rw [linked_head hi.cons.linked, h1]
    exact ⟨s', rfl, h2, by rw [h3]; exact Nat.le_refl _, h4⟩

theorem run_ok {s : State κ} {l : List (Nat × κ)} (hi : Inv s l) (es : List (Ev κ)) :
    ∃ s' l', run s es = .ok s' ∧ Inv s' l' ∧ s'.max = s.max := by
  induction es generalizing s l with
  | nil => exact ⟨s, l, rfl, hi, rfl⟩
  | cons e es ih =>
    obtain ⟨s1, h1, h2, _, h4⟩ := step_ok hi e
    obtain ⟨s2, l2, k1, k2, k3⟩ := ih h2
    refine ⟨s2, l2, ?_, k2, by rw [k3, h4]⟩
    unfold run
    rw [h1]; exact k1

theorem init_ok (max : Nat) : Inv (init max : State κ) [] :=
  ⟨⟨rfl, rfl, rfl, List.Pairwise.nil, List.Pairwise.nil, fun a i => ⟨fun h => (by cases h), fun h => (by cases h)⟩, Nat.zero_le _⟩,
    fun _ _ => rfl⟩

end Verif.PeerList
