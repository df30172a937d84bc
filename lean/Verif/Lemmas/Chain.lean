import Verif.Lemmas.ChainPath
/-
The invariant of the header chain and its preservation by hsk_chain_add.
-/
namespace Verif.Chain
open Verif.Header Verif.Spec Verif.Spec.Chain

/-- What is assumed of the network constants. -/
structure ParamsOK (P : Params) : Prop where
  limit : P.limit.length = 32
  bits : Difficulty.exponent P.bits ≤ 34

/-- `trusted` are the start blocks, `roots` the parents named by the lowest ones,
`base` the height index below the start of the main chain. -/
structure Inv (P : Params) (H : Hdr → Bytes) (trusted : Block → Prop) (roots : List Bytes)
    (base : Nat → Option Entry) (s : State) : Prop where
  key : ∀ k e, AMap.get s.hashes k = some e →
    e.hash = k ∧ H e.hdr = k ∧ e.work.length = 32 ∧ e.hdr.time < 2 ^ 63
  path : ∀ k e, AMap.get s.hashes k = some e →
    ∃ l, Path s.hashes e l ∧ ValidChain (rules P) trusted (l.map blk)
  root : ∀ k e, AMap.get s.hashes k = some e → AMap.get s.hashes e.hdr.prevBlock = none →
    e.hdr.prevBlock ∈ roots
  tip : AMap.get s.hashes s.tip.hash = some s.tip
  height : s.height = s.tip.height
  best : ∀ k e, AMap.get s.hashes k = some e → beNat e.work ≤ beNat s.tip.work
  index : ∃ l r, Path s.hashes s.tip l ∧ l.getLast? = some r ∧
    ∀ n, AMap.get s.heights n = if r.height ≤ n then l.find? (fun x => x.height = n) else base n
  orphan : ∀ k o, AMap.get s.orphans k = some o →
    o.hash = k ∧ H o.hdr = k ∧ verifyPowHash o.hdr.bits o.hash = .ok () ∧ o.hdr.time < 2 ^ 63 ∧
    AMap.get s.hashes k = none ∧ k ∉ roots
  prevs : ∀ k o, AMap.get s.prevs k = some o →
    o.hdr.prevBlock = k ∧ AMap.get s.orphans o.hash = some o

variable {P : Params} {H : Hdr → Bytes} {trusted : Block → Prop} {roots : List Bytes}
  {base : Nat → Option Entry} {s : State}

theorem validChain_steps {R : Rules} (l : List Entry) (h : ValidChain R trusted (l.map blk)) : Steps l := by
  induction l with
  | nil => intro i a b ha; simp at ha
  | cons e l ih =>
    cases l with
    | nil => intro i a b ha hb; simp at hb
    | cons p l =>
      have hl : Linked (blk e) (blk p) ∧ ValidChain R trusted ((p :: l).map blk) := by
        simp only [List.map_cons] at h ⊢
        cases h with
        | start _ h1 h2 => exact ⟨h1, h2⟩
        | next h1 h2 => exact ⟨h1.linked, h2⟩
      intro i a b ha hb
      cases i with
      | zero =>
        simp at ha hb
        subst ha; subst hb
        exact hl.1.2
      | succ i => exact ih hl.2 i a b (by simpa using ha) (by simpa using hb)

/-- Members of a stored entry's path are stored. -/
theorem Inv.path_mem (hi : Inv P H trusted roots base s) {k : Bytes} {e : Entry} {l : List Entry}
    (he : AMap.get s.hashes k = some e) (hp : Path s.hashes e l) :
    ∀ x ∈ l, AMap.get s.hashes x.hash = some x := by
  intro x hx
  rcases hp.stored x hx with rfl | ⟨k', hk⟩
  · rw [(hi.key _ _ he).1]; exact he
  · rw [(hi.key _ _ hk).1]; exact hk

theorem Inv.steps (hi : Inv P H trusted roots base s) {k : Bytes} {e : Entry} {l : List Entry}
    (he : AMap.get s.hashes k = some e) (hp : Path s.hashes e l) : Steps l := by
  obtain ⟨l', h1, h2⟩ := hi.path k e he
  rw [hp.unique h1]
  exact validChain_steps l' h2

/-- A header ready to be placed on top of `prev`. -/
structure Fresh (P : Params) (H : Hdr → Bytes) (roots : List Bytes) (s : State) (prev e : Entry) : Prop where
  stored : AMap.get s.hashes prev.hash = some prev
  link : e.hdr.prevBlock = prev.hash
  height : e.height = prev.height + 1
  fresh : AMap.get s.hashes e.hash = none
  noOrphan : AMap.get s.orphans e.hash = none
  noRoot : e.hash ∉ roots
  good : H e.hdr = e.hash ∧ e.work.length = 32 ∧ e.hdr.time < 2 ^ 63
  valid : ∀ l, Path s.hashes prev (prev :: l) → Extends (rules P) (blk e) (blk prev) (l.map blk)

theorem maybeSync_fields (P : Params) (now : Int) (s : State) :
    (maybeSync P now s).hashes = s.hashes ∧ (maybeSync P now s).heights = s.heights ∧
    (maybeSync P now s).orphans = s.orphans ∧ (maybeSync P now s).prevs = s.prevs ∧
    (maybeSync P now s).tip = s.tip ∧ (maybeSync P now s).height = s.height := by
  unfold maybeSync
  split
  · simp
  · split
    · simp
    · split <;> simp

theorem Inv.congr {s s' : State} (hi : Inv P H trusted roots base s) (h1 : s'.hashes = s.hashes)
    (h2 : s'.heights = s.heights) (h3 : s'.orphans = s.orphans) (h4 : s'.prevs = s.prevs)
    (h5 : s'.tip = s.tip) (h6 : s'.height = s.height) : Inv P H trusted roots base s' := by
  constructor
  · rw [h1]; exact hi.key
  · rw [h1]; exact hi.path
  · rw [h1]; exact hi.root
  · rw [h1, h5]; exact hi.tip
  · rw [h6, h5]; exact hi.height
  · rw [h1, h5]; exact hi.best
  · rw [h1, h2, h5]; exact hi.index
  · rw [h1, h3]; exact hi.orphan
  · rw [h3, h4]; exact hi.prevs

/-- The part of the invariant that only concerns the set of stored headers. -/
theorem Inv.grow (hi : Inv P H trusted roots base s) {prev e : Entry} (hf : Fresh P H roots s prev e) :
    let m := AMap.set s.hashes e.hash e
    (∀ k x l, AMap.get s.hashes k = some x → Path s.hashes x l → Path m x l) ∧
    (∀ l, Path s.hashes e l → Path m e l) ∧
    (∃ l, Path s.hashes e (e :: prev :: l) ∧ Path s.hashes prev (prev :: l) ∧
      ValidChain (rules P) trusted ((e :: prev :: l).map blk)) ∧
    (∀ k x, AMap.get m k = some x → x.hash = k ∧ H x.hdr = k ∧ x.work.length = 32 ∧ x.hdr.time < 2 ^ 63) ∧
    (∀ k x, AMap.get m k = some x → ∃ l, Path m x l ∧ ValidChain (rules P) trusted (l.map blk)) ∧
    (∀ k x, AMap.get m k = some x → AMap.get m x.hdr.prevBlock = none → x.hdr.prevBlock ∈ roots) := by
  intro m
  have rootne : ∀ k x, AMap.get s.hashes k = some x → AMap.get s.hashes x.hdr.prevBlock = none →
      x.hdr.prevBlock ≠ e.hash := by
    intro k x hx hn heq
    exact hf.noRoot (heq ▸ hi.root k x hx hn)
  have hgrow : ∀ k x l, AMap.get s.hashes k = some x → Path s.hashes x l → Path m x l := by
    intro k x l hx hp
    refine Path.mono ?_ hf.fresh hp
    intro y hy
    exact rootne _ y (hi.path_mem hx hp y hy)
  have hprev : AMap.get s.hashes e.hdr.prevBlock = some prev := by rw [hf.link]; exact hf.stored
  have hgrow_e : ∀ l, Path s.hashes e l → Path m e l := by
    intro l hp
    cases hp with
    | root hr => rw [hprev] at hr; cases hr
    | step hg hp =>
      rw [hprev] at hg
      cases hg
      refine Path.step ?_ (hgrow _ _ _ hf.stored hp)
      rw [AMap.get_set, if_neg]
      · exact hprev
      · intro heq
        rw [← heq, hf.fresh] at hprev
        cases hprev
  obtain ⟨lp, p1, p2⟩ := hi.path _ _ hf.stored
  obtain ⟨l, rfl⟩ := p1.head
  have pe : Path s.hashes e (e :: prev :: l) := Path.step hprev p1
  have ve : ValidChain (rules P) trusted ((e :: prev :: l).map blk) :=
    ValidChain.next (hf.valid l p1) p2
  have hget : ∀ k x, AMap.get m k = some x → (k = e.hash ∧ x = e) ∨ AMap.get s.hashes k = some x := by
    intro k x hx
    rw [AMap.get_set] at hx
    by_cases hk : e.hash = k
    · rw [if_pos hk] at hx
      left
      exact ⟨hk.symm, (Option.some.inj hx).symm⟩
    · rw [if_neg hk] at hx
      exact .inr hx
  refine ⟨hgrow, hgrow_e, ⟨l, pe, p1, ve⟩, ?_, ?_, ?_⟩
  · intro k x hx
    rcases hget k x hx with ⟨rfl, rfl⟩ | hx
    · exact ⟨rfl, hf.good⟩
    · exact hi.key k x hx
  · intro k x hx
    rcases hget k x hx with ⟨rfl, rfl⟩ | hx
    · exact ⟨_, hgrow_e _ pe, ve⟩
    · obtain ⟨l, h1, h2⟩ := hi.path k x hx
      exact ⟨l, hgrow _ _ _ hx h1, h2⟩
  · intro k x hx hn
    rcases hget k x hx with ⟨rfl, rfl⟩ | hx
    · exfalso
      rw [AMap.get_set] at hn
      split at hn
      · cases hn
      · rw [hprev] at hn; cases hn
    · apply hi.root k x hx
      rw [AMap.get_set] at hn
      split at hn
      · cases hn
      · exact hn

/-- Outcome of placing a header. -/
structure Placed (P : Params) (H : Hdr → Bytes) (trusted : Block → Prop) (roots : List Bytes)
    (base : Nat → Option Entry) (s : State) (e : Entry) (s' : State) : Prop where
  inv : Inv P H trusted roots base s'
  hashes : s'.hashes = AMap.set s.hashes e.hash e
  orphans : s'.orphans = s.orphans
  prevs : s'.prevs = s.prevs
  tip : (s'.tip = s.tip ∧ s'.heights = s.heights ∧ s'.height = s.height ∧ s'.synced = s.synced ∧
      beNat e.work ≤ beNat s.tip.work) ∨
    (s'.tip = e ∧ beNat s.tip.work < beNat e.work)

/-- Making `e` the tip, given the rewired index. -/
theorem Inv.save (hi : Inv P H trusted roots base s) {prev e : Entry} (hf : Fresh P H roots s prev e)
    (now : Int) {hs : AMap Nat Entry} {D C L : List Entry} {f : Entry}
    (htip : Path s.hashes s.tip (D ++ f :: L)) (hpe : Path s.hashes e (C ++ f :: L))
    (hne : C ≠ [])
    (hnew : ∀ n, AMap.get hs n = (C.tail.find? (fun x => x.height = n)).or
      (if ∃ x ∈ D, x.height = n then none else AMap.get s.heights n))
    (hw : beNat s.tip.work < beNat e.work) :
    Placed P H trusted roots base s e (save P now { s with heights := hs } e) := by
  obtain ⟨g1, g2, ⟨l, pe, pp, ve⟩, g4, g5, g6⟩ := hi.grow hf
  obtain ⟨m1, m2, m3, m4, m5, m6⟩ := maybeSync_fields P now
    { s with heights := AMap.set hs e.height e, hashes := AMap.set s.hashes e.hash e, height := e.height, tip := e }
  have hC : C ++ f :: L = e :: prev :: l := hpe.unique pe
  have hinv : Inv P H trusted roots base
      { s with heights := AMap.set hs e.height e, hashes := AMap.set s.hashes e.hash e, height := e.height, tip := e } := by
    constructor
    · exact g4
    · exact g5
    · exact g6
    · simp [AMap.get_set]
    · rfl
    · intro k x hx
      simp only [AMap.get_set] at hx
      split at hx
      · cases hx; exact Nat.le_refl _
      · have := hi.best k x hx
        simp only
        omega
    · obtain ⟨lt, r, t1, t2, t3⟩ := hi.index
      have : lt = D ++ f :: L := t1.unique htip
      subst this
      have hr : (f :: L).getLast? = some r := by
        rw [List.getLast?_append] at t2
        cases hx : (f :: L).getLast? with
        | none => simp at hx
        | some r' => rw [hx, Option.some_or] at t2; exact t2
      have sD := hi.steps hi.tip t1
      have sC : Steps (C ++ f :: L) := by rw [hC]; exact validChain_steps _ ve
      refine ⟨C ++ f :: L, r, g2 _ hpe, ?_, ?_⟩
      · rw [List.getLast?_append, hr, Option.some_or]
      · refine index_rewire sD sC hr t3 ?_
        intro n
        obtain ⟨c, C', rfl⟩ := List.exists_cons_of_ne_nil hne
        have hc : c = e := by simp at hC; exact hC.1
        subst hc
        simp only [AMap.get_set, hnew, List.tail_cons, List.find?_cons]
        by_cases hn : c.height = n
        · simp [hn]
        · simp [hn]
    · intro k o ho
      obtain ⟨o1, o2, o3, o4, o5, o6⟩ := hi.orphan k o ho
      refine ⟨o1, o2, o3, o4, ?_, o6⟩
      rw [AMap.get_set, if_neg]
      · exact o5
      · rintro rfl
        have := hf.noOrphan
        simp only at ho
        rw [ho] at this
        cases this
    · exact hi.prevs
  refine ⟨hinv.congr m1 m2 m3 m4 m5 m6, m1, m3, m4, .inr ⟨m5, hw⟩⟩

theorem place_spec (hi : Inv P H trusted roots base s) {prev e : Entry} (hf : Fresh P H roots s prev e)
    (now : Int) :
    (∃ s', place P now s e = .ok s' ∧ Placed P H trusted roots base s e s') ∨
    (place P now s e = .ub ∧ ∃ l l', Path s.hashes s.tip l ∧ Path s.hashes prev l' ∧
      l.getLast? ≠ l'.getLast?) := by
  obtain ⟨g1, g2, ⟨l, pe, pp, ve⟩, g4, g5, g6⟩ := hi.grow hf
  have htipw := (hi.key _ _ hi.tip).2.2.1
  have hwl : e.work.length = s.tip.work.length := by rw [htipw, hf.good.2.1]
  unfold place
  by_cases hle : memcmp e.work s.tip.work ≤ 0
  · left
    rw [if_pos hle]
    rw [memcmp_le_zero hwl] at hle
    refine ⟨_, rfl, ?_, rfl, rfl, rfl, .inl ⟨rfl, rfl, rfl, rfl, hle⟩⟩
    have hne : e.hash ≠ s.tip.hash := by
      intro h
      have := hi.tip
      rw [← h, hf.fresh] at this
      cases this
    constructor
    · exact g4
    · exact g5
    · exact g6
    · simp only [AMap.get_set, hne, if_false]; exact hi.tip
    · exact hi.height
    · intro k x hx
      simp only [AMap.get_set] at hx
      split at hx
      · cases hx; exact hle
      · exact hi.best k x hx
    · obtain ⟨lt, r, t1, t2, t3⟩ := hi.index
      exact ⟨lt, r, g1 _ _ _ hi.tip t1, t2, t3⟩
    · intro k o ho
      obtain ⟨o1, o2, o3, o4, o5, o6⟩ := hi.orphan k o ho
      refine ⟨o1, o2, o3, o4, ?_, o6⟩
      simp only [AMap.get_set]
      rw [if_neg]
      · exact o5
      · rintro rfl
        have := hf.noOrphan
        simp only at ho
        rw [ho] at this
        cases this
    · exact hi.prevs
  · rw [if_neg hle]
    rw [memcmp_le_zero hwl] at hle
    have hw : beNat s.tip.work < beNat e.work := by omega
    by_cases hl : e.hdr.prevBlock ≠ s.tip.hash
    · rw [if_pos hl]
      obtain ⟨lt, r, t1, t2, t3⟩ := hi.index
      have st := hi.steps hi.tip t1
      have se : Steps (e :: prev :: l) := validChain_steps _ ve
      have heq : ∀ x ∈ lt, ∀ y ∈ e :: prev :: l, x.hash = y.hash → x = y := by
        intro x hx y hy hxy
        have gx := hi.path_mem hi.tip t1 x hx
        rcases List.mem_cons.1 hy with rfl | hy
        · rw [hxy, hf.fresh] at gx; cases gx
        · have gy := hi.path_mem hf.stored pp y hy
          rw [hxy, gy] at gx
          exact (Option.some.inj gx).symm
      rcases findFork_spec (s.tip.height + 1) t1 pe st se (by omega) heq with
        ⟨f, D, C, L, f1, f2, f3⟩ | ⟨f1, f2⟩
      · left
        subst f2
        have hfmem : f ∈ D ++ f :: L := by simp
        have hgf := hi.path_mem hi.tip t1 f hfmem
        have hne : C ≠ [] := by
          rintro rfl
          simp only [List.nil_append, List.cons.injEq] at f3
          rw [← f3.1, hf.fresh] at hgf
          cases hgf
        rw [f3] at pe se heq
        have hD : ∀ x ∈ D, x.hash ≠ f.hash := by
          intro x hx hxf
          have := heq x (by simp [hx]) f (by simp) hxf
          have h2 := st.gt hx
          rw [this] at h2; omega
        have hC : ∀ x ∈ C, x.hash ≠ f.hash := by
          intro x hx hxf
          have := heq f (by simp) x (by simp [hx]) hxf.symm
          have h2 := se.gt hx
          rw [← this] at h2; omega
        have lenD : D.length < s.tip.height + 1 := by
          obtain ⟨t, ht⟩ := t1.head
          rw [ht] at st
          have := st.index D.length (b := f) (by rw [← ht]; simp)
          omega
        have lenC : C.length < e.height + 1 := by
          obtain ⟨t, ht⟩ := pe.head
          rw [ht] at se
          have := se.index C.length (b := f) (by rw [← ht]; simp)
          omega
        have c1 := collectTo_spec D t1 hD _ lenD
        have c2 := collectTo_spec C pe hC _ lenC
        refine ⟨_, ?_, hi.save hf now t1 pe hne (hs := C.tail.reverse.foldl (fun hs e => AMap.set hs e.height e)
          (D.foldl (fun hs e => AMap.del hs e.height) s.heights)) ?_ hw⟩
        · simp only [reorganize, f1, c1, c2, Out.bind_ok, Out.pure_eq, Out.bind]
        · intro n
          rw [get_foldl_set, get_foldl_del]
      · right
        refine ⟨?_, lt, prev :: l, t1, pp, ?_⟩
        · simp [reorganize, f1, Out.bind]
        · rw [List.getLast?_cons_cons] at f2
          exact f2
    · rw [if_neg hl]
      left
      simp only [ne_eq, not_not] at hl
      have hpt : prev = s.tip := by
        have h1 := hf.stored
        rw [← hf.link, hl, hi.tip] at h1
        exact (Option.some.inj h1).symm
      refine ⟨_, rfl, ?_⟩
      have := hi.save hf now (hs := s.heights) (D := []) (C := [e]) (L := l) (f := prev)
        (by rw [← hpt]; exact pp) pe (by simp) (by intro n; simp) hw
      exact this

/-- A header with a checked proof of work, ready for hsk_chain_insert. -/
structure Cand (P : Params) (H : Hdr → Bytes) (roots : List Bytes) (s : State) (prev : Entry) (n : Node) : Prop where
  stored : AMap.get s.hashes prev.hash = some prev
  link : n.hdr.prevBlock = prev.hash
  fresh : AMap.get s.hashes n.hash = none
  noOrphan : AMap.get s.orphans n.hash = none
  noRoot : n.hash ∉ roots
  good : H n.hdr = n.hash ∧ n.hdr.time < 2 ^ 63
  pow : verifyPowHash n.hdr.bits n.hash = .ok ()

theorem isCompact_exponent {t c : Nat} (ht : t < 2 ^ 256) (h : IsCompact t c) : Difficulty.exponent c ≤ 34 := by
  rcases h with ⟨_, rfl⟩ | ⟨e, m, he, h1, h2, hm, hc⟩
  · decide
  · have hle : e ≤ 32 := by
      by_contra hgt
      have : 256 ^ 32 ≤ 256 ^ (e - 1) := Nat.pow_le_pow_right (by omega) (by omega)
      rw [pow256_32] at this
      omega
    have hml := mantissa_lt he h2
    rw [← hm] at hml
    unfold Difficulty.exponent
    rw [hc]
    split <;> omega

theorem demanded_exponent (hP : ParamsOK P) {time : Nat} {l : List Block} {b : Nat}
    (h : Demanded (rules P) time l b) : Difficulty.exponent b ≤ 34 := by
  obtain ⟨prev, _, h⟩ := h
  split at h
  · rw [h]; exact hP.bits
  · obtain ⟨y, x, a, b', c, _, _, _, _, _, h⟩ := h
    have h' : ∃ q : Nat, if q = 0 ∨ (rules P).powLimit < 2 ^ 256 / q - 1 then b = (rules P).powBits
        else IsCompact (2 ^ 256 / q - 1) b := ⟨_, h⟩
    obtain ⟨q, hq⟩ := h'
    by_cases hc : q = 0 ∨ (rules P).powLimit < 2 ^ 256 / q - 1
    · rw [if_pos hc] at hq
      rw [hq]; exact hP.bits
    · rw [if_neg hc] at hq
      refine isCompact_exponent ?_ hq
      have := Nat.div_le_self (2 ^ 256) q
      omega

/-- What hsk_chain_insert does. -/
theorem insert_spec (hP : ParamsOK P) (hH : ∀ h, (H h).length = 32)
    (hi : Inv P H trusted roots base s) {prev : Entry} {n : Node}
    (hc : Cand P H roots s prev n) (now : Int) :
    (∃ rc, insert P now s n prev = .ok (.error rc) ∧ (rc = .timeTooOld ∨ rc = .badDiffBits)) ∨
    (∃ s' e, insert P now s n prev = .ok (.ok (s', e)) ∧ e.hdr = n.hdr ∧ e.hash = n.hash ∧
      Placed P H trusted roots base s e s' ∧
      ∃ l, Path s.hashes prev (prev :: l) ∧ Extends (rules P) (blk e) (blk prev) (l.map blk)) ∨
    (insert P now s n prev = .ub ∧ ∃ l, Path s.hashes prev l ∧ ((l.length < 147 ∧ 146 ≤ prev.height) ∨
      ∃ l', Path s.hashes s.tip l' ∧ l'.getLast? ≠ l.getLast?)) := by
  obtain ⟨lp, p1, p2⟩ := hi.path _ _ hc.stored
  obtain ⟨l, rfl⟩ := p1.head
  have hmem := hi.path_mem hc.stored p1
  have hts : ∀ x ∈ prev :: l, x.hdr.time < 2 ^ 63 := fun x hx => (hi.key _ _ (hmem x hx)).2.2.2
  have hws : ∀ x ∈ prev :: l, x.work.length = 32 := fun x hx => (hi.key _ _ (hmem x hx)).2.2.1
  obtain ⟨m, m1, m2⟩ := mtp_spec p1 hts
  have st := validChain_steps _ p2
  unfold insert
  by_cases hold : toI64 n.hdr.time ≤ mtp s.hashes prev
  · left; exact ⟨.timeTooOld, by rw [if_pos hold], .inl rfl⟩
  rw [if_neg hold]
  rw [m1, toI64_of_lt hc.good.2] at hold
  rcases getTarget_spec P p1 st hP.limit hts hws hc.good.2 with ⟨b, b1, b2⟩ | ⟨b1, b2⟩
  swap
  · right; right
    exact ⟨by rw [b1]; rfl, _, p1, .inl b2⟩
  rw [b1]
  simp only [Out.bind]
  by_cases hb : n.hdr.bits ≠ b
  · left; exact ⟨.badDiffBits, by rw [if_pos hb], .inr rfl⟩
  rw [if_neg hb]
  simp only [ne_eq, not_not] at hb
  have hpow := hc.pow
  unfold verifyPowHash at hpow
  cases ht : powToTarget n.hdr.bits with
  | none => rw [ht] at hpow; cases hpow
  | some t =>
    rw [ht] at hpow
    simp only at hpow
    have hhl : n.hash.length = t.length := by rw [← hc.good.1, hH, powToTarget_length ht]
    have hle : beNat n.hash ≤ beNat t := by
      split at hpow
      · cases hpow
      · rename_i h; rw [memcmp_pos hhl] at h; omega
    have hexp : Difficulty.expand n.hdr.bits = some (beNat t) := by
      have := powToTarget_spec (bits := n.hdr.bits) (by rw [hb]; exact demanded_exponent hP b2)
      rw [ht] at this
      simpa using this.symm
    obtain ⟨w, w1, w2, w3⟩ := calcWork_some ht (hws prev (by simp))
    rw [w1]
    simp only
    have hext : Extends (rules P) (blk { hdr := n.hdr, hash := n.hash, height := prev.height + 1, work := w })
        (blk prev) (l.map blk) := by
      refine ⟨⟨hc.link, rfl⟩, ?_, ⟨m, m2, by simp only [blk]; omega⟩, ⟨beNat t, hexp, hle, w3⟩⟩
      simp only [blk] at *
      rw [hb]
      exact b2
    have hfresh : Fresh P H roots s prev { hdr := n.hdr, hash := n.hash, height := prev.height + 1, work := w } :=
      { stored := hc.stored, link := hc.link, height := rfl, fresh := hc.fresh, noOrphan := hc.noOrphan,
        noRoot := hc.noRoot, good := ⟨hc.good.1, w2, hc.good.2⟩,
        valid := fun l' hp => by
          have := hp.unique p1
          simp only [List.cons.injEq, true_and] at this
          rw [this]; exact hext }
    rcases place_spec hi hfresh now with ⟨s', s1, s2⟩ | ⟨s1, l1, l2, q1, q2, q3⟩
    · right; left
      exact ⟨s', _, by rw [s1], rfl, rfl, s2, l, p1, hext⟩
    · right; right
      refine ⟨by rw [s1], _, p1, .inr ⟨l1, q1, ?_⟩⟩
      rw [← q2.unique p1]; exact q3

end Verif.Chain
