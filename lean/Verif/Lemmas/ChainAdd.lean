import Verif.Lemmas.Chain
/-
hsk_chain_add and whole histories.
-/
namespace Verif.Chain
open Verif.Header Verif.Spec Verif.Spec.Chain

variable {P : Params} {H : Hdr → Bytes} {trusted : Block → Prop} {roots : List Bytes}
  {base : Nat → Option Entry} {s : State}

/-- The node started from one block of height zero. -/
def FromGenesis (trusted : Block → Prop) : Prop := ∃ g : Block, g.height = 0 ∧ ∀ b, trusted b → b = g

theorem validChain_last {R : Rules} {l : List Block} (h : ValidChain R trusted l) :
    ∃ b, l.getLast? = some b ∧ trusted b := by
  induction h with
  | root h => exact ⟨_, rfl, h⟩
  | start _ _ _ ih => rw [List.getLast?_cons_cons]; exact ih
  | next _ _ ih => rw [List.getLast?_cons_cons]; exact ih

theorem Inv.last (hi : Inv P H trusted roots base s) {k : Bytes} {e : Entry} {l : List Entry}
    (he : AMap.get s.hashes k = some e) (hp : Path s.hashes e l) :
    ∃ r, l.getLast? = some r ∧ trusted (blk r) ∧ AMap.get s.hashes r.hash = some r := by
  obtain ⟨l', h1, h2⟩ := hi.path k e he
  rw [hp.unique h1] at *
  obtain ⟨b, b1, b2⟩ := validChain_last h2
  rw [List.getLast?_map] at b1
  cases hl : l'.getLast? with
  | none => rw [hl] at b1; simp at b1
  | some r =>
    rw [hl] at b1
    simp only [Option.map_some, Option.some.injEq] at b1
    refine ⟨r, rfl, b1 ▸ b2, hi.path_mem he h1 r (List.mem_of_getLast? hl)⟩

theorem Inv.same_last (hi : Inv P H trusted roots base s) (hg : FromGenesis trusted) {k k' : Bytes}
    {e e' : Entry} {l l' : List Entry} (he : AMap.get s.hashes k = some e) (hp : Path s.hashes e l)
    (he' : AMap.get s.hashes k' = some e') (hp' : Path s.hashes e' l') : l.getLast? = l'.getLast? := by
  obtain ⟨g, _, hT⟩ := hg
  obtain ⟨r, r1, r2, r3⟩ := hi.last he hp
  obtain ⟨r', r1', r2', r3'⟩ := hi.last he' hp'
  have hb : blk r = blk r' := by rw [hT _ r2, hT _ r2']
  have hh : r.hash = r'.hash := congrArg Block.hash hb
  rw [r1, r1']
  rw [← hh] at r3'
  rw [r3] at r3'
  exact r3'

theorem Inv.path_length (hi : Inv P H trusted roots base s) (hg : FromGenesis trusted) {k : Bytes}
    {e : Entry} {l : List Entry} (he : AMap.get s.hashes k = some e) (hp : Path s.hashes e l) :
    l.length = e.height + 1 := by
  obtain ⟨g, hg0, hT⟩ := hg
  obtain ⟨r, r1, r2, r3⟩ := hi.last he hp
  have hr0 : r.height = 0 := by
    have := congrArg Block.height (hT _ r2)
    rw [hg0] at this; exact this
  have st := hi.steps he hp
  obtain ⟨t, rfl⟩ := hp.head
  rw [List.getLast?_eq_getElem?] at r1
  have := st.index _ r1
  simp at this ⊢
  omega

/-- Removing the orphan waiting for `e` makes it a candidate for insertion. -/
theorem Inv.resolve (hi : Inv P H trusted roots base s) {e : Entry}
    (he : AMap.get s.hashes e.hash = some e) {o : Node} {s1 : State}
    (hr : resolveOrphan s e.hash = some (o, s1)) :
    Inv P H trusted roots base s1 ∧ Cand P H roots s1 e o ∧
    s1.hashes = s.hashes ∧ s1.heights = s.heights ∧ s1.tip = s.tip ∧ s1.height = s.height ∧
    AMap.get s.prevs e.hash = some o ∧ AMap.get s.orphans o.hash = some o ∧
    s1.prevs = AMap.del s.prevs e.hash ∧ s1.orphans = AMap.del s.orphans o.hash := by
  unfold resolveOrphan at hr
  cases hp : AMap.get s.prevs e.hash with
  | none => rw [hp] at hr; cases hr
  | some o' =>
    rw [hp] at hr
    simp only [Option.some.injEq, Prod.mk.injEq] at hr
    obtain ⟨rfl, rfl⟩ := hr
    obtain ⟨q1, q2⟩ := hi.prevs _ _ hp
    obtain ⟨o1, o2, o3, o4, o5, o6⟩ := hi.orphan _ _ q2
    refine ⟨?_, ?_, rfl, rfl, rfl, rfl, rfl, q2, by rw [q1], rfl⟩
    · constructor
      · exact hi.key
      · exact hi.path
      · exact hi.root
      · exact hi.tip
      · exact hi.height
      · exact hi.best
      · exact hi.index
      · intro k x hx
        rw [AMap.get_del] at hx
        split at hx
        · cases hx
        · exact hi.orphan k x hx
      · intro k x hx
        simp only [AMap.get_del] at hx ⊢
        split at hx
        · cases hx
        · rename_i hk
          obtain ⟨x1, x2⟩ := hi.prevs k x hx
          refine ⟨x1, ?_⟩
          rw [if_neg]
          · exact x2
          · intro heq
            rw [← heq, q2] at x2
            rw [← Option.some.inj x2] at x1
            exact hk x1
    · exact { stored := he, link := q1, fresh := o5, noOrphan := by simp [AMap.get_del],
              noRoot := o6, good := ⟨by rw [o2], o4⟩, pow := o3 }

/-- What a call may do to the stored chain. -/
structure Adv (P : Params) (H : Hdr → Bytes) (trusted : Block → Prop) (roots : List Bytes)
    (base : Nat → Option Entry) (s s' : State) : Prop where
  inv : Inv P H trusted roots base s'
  keep : ∀ k x, AMap.get s.hashes k = some x → AMap.get s'.hashes k = some x
  tip : s'.tip = s.tip ∨ beNat s.tip.work < beNat s'.tip.work

theorem Placed.adv (hi : Inv P H trusted roots base s) {e : Entry} {s' : State}
    (hfresh : AMap.get s.hashes e.hash = none)
    (h : Placed P H trusted roots base s e s') : Adv P H trusted roots base s s' := by
  refine ⟨h.inv, ?_, ?_⟩
  · intro k x hx
    rw [h.hashes, AMap.get_set, if_neg]
    · exact hx
    · rintro rfl; rw [hfresh] at hx; cases hx
  · rcases h.tip with h | ⟨h1, h2⟩
    · exact .inl h.1
    · exact .inr (by rw [h1]; exact h2)

theorem Adv.trans {s1 s2 s3 : State} (h1 : Adv P H trusted roots base s1 s2)
    (h2 : Adv P H trusted roots base s2 s3) : Adv P H trusted roots base s1 s3 := by
  refine ⟨h2.inv, fun k x hx => h2.keep k x (h1.keep k x hx), ?_⟩
  rcases h1.tip with h | h <;> rcases h2.tip with g | g
  · left; rw [g, h]
  · right; rw [← h]; exact g
  · right; rw [g]; exact h
  · right; omega

/-- No stored header has a waiting child, and every waiting header can be found
by its parent. -/
def Tidy (s : State) : Prop := ∀ k o, AMap.get s.orphans k = some o →
  AMap.get s.hashes o.hdr.prevBlock = none ∧ AMap.get s.prevs o.hdr.prevBlock = some o

def TidyBut (s : State) (e : Entry) : Prop := ∀ k o, AMap.get s.orphans k = some o →
  (AMap.get s.hashes o.hdr.prevBlock = none ∨ o.hdr.prevBlock = e.hash) ∧
  AMap.get s.prevs o.hdr.prevBlock = some o

/-- Sizes of the two orphan indexes. -/
structure Sizes (s : State) : Prop where
  nodup : AMap.Nodup s.orphans
  le : AMap.size s.prevs ≤ AMap.size s.orphans
  bound : AMap.size s.orphans ≤ 10001

theorem insert_ub_not_genesis (hP : ParamsOK P) (hH : ∀ h, (H h).length = 32)
    (hi : Inv P H trusted roots base s) {prev : Entry} {n : Node}
    (hc : Cand P H roots s prev n) (now : Int) (hg : FromGenesis trusted) :
    insert P now s n prev ≠ .ub := by
  rcases insert_spec hP hH hi hc now with ⟨rc, h, _⟩ | ⟨s', e, h, _⟩ | ⟨h, l, hp, h2⟩
  · rw [h]; simp
  · rw [h]; simp
  · have := hi.path_length hg hc.stored hp
    rcases h2 with ⟨h2, h3⟩ | ⟨l', hp', hne⟩
    · omega
    · exact absurd (hi.same_last hg hi.tip hp' hc.stored hp) hne

theorem size_del_ge {κ ν : Type} [DecidableEq κ] {m : AMap κ ν} (h : AMap.Nodup m) (k : κ) :
    AMap.size m ≤ AMap.size (AMap.del m k) + 1 := by
  induction m with
  | nil => simp [AMap.size]
  | cons p r ih =>
    obtain ⟨a, v⟩ := p
    unfold AMap.Nodup at h ih
    simp only [List.map_cons, List.nodup_cons] at h
    simp only [AMap.size, AMap.del, List.filter_cons, List.length_cons] at *
    by_cases ha : a = k
    · subst ha
      have hr : r.filter (fun p => decide (p.1 ≠ a)) = r := by
        rw [List.filter_eq_self]
        intro q hq
        simp only [ne_eq, decide_not, Bool.not_eq_eq_eq_not, Bool.not_true, decide_eq_false_iff_not]
        intro hqa
        exact h.1 (List.mem_map.2 ⟨q, hq, hqa⟩)
      have := congrArg List.length hr
      rw [if_neg (by simp)]
      omega
    · have := ih h.2
      simp [ha] at *
      omega

theorem size_del_none {κ ν : Type} [DecidableEq κ] {m : AMap κ ν} {k : κ} (h : AMap.get m k = none) :
    AMap.del m k = m := by
  unfold AMap.del
  rw [List.filter_eq_self]
  intro q hq
  simp only [ne_eq, decide_not, Bool.not_eq_eq_eq_not, Bool.not_true, decide_eq_false_iff_not]
  rintro rfl
  induction m with
  | nil => simp at hq
  | cons p r ih =>
    obtain ⟨a, v⟩ := p
    simp only [AMap.get] at h
    split at h
    · cases h
    · rename_i hne
      rcases List.mem_cons.1 hq with rfl | hq
      · exact hne rfl
      · exact ih hq h

theorem resolveLoop_spec (hP : ParamsOK P) (hH : ∀ h, (H h).length = 32) (now : Int) (fuel : Nat)
    {s : State} {e : Entry} (hi : Inv P H trusted roots base s)
    (he : AMap.get s.hashes e.hash = some e) :
    (∃ rc s', resolveLoop P now fuel s e = .ok (rc, s') ∧ Adv P H trusted roots base s s' ∧
      (rc = .success ∨ rc = .timeTooOld ∨ rc = .badDiffBits) ∧
      (TidyBut s e → Tidy s') ∧ (Sizes s → Sizes s')) ∨
    (resolveLoop P now fuel s e = .ub ∧ (FromGenesis trusted → fuel ≤ AMap.size s.prevs)) := by
  induction fuel generalizing s e with
  | zero => right; exact ⟨rfl, fun _ => Nat.zero_le _⟩
  | succ f ih =>
    unfold resolveLoop
    cases hr : resolveOrphan s e.hash with
    | none =>
      left
      refine ⟨.success, s, rfl, ⟨hi, fun _ _ h => h, .inl rfl⟩, .inl rfl, ?_, id⟩
      intro ht k o ho
      obtain ⟨t1, t2⟩ := ht k o ho
      rcases t1 with t1 | t1
      · exact ⟨t1, t2⟩
      · exfalso
        rw [t1] at t2
        simp [resolveOrphan, t2] at hr
    | some p =>
      obtain ⟨o, s1⟩ := p
      obtain ⟨i1, c1, e1, e2, e3, e4, e5, e6, e7, e8⟩ := hi.resolve he hr
      simp only
      have hsz : Sizes s → Sizes s1 := by
        intro hs
        refine ⟨by rw [e8]; exact AMap.nodup_del hs.nodup _, ?_, ?_⟩
        · rw [e7, e8]
          have := AMap.size_del_lt e5
          have := size_del_ge hs.nodup o.hash
          have := hs.le
          omega
        · rw [e8]
          have := AMap.size_del_le s.orphans o.hash
          have := hs.bound
          omega
      rcases insert_spec hP hH i1 c1 now with ⟨rc, h1, h2⟩ | ⟨s2, e', h1, h2, h3, h4, h5⟩ | ⟨h1, _⟩
      · left
        refine ⟨rc, s1, by rw [h1]; rfl, ⟨i1, ?_, .inl e3⟩, .inr h2, ?_, hsz⟩
        · rw [e1]; exact fun _ _ h => h
        · intro ht k x hx
          rw [e8, AMap.get_del] at hx
          split at hx
          · cases hx
          · obtain ⟨t1, t2⟩ := ht k x hx
            have hne : e.hash ≠ x.hdr.prevBlock := by
              intro heq
              rw [← heq, e5] at t2
              have := Option.some.inj t2
              subst this
              have := (hi.orphan k o hx).1
              contradiction
            rw [e1, e7, AMap.get_del, if_neg hne]
            refine ⟨?_, t2⟩
            rcases t1 with t1 | t1
            · exact t1
            · exact absurd t1.symm hne
      · have hplaced := h4.adv i1 (by rw [h3]; exact c1.fresh)
        have he' : AMap.get s2.hashes e'.hash = some e' := by
          rw [h4.hashes, AMap.get_set, if_pos rfl]
        rw [h1]
        simp only [Out.bind]
        rcases ih h4.inv he' with ⟨rc, s3, r1, r2, r3, r4, r5⟩ | ⟨r1, r2⟩
        · left
          refine ⟨rc, s3, r1, ?_, r3, ?_, ?_⟩
          · refine Adv.trans ⟨i1, ?_, .inl e3⟩ (hplaced.trans r2)
            rw [e1]; exact fun _ _ h => h
          · intro ht
            apply r4
            intro k x hx
            rw [h4.orphans, e8, AMap.get_del] at hx
            split at hx
            · cases hx
            · obtain ⟨t1, t2⟩ := ht k x hx
              have hne : e.hash ≠ x.hdr.prevBlock := by
                intro heq
                rw [← heq, e5] at t2
                have := Option.some.inj t2
                subst this
                have := (hi.orphan k o hx).1
                contradiction
              rw [h4.prevs, e7, AMap.get_del, if_neg hne]
              refine ⟨?_, t2⟩
              rcases t1 with t1 | t1
              · by_cases hk : x.hdr.prevBlock = e'.hash
                · exact .inr hk
                · left
                  rw [h4.hashes, AMap.get_set, if_neg (fun h => hk h.symm), e1]
                  exact t1
              · exact absurd t1.symm hne
          · intro hs
            apply r5
            have := hsz hs
            exact ⟨by rw [h4.orphans]; exact this.nodup, by rw [h4.orphans, h4.prevs]; exact this.le,
              by rw [h4.orphans]; exact this.bound⟩
        · right
          refine ⟨r1, fun hg => ?_⟩
          have := r2 hg
          rw [h4.prevs, e7] at this
          have := AMap.size_del_lt e5
          omega
      · right
        refine ⟨by rw [h1]; rfl, fun hg => ?_⟩
        exact absurd h1 (insert_ub_not_genesis hP hH i1 c1 now hg)

/-- The adjusted clock is a plausible time. -/
def ClockOK (now : Int) : Prop := 0 ≤ now + 7200 ∧ now + 7200 < 2 ^ 63

theorem clock_time {now : Int} (hc : ClockOK now) {t : Nat} (h : ¬ t > toU64 (now + 7200)) : t < 2 ^ 63 := by
  unfold toU64 at h
  obtain ⟨h1, h2⟩ := hc
  omega

/-- What hsk_chain_add does to the served chain. -/
inductive AddResult (P : Params) (H : Hdr → Bytes) (trusted : Block → Prop) (roots : List Bytes)
    (base : Nat → Option Entry) (s : State) (h : Hdr) : Rc → State → Prop
  /-- refused, nothing changed -/
  | refused {rc : Rc} : rc ≠ .success → rc ≠ .orphan → AddResult P H trusted roots base s h rc s
  /-- kept aside -/
  | orphan : AMap.get s.hashes h.prevBlock = none → AMap.get s.hashes (H h) = none →
      AMap.get s.orphans (H h) = none →
      Inv P H trusted roots base (addOrphan s { hdr := h, hash := H h }) →
      AddResult P H trusted roots base s h .orphan (addOrphan s { hdr := h, hash := H h })
  /-- stored; waiting descendants were then tried -/
  | stored {rc : Rc} {s' : State} (e prev : Entry) (l : List Entry) : (rc = .success ∨ rc = .timeTooOld ∨ rc = .badDiffBits) →
      Adv P H trusted roots base s s' → AMap.get s.hashes (H h) = none →
      AMap.get s'.hashes (H h) = some e → e.hdr = h →
      Path s.hashes prev (prev :: l) → Extends (rules P) (blk e) (blk prev) (l.map blk) →
      (Tidy s → Tidy s') → (Sizes s → Sizes s') →
      AddResult P H trusted roots base s h rc s'

theorem Inv.addOrphan (hi : Inv P H trusted roots base s) {h : Hdr} (hn : AMap.get s.hashes (H h) = none)
    (hr : H h ∉ roots) (hp : verifyPowHash h.bits (H h) = .ok ()) (ht : h.time < 2 ^ 63)
    (ho : AMap.get s.orphans (H h) = none) :
    Inv P H trusted roots base (addOrphan s { hdr := h, hash := H h }) := by
  have key : ∀ s0 : State, Inv P H trusted roots base s0 → AMap.get s0.hashes (H h) = none →
      AMap.get s0.orphans (H h) = none →
      Inv P H trusted roots base
      { s0 with orphans := AMap.set s0.orphans (H h) { hdr := h, hash := H h },
                prevs := AMap.set s0.prevs h.prevBlock { hdr := h, hash := H h } } := by
    intro s0 hi hn ho
    constructor
    · exact hi.key
    · exact hi.path
    · exact hi.root
    · exact hi.tip
    · exact hi.height
    · exact hi.best
    · exact hi.index
    · intro k o hk
      simp only [AMap.get_set] at hk
      split at hk
      · rename_i hkk
        cases hk
        subst hkk
        exact ⟨rfl, rfl, hp, ht, hn, hr⟩
      · exact hi.orphan k o hk
    · intro k o hk
      simp only [AMap.get_set] at hk ⊢
      split at hk
      · rename_i hkk
        cases hk
        exact ⟨hkk, by simp⟩
      · obtain ⟨h1, h2⟩ := hi.prevs k o hk
        refine ⟨h1, ?_⟩
        rw [if_neg]
        · exact h2
        · intro heq
          rw [← heq, ho] at h2
          cases h2
  unfold Chain.addOrphan
  dsimp only
  split
  · apply key
    · constructor
      · exact hi.key
      · exact hi.path
      · exact hi.root
      · exact hi.tip
      · exact hi.height
      · exact hi.best
      · exact hi.index
      · intro k o hk; simp at hk
      · intro k o hk; simp at hk
    · exact hn
    · simp
  · exact key s hi hn ho

theorem add_spec (hP : ParamsOK P) (hH : ∀ h, (H h).length = 32) (hi : Inv P H trusted roots base s)
    {now : Int} (hc : ClockOK now) {h : Hdr} (hroot : H h ∉ roots) :
    (∃ rc s', add P H s now h = .ok (rc, s') ∧ AddResult P H trusted roots base s h rc s') ∨
    (add P H s now h = .ub ∧ ¬ FromGenesis trusted) := by
  unfold add
  dsimp only
  by_cases h1 : h.time > toU64 (now + 7200)
  · left; rw [if_pos h1]; exact ⟨_, _, rfl, .refused (by simp) (by simp)⟩
  rw [if_neg h1]
  by_cases h2 : AMap.has s.hashes (H h) = true
  · left; rw [if_pos h2]; exact ⟨_, _, rfl, .refused (by simp) (by simp)⟩
  rw [if_neg h2]
  by_cases h3 : AMap.has s.orphans (H h) = true
  · left; rw [if_pos h3]; exact ⟨_, _, rfl, .refused (by simp) (by simp)⟩
  rw [if_neg h3]
  have htime := clock_time hc h1
  simp only [AMap.has, Option.isSome_iff_ne_none, ne_eq, not_not] at h2 h3
  cases hpow : verifyPowHash h.bits (H h) with
  | error err =>
    left
    cases err
    · exact ⟨_, _, rfl, .refused (by simp) (by simp)⟩
    · exact ⟨_, _, rfl, .refused (by simp) (by simp)⟩
  | ok u =>
    simp only
    cases hprev : AMap.get s.hashes h.prevBlock with
    | none =>
      left
      exact ⟨_, _, rfl, .orphan hprev h2 h3 (hi.addOrphan h2 hroot hpow htime h3)⟩
    | some prev =>
      have hk := (hi.key _ _ hprev).1
      have hcand : Cand P H roots s prev { hdr := h, hash := H h } :=
        { stored := by rw [hk]; exact hprev, link := hk.symm, fresh := h2, noOrphan := h3,
          noRoot := hroot, good := ⟨rfl, htime⟩, pow := hpow }
      rcases insert_spec hP hH hi hcand now with ⟨rc, q1, q2⟩ | ⟨s1, e, q1, q2, q3, q4, l, q5, q6⟩ | ⟨q1, q2⟩
      · left
        simp only [q1, Out.bind]
        refine ⟨rc, s, rfl, .refused ?_ ?_⟩ <;> rcases q2 with rfl | rfl <;> simp
      · simp only [q1, Out.bind]
        have he : AMap.get s1.hashes e.hash = some e := by rw [q4.hashes, AMap.get_set, if_pos rfl]
        have hadv := q4.adv hi (by rw [q3]; exact h2)
        rcases resolveLoop_spec hP hH now (AMap.size s1.prevs + 1) q4.inv he with
          ⟨rc, s', r1, r2, r3, r4, r5⟩ | ⟨r1, r2⟩
        · left
          refine ⟨rc, s', r1, .stored e prev l r3 (hadv.trans r2) h2 ?_ q2 q5 q6 ?_ ?_⟩
          · rw [← (show e.hash = H h from q3)]
            exact r2.keep _ _ he
          · intro ht
            apply r4
            intro k o ho
            rw [q4.orphans] at ho
            obtain ⟨t1, t2⟩ := ht k o ho
            rw [q4.prevs, q4.hashes, AMap.get_set]
            refine ⟨?_, t2⟩
            by_cases hk : e.hash = o.hdr.prevBlock
            · exact .inr hk.symm
            · left; rw [if_neg hk]; exact t1
          · intro hs
            apply r5
            exact ⟨by rw [q4.orphans]; exact hs.nodup, by rw [q4.orphans, q4.prevs]; exact hs.le,
              by rw [q4.orphans]; exact hs.bound⟩
        · right
          refine ⟨r1, fun hg => ?_⟩
          have := r2 hg
          omega
      · right
        refine ⟨by simp only [q1, Out.bind], fun hg => ?_⟩
        exact absurd q1 (insert_ub_not_genesis hP hH hi hcand now hg)

theorem AddResult.inv (hi : Inv P H trusted roots base s) {h : Hdr} {rc : Rc} {s' : State}
    (ha : AddResult P H trusted roots base s h rc s') : Inv P H trusted roots base s' := by
  cases ha with
  | refused => exact hi
  | orphan _ _ _ h => exact h
  | stored _ _ _ _ h => exact h.inv

theorem addOrphan_served (s : State) (n : Node) :
    (addOrphan s n).hashes = s.hashes ∧ (addOrphan s n).heights = s.heights ∧
    (addOrphan s n).tip = s.tip ∧ (addOrphan s n).height = s.height ∧ (addOrphan s n).synced = s.synced := by
  unfold addOrphan
  dsimp only
  split <;> simp

theorem addOrphan_sizes {s : State} (n : Node) (hs : Sizes s) (hn : AMap.get s.orphans n.hash = none) :
    Sizes (addOrphan s n) := by
  unfold addOrphan
  dsimp only
  by_cases hb : AMap.size s.orphans > 10000
  · rw [if_pos hb]
    refine ⟨AMap.nodup_set ?_ _ _, ?_, ?_⟩
    · simp [AMap.Nodup]
    · simp [AMap.size, AMap.set, AMap.del]
    · simp [AMap.size, AMap.set, AMap.del]
  · rw [if_neg hb]
    have h1 := AMap.size_set_le s.prevs n.hdr.prevBlock n
    have h2 : AMap.size (AMap.set s.orphans n.hash n) = AMap.size s.orphans + 1 := by
      simp [AMap.size, AMap.set, size_del_none hn]
    have h3 := hs.le
    refine ⟨AMap.nodup_set hs.nodup _ _, ?_, ?_⟩
    · show AMap.size (AMap.set s.prevs n.hdr.prevBlock n) ≤ AMap.size (AMap.set s.orphans n.hash n)
      omega
    · show AMap.size (AMap.set s.orphans n.hash n) ≤ 10001
      omega

/-- Offers that a history may contain: any header whose hash is not the parent of a
start block, at a plausible time. -/
def OpsOK (H : Hdr → Bytes) (roots : List Bytes) (ops : List (Int × Hdr)) : Prop :=
  ∀ op ∈ ops, ClockOK op.1 ∧ H op.2 ∉ roots

theorem run_spec (hP : ParamsOK P) (hH : ∀ h, (H h).length = 32) (ops : List (Int × Hdr))
    (hops : OpsOK H roots ops) {s : State} (hi : Inv P H trusted roots base s) :
    (∃ s', run P H s ops = .ok s' ∧ Inv P H trusted roots base s' ∧ (Sizes s → Sizes s') ∧
      (∀ k x, AMap.get s.hashes k = some x → AMap.get s'.hashes k = some x)) ∨
    (run P H s ops = .ub ∧ ¬ FromGenesis trusted) := by
  induction ops generalizing s with
  | nil => left; exact ⟨s, rfl, hi, id, fun _ _ h => h⟩
  | cons op ops ih =>
    obtain ⟨now, h⟩ := op
    have hop := hops (now, h) (by simp)
    simp only [run]
    rcases add_spec hP hH hi hop.1 hop.2 with ⟨rc, s1, a1, a2⟩ | ⟨a1, a2⟩
    · rw [a1]
      simp only [Out.bind]
      have hsz : Sizes s → Sizes s1 := by
        intro hs
        cases a2 with
        | refused => exact hs
        | orphan _ _ h3 => exact addOrphan_sizes _ hs h3
        | stored _ _ _ _ _ _ _ _ _ _ _ h => exact h hs
      have hkeep : ∀ k x, AMap.get s.hashes k = some x → AMap.get s1.hashes k = some x := by
        cases a2 with
        | refused => exact fun _ _ h => h
        | orphan => rw [(addOrphan_served _ _).1]; exact fun _ _ h => h
        | stored _ _ _ _ h => exact h.keep
      rcases ih (fun op hop => hops op (List.mem_cons_of_mem _ hop)) (a2.inv hi) with ⟨s', r1, r2, r3, r4⟩ | r
      · left; exact ⟨s', r1, r2, fun hs => r3 (hsz hs), fun k x hx => r4 k x (hkeep k x hx)⟩
      · right; exact r
    · right; rw [a1]; exact ⟨rfl, a2⟩

/-- The state after hsk_chain_init_genesis. -/
theorem initGenesis_inv {now : Int} {g : Hdr} {s0 : State} (hg : g.time < 2 ^ 63)
    (h : initGenesis P H now g = .ok s0) :
    ∃ e0 : Entry, e0.hdr = g ∧ e0.hash = H g ∧ e0.height = 0 ∧ s0.tip = e0 ∧ s0.orphans = [] ∧ s0.prevs = [] ∧
      (H g ≠ g.prevBlock → Inv P H (· = blk e0) [g.prevBlock] (fun _ => none) s0) := by
  unfold initGenesis at h
  cases hw : calcWork g.bits none with
  | ok w =>
    rw [hw] at h
    simp only [Out.ok.injEq] at h
    have hwl : w.length = 32 := by
      cases ht : powToTarget g.bits with
      | none => simp [calcWork, getProof_none ht] at hw
      | some t =>
        obtain ⟨w', w1, w2, _⟩ := getProof_eq ht
        simp only [calcWork, w1, Out.ok.injEq] at hw
        rw [← hw]; exact w2
    obtain ⟨m1, m2, m3, m4, m5, m6⟩ := maybeSync_fields P now
      { hashes := AMap.set [] (H g) { hdr := g, hash := H g, height := 0, work := w },
        heights := AMap.set [] 0 { hdr := g, hash := H g, height := 0, work := w }, orphans := [],
        prevs := [], height := 0, initHeight := 0, tip := { hdr := g, hash := H g, height := 0, work := w },
        synced := false }
    rw [← h]
    refine ⟨{ hdr := g, hash := H g, height := 0, work := w }, rfl, rfl, rfl, m5, m3, m4, fun hne => ?_⟩
    refine Inv.congr ?_ m1 m2 m3 m4 m5 m6
    have hget : ∀ k e, AMap.get (AMap.set ([] : HashMap) (H g) { hdr := g, hash := H g, height := 0, work := w }) k = some e →
        H g = k ∧ e = { hdr := g, hash := H g, height := 0, work := w } := by
      intro k e he
      rw [AMap.get_set] at he
      split at he
      · rename_i hk; cases he; exact ⟨hk, rfl⟩
      · simp at he
    have hroot : AMap.get (AMap.set ([] : HashMap) (H g) { hdr := g, hash := H g, height := 0, work := w }) g.prevBlock = none := by
      rw [AMap.get_set, if_neg hne]; rfl
    constructor
    · intro k e he
      obtain ⟨rfl, rfl⟩ := hget k e he
      exact ⟨rfl, rfl, hwl, hg⟩
    · intro k e he
      obtain ⟨rfl, rfl⟩ := hget k e he
      exact ⟨[_], Path.root hroot, ValidChain.root rfl⟩
    · intro k e he _
      obtain ⟨rfl, rfl⟩ := hget k e he
      simp
    · simp [AMap.get_set]
    · rfl
    · intro k e he
      obtain ⟨rfl, rfl⟩ := hget k e he
      exact Nat.le_refl _
    · refine ⟨[_], _, Path.root hroot, rfl, ?_⟩
      intro n
      simp only [AMap.get_set, AMap.get_nil, Nat.zero_le, if_true, List.find?_cons, List.find?_nil]
      split <;> simp_all
    · intro k o ho; simp at ho
    · intro k o ho; simp at ho
  | err e => rw [hw] at h; cases h
  | ub => rw [hw] at h; cases h

end Verif.Chain
