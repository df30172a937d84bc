import Verif.Lemmas.ChainRules
/-
Ancestor lists and the parent-walking loops of src/chain.c.
-/
namespace Verif.Chain
open Verif.Header Verif.Spec Verif.Spec.Chain

theorem Path.head {m : HashMap} {e : Entry} {l : List Entry} (h : Path m e l) : ∃ t, l = e :: t := by
  cases h <;> exact ⟨_, rfl⟩

theorem Path.unique {m : HashMap} {e : Entry} {l l' : List Entry} (h : Path m e l) (h' : Path m e l') :
    l = l' := by
  induction h generalizing l' with
  | root hr => cases h' with
    | root => rfl
    | step hs => rw [hr] at hs; cases hs
  | step hs _ ih => cases h' with
    | root hr => rw [hs] at hr; cases hr
    | step hs' hp =>
      rw [hs] at hs'
      cases hs'
      rw [ih hp]

theorem Path.suffix {m : HashMap} {e x : Entry} {a b : List Entry} (h : Path m e (a ++ x :: b)) :
    Path m x (x :: b) := by
  induction a generalizing e with
  | nil =>
    obtain ⟨t, ht⟩ := h.head
    simp only [List.nil_append, List.cons.injEq] at ht
    rw [ht.1]
    rw [List.nil_append, ht.1] at h
    exact h
  | cons y a ih =>
    generalize hq : y :: a ++ x :: b = q at h
    cases h with
    | root => simp at hq
    | step _ hp =>
      simp only [List.cons_append, List.cons.injEq] at hq
      rw [← hq.2] at hp
      exact ih hp

theorem Path.mono {m : HashMap} {k : Bytes} {v e : Entry} {l : List Entry}
    (hroot : ∀ x ∈ l, AMap.get m x.hdr.prevBlock = none → x.hdr.prevBlock ≠ k)
    (hk : AMap.get m k = none) (h : Path m e l) : Path (AMap.set m k v) e l := by
  induction h with
  | root hr =>
    apply Path.root
    rw [AMap.get_set, if_neg (fun h => hroot _ (by simp) hr h.symm)]
    exact hr
  | step hs _ ih =>
    refine Path.step ?_ (ih fun x hx => hroot x (List.mem_cons_of_mem _ hx))
    rw [AMap.get_set, if_neg]
    · exact hs
    · rintro rfl; rw [hk] at hs; cases hs

/-- Every member of a path but the head is stored. -/
theorem Path.stored {m : HashMap} {e : Entry} {l : List Entry} (h : Path m e l) :
    ∀ x ∈ l, x = e ∨ ∃ k, AMap.get m k = some x := by
  induction h with
  | root => intro x hx; simp at hx; exact .inl hx
  | step hs _ ih =>
    intro x hx
    rcases List.mem_cons.1 hx with rfl | hx
    · exact .inl rfl
    · rcases ih x hx with rfl | h
      · exact .inr ⟨_, hs⟩
      · exact .inr h

/-- Heights go down by one along the list. -/
def Steps (l : List Entry) : Prop :=
  ∀ i a b, l[i]? = some a → l[i+1]? = some b → a.height = b.height + 1

theorem Steps.tail {a : Entry} {l : List Entry} (h : Steps (a :: l)) : Steps l := fun i x y hx hy =>
  h (i + 1) x y (by simpa using hx) (by simpa using hy)

theorem Steps.drop {a b : List Entry} (h : Steps (a ++ b)) : Steps b := by
  induction a with
  | nil => exact h
  | cons x a ih => exact ih h.tail

theorem Steps.index {a : Entry} {l : List Entry} (h : Steps (a :: l)) (i : Nat) {b : Entry}
    (hb : (a :: l)[i]? = some b) : b.height + i = a.height := by
  induction i generalizing b with
  | zero => simp at hb; subst hb; rfl
  | succ i ih =>
    have hi : i < (a :: l).length := by
      have := (List.getElem?_eq_some_iff.1 hb).1; omega
    have := ih (List.getElem?_eq_getElem hi)
    have := h i _ b (List.getElem?_eq_getElem hi) hb
    omega

theorem Steps.le {a b : Entry} {l : List Entry} (h : Steps (a :: l)) (hb : b ∈ a :: l) :
    b.height ≤ a.height := by
  obtain ⟨i, hi⟩ := List.mem_iff_getElem?.1 hb
  have := h.index i hi
  omega

theorem Steps.lt {a b : Entry} {l : List Entry} (h : Steps (a :: l)) (hb : b ∈ l) :
    b.height < a.height := by
  obtain ⟨i, hi⟩ := List.mem_iff_getElem?.1 hb
  have := h.index (i+1) (b := b) (by simpa using hi)
  omega

theorem Steps.gt {c : List Entry} {f x : Entry} {l : List Entry} (h : Steps (c ++ f :: l)) (hx : x ∈ c) :
    f.height < x.height := by
  induction c with
  | nil => simp at hx
  | cons y c ih =>
    rcases List.mem_cons.1 hx with rfl | hx
    · exact Steps.lt (l := c ++ f :: l) h (by simp)
    · exact ih h.tail hx

theorem Steps.ge_last {l : List Entry} {x r : Entry} (h : Steps l) (hr : l.getLast? = some r) (hx : x ∈ l) :
    r.height ≤ x.height := by
  induction l with
  | nil => simp at hx
  | cons a l ih =>
    have hra : r ∈ a :: l := List.mem_of_getLast? hr
    rcases List.mem_cons.1 hx with rfl | hx
    · exact h.le hra
    · cases l with
      | nil => simp at hx
      | cons b l =>
        rw [List.getLast?_cons_cons] at hr
        exact ih h.tail hr hx

/-! The walking functions -/

theorem mtpTimes_none (m : HashMap) (n : Nat) : mtpTimes m n none = [] := by cases n <;> rfl

theorem mtpTimes_path {m : HashMap} {e : Entry} {l : List Entry} (h : Path m e l) (n : Nat) :
    mtpTimes m n (some e) = (l.take n).map fun x => toI64 x.hdr.time := by
  induction n generalizing e l with
  | zero => rfl
  | succ n ih =>
    cases h with
    | root hr => simp [mtpTimes, hr, mtpTimes_none]
    | step hs hp => simp [mtpTimes, hs, ih hp]

theorem mtp_spec {m : HashMap} {e : Entry} {l : List Entry} (h : Path m e l)
    (ht : ∀ x ∈ l, x.hdr.time < 2 ^ 63) :
    ∃ t : Nat, mtp m e = t ∧ IsMedian t (((l.map blk).take 11).map (·.time)) := by
  have h1 : mtpTimes m 11 (some e) = (((l.map blk).take 11).map (·.time)).map (fun n : Nat => (n : Int)) := by
    rw [mtpTimes_path h, ← List.map_take, List.map_map, List.map_map]
    apply List.map_congr_left
    intro x hx
    simp only [Function.comp, blk]
    exact toI64_of_lt (ht x (List.mem_of_mem_take hx))
  obtain ⟨t, rfl⟩ := h.head
  unfold mtp
  simp only [h1, List.length_map]
  have := isMedian_isort (((List.map blk (e :: t)).take 11).map (·.time)) (by simp)
  obtain ⟨m', h2, h3⟩ := this
  rw [List.length_map] at h2
  exact ⟨m', h2, h3⟩

theorem suitableBlock_path {m : HashMap} {e : Entry} {l : List Entry} (h : Path m e l) :
    (∃ y x, l[1]? = some y ∧ l[2]? = some x ∧ suitableBlock m e = .ok (pickMiddle x y e)) ∨
    (l.length < 3 ∧ suitableBlock m e = .ub) := by
  unfold suitableBlock
  cases h with
  | root hr => right; simp [hr]
  | step hs hp =>
    cases hp with
    | root hr => right; simp [hs, hr]
    | step hs' hp' =>
      left
      obtain ⟨t, rfl⟩ := hp'.head
      exact ⟨_, _, rfl, rfl, by simp [hs, hs']⟩

theorem ancestorLoop_path {m : HashMap} {e : Entry} {l : List Entry} (h : Path m e l) (hs : Steps l)
    (k fuel : Nat) (hk : k ≤ e.height) (hf : k < fuel) :
    (∃ a, l[k]? = some a ∧ ancestorLoop m (e.height - k) fuel e = .ok a) ∨
    (l.length ≤ k ∧ ancestorLoop m (e.height - k) fuel e = .ub) := by
  induction k generalizing e l fuel with
  | zero =>
    obtain ⟨t, rfl⟩ := h.head
    obtain ⟨f, rfl⟩ : ∃ f, fuel = f + 1 := ⟨fuel - 1, by omega⟩
    left
    exact ⟨e, by simp, by simp [ancestorLoop]⟩
  | succ k ih =>
    obtain ⟨f, rfl⟩ : ∃ f, fuel = f + 1 := ⟨fuel - 1, by omega⟩
    have hne : e.height ≠ e.height - (k + 1) := by omega
    cases h with
    | root hr => right; simp [ancestorLoop, hne, hr]
    | step hg hp =>
      obtain ⟨t, rfl⟩ := hp.head
      rename_i p
      have hh : e.height = p.height + 1 := hs 0 e p (by simp) (by simp)
      have he : e.height - (k + 1) = p.height - k := by omega
      simp only [ancestorLoop, hne, if_false, hg]
      rw [he]
      rcases ih hp hs.tail f (by omega) (by omega) with ⟨a, h1, h2⟩ | ⟨h1, h2⟩
      · exact .inl ⟨a, by simpa using h1, h2⟩
      · exact .inr ⟨by simpa using h1, h2⟩

theorem getTarget_spec (P : Params) {m : HashMap} {e : Entry} {l : List Entry} (h : Path m e l)
    (hs : Steps l) (hlim : P.limit.length = 32) (ht : ∀ x ∈ l, x.hdr.time < 2 ^ 63)
    (hw : ∀ x ∈ l, x.work.length = 32) {time : Nat} (htm : time < 2 ^ 63) :
    (∃ b, getTarget P m (toI64 time) e = .ok b ∧ Demanded (rules P) time (l.map blk) b) ∨
    (getTarget P m (toI64 time) e = .ub ∧ l.length < 147 ∧ 146 ≤ e.height) := by
  obtain ⟨t, hl⟩ := h.head
  have he : e.hdr.time < 2 ^ 63 := ht e (by simp [hl])
  have h0 : (l.map blk)[0]? = some (blk e) := by simp [hl]
  by_cases hearly : P.noRetarget = true ∨ (P.targetReset = true ∧ e.hdr.time + 1200 < time) ∨ e.height < 146
  · left
    refine ⟨P.bits, ?_, blk e, h0, ?_⟩
    · unfold getTarget
      rw [toI64_of_lt he, toI64_of_lt htm]
      by_cases c1 : P.noRetarget = true
      · rw [if_pos c1]
      rw [if_neg c1]
      by_cases c2 : P.targetReset = true ∧ (time : Int) > e.hdr.time + 600 * 2
      · rw [if_pos c2]
      rw [if_neg c2, if_pos]
      rcases hearly with h1 | ⟨h1, h2⟩ | h1
      · exact absurd h1 c1
      · exact absurd ⟨h1, by omega⟩ c2
      · omega
    · rw [if_pos]
      · rfl
      · exact hearly
  · simp only [not_or, Bool.not_eq_true, not_and] at hearly
    obtain ⟨n1, n2, n3⟩ := hearly
    have n2' : ¬ (P.targetReset = true ∧ toI64 time > toI64 e.hdr.time + 600 * 2) := by
      rw [toI64_of_lt he, toI64_of_lt htm]
      rintro ⟨h1, h2⟩
      exact n2 h1 (by omega)
    unfold getTarget
    rw [if_neg (by simp [n1]), if_neg n2', if_neg (by omega)]
    by_cases hlen : l.length < 147
    · right
      refine ⟨?_, hlen, by omega⟩
      rcases suitableBlock_path h with ⟨y, x, _, _, hsb⟩ | ⟨_, hsb⟩
      · simp only [hsb, Out.bind_ok]
        have : getAncestor m e (e.height - 144) = ancestorLoop m (e.height - 144) (e.height + 1) e := by
          simp [getAncestor]
        rw [this]
        rcases ancestorLoop_path h hs 144 (e.height + 1) (by omega) (by omega) with ⟨a, h1, h2⟩ | ⟨_, h2⟩
        · simp only [h2, Out.bind_ok]
          obtain ⟨hi, ha⟩ := List.getElem?_eq_some_iff.1 h1
          have hsp : l = l.take 144 ++ a :: l.drop 145 := by
            rw [← ha, ← List.drop_eq_getElem_cons, List.take_append_drop]
          have hp : Path m a (a :: l.drop 145) := by rw [hsp] at h; exact h.suffix
          rcases suitableBlock_path hp with ⟨y', x', _, hx', _⟩ | ⟨_, hsb'⟩
          · have := (List.getElem?_eq_some_iff.1 hx').1
            simp at this
            omega
          · simp [hsb']
        · simp [h2]
      · simp [hsb]
    · left
      rcases suitableBlock_path h with ⟨y, x, hy, hx, hsb⟩ | ⟨h3, _⟩
      swap
      · omega
      simp only [hsb, Out.bind_ok]
      have : getAncestor m e (e.height - 144) = ancestorLoop m (e.height - 144) (e.height + 1) e := by
        simp [getAncestor]
      rw [this]
      rcases ancestorLoop_path h hs 144 (e.height + 1) (by omega) (by omega) with ⟨c, h1, h2⟩ | ⟨h3, _⟩
      swap
      · omega
      simp only [h2, Out.bind_ok]
      obtain ⟨hi, ha⟩ := List.getElem?_eq_some_iff.1 h1
      have hsp : l = l.take 144 ++ c :: l.drop 145 := by
        rw [← ha, ← List.drop_eq_getElem_cons, List.take_append_drop]
      have hp : Path m c (c :: l.drop 145) := by
        have h' := h
        rw [hsp] at h'; exact h'.suffix
      rcases suitableBlock_path hp with ⟨b, a, hb, hba, hsb'⟩ | ⟨h3, _⟩
      swap
      · simp at h3; omega
      simp only [hsb', Out.bind_ok]
      have hb' : l[145]? = some b := by
        simpa [List.getElem?_drop] using hb
      have ha' : l[146]? = some a := by
        simpa [List.getElem?_drop] using hba
      have he0 : l[0]? = some e := by simp [hl]
      have mem : ∀ i z, l[i]? = some z → z ∈ l := fun i z hz => List.mem_iff_getElem?.2 ⟨i, hz⟩
      have hsl : Steps (e :: t) := hl ▸ hs
      have ih : ∀ i z, l[i]? = some z → z.height + i = e.height := fun i z hz =>
        hsl.index i (hl ▸ hz)
      have hf : pickMiddle a b c ∈ l ∧ (pickMiddle a b c).height + 144 ≤ e.height := by
        have := ih _ _ ha'; have := ih _ _ hb'; have := ih _ _ h1
        rcases pickMiddle_mem a b c with h | h | h <;> rw [h]
        · exact ⟨mem _ _ ha', by omega⟩
        · exact ⟨mem _ _ hb', by omega⟩
        · exact ⟨mem _ _ h1, by omega⟩
      have hg : pickMiddle x y e ∈ l ∧ e.height ≤ (pickMiddle x y e).height + 2 := by
        have := ih _ _ hx; have := ih _ _ hy
        rcases pickMiddle_mem x y e with h | h | h <;> rw [h]
        · exact ⟨mem _ _ hx, by omega⟩
        · exact ⟨mem _ _ hy, by omega⟩
        · exact ⟨mem _ _ he0, by omega⟩
      obtain ⟨r, r1, r2⟩ := retarget_spec P hlim (hw _ hf.1) (hw _ hg.1) (ht _ hf.1) (ht _ hg.1)
        (by omega)
      refine ⟨r, r1, blk e, h0, ?_⟩
      rw [if_neg]
      · refine ⟨blk y, blk x, blk a, blk b, blk c, by simp [hy], by simp [hx], by simp [h1],
          by simp [hb'], by simp [ha'], ?_⟩
        rw [← blk_pickMiddle, ← blk_pickMiddle]
        exact r2
      · simp only [rules, n1, blk, Bool.false_eq_true, false_or, not_or, not_and]
        exact ⟨n2, n3⟩

/-! Forks -/

theorem lowerTo_spec {m : HashMap} (h : Nat) {b : Entry} {lb : List Entry} (hp : Path m b lb)
    (hs : Steps lb) (fuel : Nat) (hf : b.height < fuel) :
    (∃ C b' L, lowerTo m h fuel b = some (some b') ∧ lb = C ++ b' :: L ∧ Path m b' (b' :: L) ∧
      b'.height ≤ h ∧ (C = [] ∨ b'.height = h)) ∨
    (lowerTo m h fuel b = some none ∧ ∀ x ∈ lb, h < x.height) := by
  induction fuel generalizing b lb with
  | zero => omega
  | succ f ih =>
    by_cases hgt : b.height > h
    · simp only [lowerTo, hgt, if_true]
      cases hp with
      | root hr => right; simp [hr, hgt]
      | step hg hp =>
        obtain ⟨t, rfl⟩ := hp.head
        rename_i p
        have hh : b.height = p.height + 1 := hs 0 b p (by simp) (by simp)
        simp only [hg]
        rcases ih hp hs.tail (by omega) with ⟨C, b', L, h1, h2, h3, h4, h5⟩ | ⟨h1, h2⟩
        · left
          refine ⟨b :: C, b', L, h1, by rw [h2]; rfl, h3, h4, .inr ?_⟩
          rcases h5 with rfl | h5
          · simp only [List.nil_append, List.cons.injEq] at h2
            rw [← h2.1] at h4 ⊢
            omega
          · exact h5
        · right
          refine ⟨h1, ?_⟩
          intro x hx
          rcases List.mem_cons.1 hx with rfl | hx
          · exact hgt
          · exact h2 x hx
    · left
      obtain ⟨t, rfl⟩ := hp.head
      exact ⟨[], b, t, by simp [lowerTo, hgt], rfl, hp, by omega, .inl rfl⟩

theorem findFork_spec {m : HashMap} (fuel : Nat) {a b : Entry} {la lb : List Entry}
    (ha : Path m a la) (hb : Path m b lb) (sa : Steps la) (sb : Steps lb) (hf : a.height < fuel)
    (heq : ∀ x ∈ la, ∀ y ∈ lb, x.hash = y.hash → x = y) :
    (∃ f D C L, findFork m fuel a b = some (some f) ∧ la = D ++ f :: L ∧ lb = C ++ f :: L) ∨
    (findFork m fuel a b = some none ∧ la.getLast? ≠ lb.getLast?) := by
  induction fuel generalizing a b la lb with
  | zero => omega
  | succ n ih =>
    obtain ⟨ta, hla⟩ := ha.head
    obtain ⟨tb, hlb⟩ := hb.head
    by_cases h1 : a.hash = b.hash
    · have hab : a = b := heq a (by simp [hla]) b (by simp [hlb]) h1
      left
      refine ⟨a, [], [], ta, by simp [findFork, h1], by simpa using hla, ?_⟩
      rw [← hab] at hb
      rw [hb.unique ha, hla]; rfl
    · simp only [findFork, h1, if_false]
      rcases lowerTo_spec a.height hb sb (b.height + 1) (by omega) with ⟨C, b', L, h2, h3, h4, h5, h6⟩ | ⟨h2, h3⟩
      · simp only [h2]
        have hb'mem : b' ∈ lb := by rw [h3]; simp
        by_cases h7 : a.hash = b'.hash
        · have hab : a = b' := heq a (by simp [hla]) b' hb'mem h7
          simp only [h7, if_true]
          left
          rw [← hab] at h4
          have := h4.unique ha
          refine ⟨a, [], C, L, rfl, by rw [← this]; rfl, by rw [h3, hab]⟩
        · simp only [h7, if_false]
          have hs' : Steps (b' :: L) := by rw [h3] at sb; exact sb.drop
          cases ha with
          | root hr =>
            right
            simp only [hr, true_and]
            intro hlast
            have ha_last : lb.getLast? = some a := by rw [← hlast]; rfl
            rw [h3, List.getLast?_append] at ha_last
            have hne : (b' :: L).getLast? ≠ none := by simp
            obtain ⟨r, hr'⟩ := Option.ne_none_iff_exists'.1 hne
            rw [hr', Option.some_or, Option.some.injEq] at ha_last
            subst ha_last
            have hmem := List.mem_of_getLast? hr'
            rcases List.mem_cons.1 hmem with rfl | hmem
            · exact h7 rfl
            · have := hs'.lt hmem
              omega
          | step hg hp =>
            simp only [hg]
            rename_i p l
            obtain ⟨t, hl⟩ := hp.head
            have hh : a.height = p.height + 1 := sa 0 a p (by simp) (by simp [hl])
            rcases ih hp h4 sa.tail hs' (by omega)
              (fun x hx y hy => heq x (List.mem_cons_of_mem _ hx) y (by
                rw [h3]; exact List.mem_append_right _ hy)) with ⟨f, D, C', L', g1, g2, g3⟩ | ⟨g1, g2⟩
            · left
              refine ⟨f, a :: D, C ++ C', L', g1, by rw [g2]; rfl, ?_⟩
              rw [h3, g3, List.append_assoc]
            · right
              refine ⟨g1, ?_⟩
              rw [h3, List.getLast?_append]
              have hne : (b' :: L).getLast? ≠ none := by simp
              obtain ⟨r, hr'⟩ := Option.ne_none_iff_exists'.1 hne
              rw [hr', Option.some_or, ← hr']
              rw [hl] at g2 ⊢
              rw [List.getLast?_cons_cons]
              exact g2
      · simp only [h2]
        right
        refine ⟨trivial, ?_⟩
        intro hlast
        have hne : la.getLast? ≠ none := by rw [hla]; simp
        obtain ⟨r, hr'⟩ := Option.ne_none_iff_exists'.1 hne
        have m1 := List.mem_of_getLast? hr'
        rw [hlast] at hr'
        have m2 := List.mem_of_getLast? hr'
        have := h3 r m2
        rw [hla] at m1 sa
        have := sa.le m1
        omega

theorem collectTo_spec {m : HashMap} {f : Entry} {L : List Entry} (C : List Entry) {e : Entry}
    (hp : Path m e (C ++ f :: L)) (hne : ∀ x ∈ C, x.hash ≠ f.hash) (fuel : Nat) (hf : C.length < fuel) :
    collectTo m f fuel e = .ok C := by
  induction C generalizing e fuel with
  | nil =>
    obtain ⟨t, ht⟩ := hp.head
    simp only [List.nil_append, List.cons.injEq] at ht
    obtain ⟨g, rfl⟩ : ∃ g, fuel = g + 1 := ⟨fuel - 1, by omega⟩
    simp [collectTo, ht.1]
  | cons x C ih =>
    obtain ⟨g, rfl⟩ : ∃ g, fuel = g + 1 := ⟨fuel - 1, by omega⟩
    have hx : x.hash ≠ f.hash := hne x (by simp)
    generalize hq : x :: C ++ f :: L = q at hp
    cases hp with
    | root => simp at hq
    | step hg hp =>
      simp only [List.cons_append, List.cons.injEq] at hq
      rw [← hq.2] at hp
      rw [hq.1] at hx ⊢
      have := ih hp (fun y hy => hne y (List.mem_cons_of_mem _ hy)) g (by simp at hf; omega)
      simp [collectTo, hx, hg, this, Out.bind]

/-! The height index -/

theorem get_foldl_del (D : List Entry) (hs : AMap Nat Entry) (n : Nat) :
    AMap.get (D.foldl (fun hs e => AMap.del hs e.height) hs) n =
      if ∃ x ∈ D, x.height = n then none else AMap.get hs n := by
  induction D generalizing hs with
  | nil => simp
  | cons d D ih =>
    simp only [List.foldl_cons, ih, AMap.get_del]
    by_cases h1 : ∃ x ∈ D, x.height = n
    · rw [if_pos h1, if_pos (by obtain ⟨x, hx, hn⟩ := h1; exact ⟨x, List.mem_cons_of_mem _ hx, hn⟩)]
    · rw [if_neg h1]
      by_cases h2 : d.height = n
      · rw [if_pos h2, if_pos ⟨d, by simp, h2⟩]
      · rw [if_neg h2, if_neg]
        rintro ⟨x, hx, hn⟩
        rcases List.mem_cons.1 hx with rfl | hx
        · exact h2 hn
        · exact h1 ⟨x, hx, hn⟩

theorem get_foldl_set (C : List Entry) (hs : AMap Nat Entry) (n : Nat) :
    AMap.get (C.reverse.foldl (fun hs e => AMap.set hs e.height e) hs) n =
      (C.find? (fun x => x.height = n)).or (AMap.get hs n) := by
  induction C with
  | nil => simp
  | cons c C ih =>
    rw [List.reverse_cons, List.foldl_append]
    simp only [List.foldl_cons, List.foldl_nil, AMap.get_set, ih, List.find?_cons]
    by_cases h : c.height = n
    · simp [h]
    · simp [h]

/-- Rewiring the height index from the path `D ++ f :: L` to `C ++ f :: L`. -/
theorem index_rewire {D C L : List Entry} {f r : Entry} {hs hs' : AMap Nat Entry}
    {base : Nat → Option Entry} (sD : Steps (D ++ f :: L)) (sC : Steps (C ++ f :: L))
    (hr : (f :: L).getLast? = some r)
    (hold : ∀ n, AMap.get hs n = if r.height ≤ n then (D ++ f :: L).find? (fun x => x.height = n) else base n)
    (hnew : ∀ n, AMap.get hs' n = (C.find? (fun x => x.height = n)).or
      (if ∃ x ∈ D, x.height = n then none else AMap.get hs n)) (n : Nat) :
    AMap.get hs' n = if r.height ≤ n then (C ++ f :: L).find? (fun x => x.height = n) else base n := by
  have hrf : r.height ≤ f.height := (sD.drop).ge_last hr (by simp)
  rw [hnew, List.find?_append]
  cases hc : C.find? (fun x => x.height = n) with
  | some x =>
    have hx := List.mem_of_find?_eq_some hc
    have hxn := List.find?_some hc
    simp only [decide_eq_true_eq] at hxn
    have := sC.gt hx
    simp only [Option.some_or]
    rw [if_pos (by omega)]
  | none =>
    simp only [Option.none_or]
    by_cases hd : ∃ x ∈ D, x.height = n
    · rw [if_pos hd]
      obtain ⟨x, hx, hxn⟩ := hd
      have := sD.gt hx
      rw [if_pos (by omega)]
      symm
      rw [List.find?_eq_none]
      intro y hy
      have := (sD.drop).le hy
      simp only [decide_eq_true_eq]
      omega
    · rw [if_neg hd, hold]
      split
      · rw [List.find?_append]
        have : D.find? (fun x => x.height = n) = none := by
          rw [List.find?_eq_none]
          intro y hy
          simp only [decide_eq_true_eq]
          exact fun h => hd ⟨y, hy, h⟩
        rw [this, Option.none_or]
      · rfl

end Verif.Chain
