import Verif.Lemmas.Cache
import Verif.Lemmas.Eval
/-
C32: the response cache never lies.
-/
namespace Verif.Props.Cache
open Verif.Cache Verif.Spec.DnsName Verif.Spec.Req Verif.Spec.Cache

/-- C32 (part: but for names "_x.y"). Any history of insertions and lookups, on any clock, runs to
its end; the cache then holds at most 2000 entries; and looking up any query gives either nothing
or the bytes of an earlier insertion for a query that shares its entry, less than six hours old on
the clock of the lookup. -/
theorem C32_history_partial (ops : List Op) (hops : ∀ o ∈ ops, Good o) :
    ∃ c, run [] ops = .ok c ∧ AMap.size c ≤ 2000 ∧
      ∀ (now : Int) (ls : List Bytes) (type : Nat), GoodQuery ls → ∃ r c', getData now c (text ls) type = .ok (r, c') ∧
        ∀ wire, r = some wire → ∃ (before after : List Op) (now0 now0' : Int) (ls0 : List Bytes) (type0 : Nat),
          ops = before ++ .insert now0 now0' (text ls0) type0 wire :: after ∧ OkName ls0 ∧ SameEntry ls type ls0 type0 ∧ now < now0' + 21600 := by
  obtain ⟨c, h1, h2⟩ := inv_run ops [] [] inv_empty hops
  rw [List.nil_append] at h2
  refine ⟨c, h1, h2.size, fun now ls type hq => ?_⟩
  unfold getData
  rw [keySet_text hq]
  simp only [Out.bind]
  by_cases hc : Clean (text ls)
  · rw [if_pos hc]
    dsimp only
    cases hg : AMap.get c (keyOf ls type) with
    | none => exact ⟨_, _, rfl, fun w hw => by cases hw⟩
    | some item =>
      dsimp only
      rw [expiry_ok (h2.time _ _ hg)]
      dsimp only
      split
      · exact ⟨_, _, rfl, fun w hw => by cases hw⟩
      · refine ⟨_, _, rfl, fun w hw => ?_⟩
        cases hw
        obtain ⟨b, a, now0, ls0, type0, e, h3, h4⟩ := h2.stored _ _ hg
        exact ⟨b, a, now0, item.time, ls0, type0, e, h3.1, (keyOf_eq hq.1 h3.1).1 h4, by omega⟩
  · rw [if_neg hc]
    exact ⟨_, _, rfl, fun w hw => by cases hw⟩

/-- C32 (a hit). In any cache that a history leads to, after inserting for a query that can be
served, a lookup for any query that shares the entry gives, less than six hours later, the bytes
inserted if there was no fresh entry before. -/
theorem C32_hit (ops : List Op) (hops : ∀ o ∈ ops, Good o) (c : Cache) (hrun : run [] ops = .ok c)
    (now now1 now1' now2 : Int) (ls ls' : List Bytes) (type type' : Nat) (wire : Bytes)
    (hq : GoodQuery ls) (hq' : GoodQuery ls') (hc : Clean (text ls)) (hc' : Clean (text ls')) (same : SameEntry ls' type' ls type)
    (miss : ∃ c0, getData now c (text ls) type = .ok (none, c0)) (h1 : now ≤ now1) (h2 : now2 < now1' + 21600) (ht : now1' < 2 ^ 62) :
    ∃ c1, insertData now1 now1' c (text ls) type wire = .ok (true, c1) ∧ ∃ c2, getData now2 c1 (text ls') type' = .ok (some wire, c2) := by
  obtain ⟨c', hr', hinv⟩ := inv_run ops [] [] inv_empty hops
  rw [hrun] at hr'
  cases hr'
  rw [List.nil_append] at hinv
  have hk : keyOf ls' type' = keyOf ls type := (keyOf_eq hq'.1 hq.1).2 same
  have fresh : ∀ m : Cache, ∃ c2, getData now2 (store now1' m (keyOf ls type) wire) (text ls') type' = .ok (some wire, c2) := by
    intro m
    unfold getData
    rw [keySet_text hq', if_pos hc', hk]
    simp only [Out.bind]
    unfold store
    rw [AMap.get_set, if_pos rfl]
    dsimp only
    rw [expiry_ok ht]
    dsimp only
    rw [if_neg (by omega)]
    exact ⟨_, rfl⟩
  obtain ⟨c0, miss⟩ := miss
  unfold getData at miss
  rw [keySet_text hq, if_pos hc] at miss
  simp only [Out.bind] at miss
  unfold insertData
  rw [keySet_text hq, if_pos hc]
  simp only [Out.bind]
  cases hg : AMap.get c (keyOf ls type) with
  | none => exact ⟨_, rfl, fresh _⟩
  | some item =>
    rw [hg] at miss
    dsimp only at miss ⊢
    rw [expiry_ok (hinv.time _ _ hg)] at miss ⊢
    dsimp only at miss ⊢
    by_cases h : now ≥ item.time + 21600
    · rw [if_neg (by omega)]
      exact ⟨_, rfl, fresh _⟩
    · rw [if_neg h] at miss
      simp at miss

/-- C32 (keys that may not be cached). A name of other than printable ASCII, or with a character
that resolvers escape, is not cached and is never found. -/
theorem C32_unclean (c : Cache) (now now' : Int) (ls : List Bytes) (type : Nat) (wire : Bytes) (hq : GoodQuery ls) (hc : ¬ Clean (text ls)) :
    getData now c (text ls) type = .ok (none, c) ∧ insertData now now' c (text ls) type wire = .ok (false, c) := by
  unfold getData insertData
  rw [keySet_text hq, if_neg hc]
  exact ⟨rfl, rfl⟩

/-- Looking up any name "_x.y", such as arrives in any query for it, fails an assertion: the one
character decodes to no byte (src/resource.c:1173). The same in an empty cache. -/
theorem C32_abort_false : OkName [[0x5f, 0x61], [0x62]] ∧ ∀ (c : Cache) (now : Int) (type : Nat), getData now c (text [[0x5f, 0x61], [0x62]]) type = .ub := by
  refine ⟨by simp only [OkName, OkLabel]; decide, fun c now type => ?_⟩
  have h1 : DnsName.verify (text [[0x5f, 0x61], [0x62]]) = .ok true := by decide +kernel
  have h2 : DnsName.dirty (text [[0x5f, 0x61], [0x62]]) = false := by decide +kernel
  have h3 : Label.count (text [[0x5f, 0x61], [0x62]]) = 2 := by decide +kernel
  have h4 : Resource.isPtr (text [[0x5f, 0x61], [0x62]]) = .ub := by decide +kernel
  have h5 : keySet (text [[0x5f, 0x61], [0x62]]) type = .ub := by
    unfold keySet
    rw [h1]
    simp only [Out.bind, Bool.not_true, Bool.false_eq_true, if_false]
    rw [h2, if_neg (by simp)]
    unfold isRef
    rw [h3]
    rw [h4]
    rfl
  unfold getData
  rw [h5]
  rfl

/-! ### Examples -/

/-- "www.Foo." and "mail.foo." share the referral of "foo"; "foo." itself has its own entry. -/
def www : List Bytes := [[0x77, 0x77, 0x77], [0x46, 0x6f, 0x6f]]
def mail : List Bytes := [[0x6d, 0x61, 0x69, 0x6c], [0x66, 0x6f, 0x6f]]

theorem www_good : GoodQuery www := ⟨by simp only [OkName, OkLabel, www]; decide, fun c b h => by simp [www] at h⟩
theorem mail_good : GoodQuery mail := ⟨by simp only [OkName, OkLabel, mail]; decide, fun c b h => by simp [mail] at h⟩

example : ∀ o ∈ [Op.insert 100 100 (text www) 1 [1, 2], .get 101 (text mail) 28], Good o := by
  intro o ho
  simp only [List.mem_cons, List.not_mem_nil, or_false] at ho
  rcases ho with rfl | rfl
  · exact ⟨⟨www, www_good, rfl⟩, by decide⟩
  · exact ⟨mail, mail_good, rfl⟩

example : ∃ c, run [] [.insert 100 100 (text www) 1 [1, 2]] = .ok c ∧ (∃ c', getData 21699 c (text mail) 28 = .ok (some [1, 2], c')) ∧
    (∃ c', getData 21700 c (text mail) 28 = .ok (none, c')) ∧ (∃ c', getData 101 c (text [[0x66, 0x6f, 0x6f]]) 1 = .ok (none, c')) := by
  obtain ⟨c, h, e⟩ := okWith_spec (p := fun c => okWith (fun (r : Option Bytes × Cache) => decide (r.1 = some [1, 2])) (getData 21699 c (text mail) 28) &&
    okWith (fun (r : Option Bytes × Cache) => decide (r.1 = none)) (getData 21700 c (text mail) 28) && okWith (fun (r : Option Bytes × Cache) => decide (r.1 = none)) (getData 101 c (text [[0x66, 0x6f, 0x6f]]) 1))
    (r := run [] [.insert 100 100 (text www) 1 [1, 2]]) (by decide +kernel)
  simp only [Bool.and_eq_true] at e
  obtain ⟨⟨e1, e2⟩, e3⟩ := e
  obtain ⟨⟨_, c1⟩, h1, d1⟩ := okWith_spec e1
  obtain ⟨⟨_, c2⟩, h2, d2⟩ := okWith_spec e2
  obtain ⟨⟨_, c3⟩, h3, d3⟩ := okWith_spec e3
  have d1 := of_decide_eq_true d1
  have d2 := of_decide_eq_true d2
  have d3 := of_decide_eq_true d3
  dsimp only at d1 d2 d3
  subst d1 d2 d3
  exact ⟨c, h, ⟨c1, h1⟩, ⟨c2, h2⟩, ⟨c3, h3⟩⟩

/-- "_aaaaaaa.b." is answered for itself: the label stands for an IPv4 address. -/
example : Own [[0x5f, 0x61, 0x61, 0x61, 0x61, 0x61, 0x61, 0x61], [0x62]] 1 :=
  .inr (.inl ⟨_, _, rfl, [0x61, 0x61, 0x61, 0x61, 0x61, 0x61, 0x61], rfl, .inl rfl, by unfold IsB32 Spec.Label.IsDigit; decide⟩)

end Verif.Props.Cache
