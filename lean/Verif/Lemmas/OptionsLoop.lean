import Verif.Lemmas.Options
/-
Helper lemmas about the loop over the options.
-/
namespace Verif.Options
open Verif.Spec.Options
open Verif.Addr (Inet Sa)

/-! ### Memory -/

/-- The block a text is in. -/
def blk : Option Str → List Nat
  | some ⟨.blk n, _⟩ => [n]
  | _ => []

/-- The text is in a block of its own. -/
def onHeap (x : Option Str) : Prop := ∀ s, x = some s → s.ptr ≠ .inside

theorem freeIf_spec {ε : Type} (h : Heap) (x : Option Str) (hx : onHeap x) (r : Nat → Nat)
    (hc : ∀ n, h.live.count n = (blk x).count n + r n) :
    ∃ h', (freeIf h (x.map (·.ptr)) : Out ε Heap) = .ok h' ∧ ∀ n, h'.live.count n = r n := by
  cases x with
  | none => exact ⟨h, rfl, fun n => by simpa [blk] using hc n⟩
  | some s =>
    obtain ⟨p, t⟩ := s
    cases p with
    | inside => exact absurd rfl (hx _ rfl)
    | blk m =>
      have hm : m ∈ h.live := by
        apply List.count_pos_iff.1
        have := hc m
        simp only [blk, List.count_singleton_self] at this
        omega
      refine ⟨{ h with live := h.live.erase m }, by simp [freeIf, free, hm], ?_⟩
      intro n
      have := hc n
      simp only [blk] at this
      rw [List.count_erase, this]
      by_cases e : m = n
      · subst e; simp
      · simp [List.count_cons, e]

/-- Every block in use is the one of a text, and every text has a block of its own. -/
structure Inv (st : St) : Prop where
  count : ∀ n, st.heap.live.count n = (blk st.o.config).count n + (blk st.o.rsConfig).count n + (blk st.o.seeds).count n +
    (blk st.o.userAgent).count n + (blk st.o.pre).count n + (blk st.log).count n
  config : onHeap st.o.config
  rsConfig : onHeap st.o.rsConfig
  seeds : onHeap st.o.seeds
  userAgent : onHeap st.o.userAgent
  pre : onHeap st.o.pre
  log : onHeap st.log
  len : st.o.key_.length = 32

theorem replace_spec (h : Heap) (x : Option Str) (s : Bytes) (hx : onHeap x) (r : Nat → Nat)
    (hc : ∀ n, h.live.count n = (blk x).count n + r n) :
    ∃ h' y, replace h x s = .ok (h', y) ∧ y.text = s ∧ onHeap (some y) ∧
      ∀ n, h'.live.count n = (blk (some y)).count n + r n := by
  obtain ⟨h1, e1, c1⟩ := freeIf_spec (ε := Exit) h x hx r hc
  refine ⟨(strdup h1 s).1, (strdup h1 s).2, ?_, rfl, ?_, ?_⟩
  · simp [replace, e1, Out.bind]
  · intro y hy
    simp only [Option.some.injEq] at hy
    subst hy
    simp [strdup]
  · intro n
    simp only [strdup, blk, List.count_cons, List.count_nil, c1 n]
    omega

/-! ### One option -/

/-- What an accepted option changes. -/
structure Effect (I : Inet) (x : Item) (st st' : St) : Prop where
  inv : Inv st'
  config : (∃ s, x = .opt 0x63 (some s) ∧ st'.o.config.map (·.text) = some s) ∨ ((∀ s, x ≠ .opt 0x63 (some s)) ∧ st'.o.config = st.o.config)
  rsConfig : (∃ s, x = .opt 0x75 (some s) ∧ st'.o.rsConfig.map (·.text) = some s) ∨ ((∀ s, x ≠ .opt 0x75 (some s)) ∧ st'.o.rsConfig = st.o.rsConfig)
  seeds : (∃ s, x = .opt 0x73 (some s) ∧ st'.o.seeds.map (·.text) = some s) ∨ ((∀ s, x ≠ .opt 0x73 (some s)) ∧ st'.o.seeds = st.o.seeds)
  userAgent : (∃ s, x = .opt 0x61 (some s) ∧ st'.o.userAgent.map (·.text) = some s) ∨ ((∀ s, x ≠ .opt 0x61 (some s)) ∧ st'.o.userAgent = st.o.userAgent)
  pre : (∃ s, x = .opt 0x78 (some s) ∧ st'.o.pre.map (·.text) = some s) ∨ ((∀ s, x ≠ .opt 0x78 (some s)) ∧ st'.o.pre = st.o.pre)
  log : (∃ s, x = .opt 0x6c (some s) ∧ st'.log.map (·.text) = some s) ∨ ((∀ s, x ≠ .opt 0x6c (some s)) ∧ st'.log = st.log)
  nsHost : (∃ s, x = .opt 0x6e (some s) ∧ saFromString I s 5349 = .ok st'.o.nsHost) ∨ ((∀ s, x ≠ .opt 0x6e (some s)) ∧ st'.o.nsHost = st.o.nsHost)
  rsHost : (∃ s, x = .opt 0x72 (some s) ∧ saFromString I s 5350 = .ok st'.o.rsHost) ∨ ((∀ s, x ≠ .opt 0x72 (some s)) ∧ st'.o.rsHost = st.o.rsHost)
  nsIp : (∃ s, x = .opt 0x69 (some s) ∧ saFromString I s 0 = .ok st'.o.nsIp ∧ st'.hasIp = true) ∨
    ((∀ s, x ≠ .opt 0x69 (some s)) ∧ st'.o.nsIp = st.o.nsIp ∧ st'.hasIp = st.hasIp)
  poolSize : (∃ s, x = .opt 0x70 (some s) ∧ Number s st'.o.poolSize ∧ 1 ≤ st'.o.poolSize ∧ st'.o.poolSize ≤ 1000) ∨
    ((∀ s, x ≠ .opt 0x70 (some s)) ∧ st'.o.poolSize = st.o.poolSize)
  key : (∃ s, x = .opt 0x6b (some s) ∧ HexText s st'.o.key_ ∧ st'.o.key = some .inside) ∨
    ((∀ s, x ≠ .opt 0x6b (some s)) ∧ st'.o.key_ = st.o.key_ ∧ st'.o.key = st.o.key)
  checkpoint : st'.o.checkpoint = true ↔ st.o.checkpoint = true ∨ ∃ a, x = .opt 0x74 a
  background : st'.background = true ↔ st.background = true ∨ ∃ a, x = .opt 0x64 a

theorem address_ok {I : Inet} {s : Bytes} {p : Nat} {a : Sa} (h : saFromString I s p = .ok a) : address I s p = .ok a := by
  simp [address, h]

theorem address_err {I : Inet} {s : Bytes} {p : Nat} (hu : saFromString I s p ≠ .ub) (h : ¬ ∃ a, saFromString I s p = .ok a) :
    address I s p = .err (.help 1) := by
  unfold address
  cases e : saFromString I s p with
  | ok a => exact absurd ⟨a, e⟩ h
  | err _ => rfl
  | ub => exact absurd e hu

theorem bind_mk {α β : Type} {x : Out Exit α} {a : α} {f : α → Out Exit β} {b : β} (h : x = .ok a) (hf : f a = .ok b) :
    x.bind f = .ok b := by rw [h]; exact hf

theorem bind_er {α β : Type} {x : Out Exit α} {e : Exit} {f : α → Out Exit β} (h : x = .err e) :
    x.bind f = .err e := by rw [h]; rfl

theorem withArg_fine (I : Inet) (st : St) (hi : Inv st) (c : UInt8) (s : Bytes)
    (hne : c ≠ 0x74 ∧ c ≠ 0x64)
    (hn : NoOverflow (.opt c (some s)))
    (h1 : c = 0x6e → ∃ a, saFromString I s 5349 = .ok a) (h2 : c = 0x72 → ∃ a, saFromString I s 5350 = .ok a)
    (h3 : c = 0x69 → ∃ a, saFromString I s 0 = .ok a)
    (h4 : c = 0x70 → ∃ v : Int, Number s v ∧ 1 ≤ v ∧ v ≤ 1000) (h5 : c = 0x6b → ∃ k, k.length = 32 ∧ HexText s k) :
    ∃ st', withArg I st c s = .ok st' ∧ Effect I (.opt c (some s)) st st' := by
  obtain ⟨hc, g1, g2, g3, g4, g5, g6, g7⟩ := hi
  unfold withArg
  by_cases c1 : c = 0x63
  · subst c1
    obtain ⟨h', y, e, ht, ho, hc'⟩ := replace_spec st.heap st.o.config s g1
      (fun n => (blk st.o.rsConfig).count n + (blk st.o.seeds).count n + (blk st.o.userAgent).count n + (blk st.o.pre).count n + (blk st.log).count n)
      (fun n => by rw [hc n]; omega)
    refine ⟨_, by rw [if_pos rfl, e]; rfl, ?_⟩
    constructor <;> first | (simp [ht]; done) | skip
    constructor <;> first | assumption | skip
    intro n; simp only [hc' n]; omega
  rw [if_neg c1]
  by_cases c2 : c = 0x6e
  · subst c2
    obtain ⟨a, ha⟩ := h1 rfl
    refine ⟨_, by rw [if_pos rfl, nsPort, address_ok ha]; rfl, ?_⟩
    constructor <;> first | (simp [ha]; done) | skip
    constructor <;> assumption
  rw [if_neg c2]
  by_cases c3 : c = 0x72
  · subst c3
    obtain ⟨a, ha⟩ := h2 rfl
    refine ⟨_, by rw [if_pos rfl, rsPort, address_ok ha]; rfl, ?_⟩
    constructor <;> first | (simp [ha]; done) | skip
    constructor <;> assumption
  rw [if_neg c3]
  by_cases c4 : c = 0x69
  · subst c4
    obtain ⟨a, ha⟩ := h3 rfl
    refine ⟨_, by rw [if_pos rfl, address_ok ha]; rfl, ?_⟩
    constructor <;> first | (simp [ha]; done) | skip
    constructor <;> assumption
  rw [if_neg c4]
  by_cases c5 : c = 0x75
  · subst c5
    obtain ⟨h', y, e, ht, ho, hc'⟩ := replace_spec st.heap st.o.rsConfig s g2
      (fun n => (blk st.o.config).count n + (blk st.o.seeds).count n + (blk st.o.userAgent).count n + (blk st.o.pre).count n + (blk st.log).count n)
      (fun n => by rw [hc n]; omega)
    refine ⟨_, by rw [if_pos rfl, e]; rfl, ?_⟩
    constructor <;> first | (simp [ht]; done) | skip
    constructor <;> first | assumption | skip
    intro n; simp only [hc' n]; omega
  rw [if_neg c5]
  by_cases c6 : c = 0x70
  · subst c6
    obtain ⟨v, hv, v1, v2⟩ := h4 rfl
    have := (size_spec s (hn rfl)).1 v hv v1 v2
    refine ⟨_, by rw [if_pos rfl, this]; rfl, ?_⟩
    constructor <;> first | (simp [hv, v1, v2]; done) | skip
    constructor <;> assumption
  rw [if_neg c6]
  by_cases c7 : c = 0x6b
  · subst c7
    obtain ⟨k, hk, ht⟩ := h5 rfl
    have := (key_spec st.o.key_ s g7).1 k hk ht
    refine ⟨_, by rw [if_pos rfl, this]; rfl, ?_⟩
    constructor <;> first | (simp [ht]; done) | skip
    constructor <;> assumption
  rw [if_neg c7]
  by_cases c8 : c = 0x73
  · subst c8
    obtain ⟨h', y, e, ht, ho, hc'⟩ := replace_spec st.heap st.o.seeds s g3
      (fun n => (blk st.o.config).count n + (blk st.o.rsConfig).count n + (blk st.o.userAgent).count n + (blk st.o.pre).count n + (blk st.log).count n)
      (fun n => by rw [hc n]; omega)
    refine ⟨_, by rw [if_pos rfl, e]; rfl, ?_⟩
    constructor <;> first | (simp [ht]; done) | skip
    constructor <;> first | assumption | skip
    intro n; simp only [hc' n]; omega
  rw [if_neg c8]
  by_cases c9 : c = 0x6c
  · subst c9
    obtain ⟨h', y, e, ht, ho, hc'⟩ := replace_spec st.heap st.log s g6
      (fun n => (blk st.o.config).count n + (blk st.o.rsConfig).count n + (blk st.o.seeds).count n + (blk st.o.userAgent).count n + (blk st.o.pre).count n)
      (fun n => by rw [hc n]; omega)
    refine ⟨_, by rw [if_pos rfl, e]; rfl, ?_⟩
    constructor <;> first | (simp [ht]; done) | skip
    constructor <;> first | assumption | skip
    intro n; simp only [hc' n]; omega
  rw [if_neg c9]
  by_cases c10 : c = 0x61
  · subst c10
    obtain ⟨h', y, e, ht, ho, hc'⟩ := replace_spec st.heap st.o.userAgent s g4
      (fun n => (blk st.o.config).count n + (blk st.o.rsConfig).count n + (blk st.o.seeds).count n + (blk st.o.pre).count n + (blk st.log).count n)
      (fun n => by rw [hc n]; omega)
    refine ⟨_, by rw [if_pos rfl, e]; rfl, ?_⟩
    constructor <;> first | (simp [ht]; done) | skip
    constructor <;> first | assumption | skip
    intro n; simp only [hc' n]; omega
  rw [if_neg c10]
  by_cases c11 : c = 0x78
  · subst c11
    obtain ⟨h', y, e, ht, ho, hc'⟩ := replace_spec st.heap st.o.pre s g5
      (fun n => (blk st.o.config).count n + (blk st.o.rsConfig).count n + (blk st.o.seeds).count n + (blk st.o.userAgent).count n + (blk st.log).count n)
      (fun n => by rw [hc n]; omega)
    refine ⟨_, by rw [if_pos rfl, e]; rfl, ?_⟩
    constructor <;> first | (simp [ht]; done) | skip
    constructor <;> first | assumption | skip
    intro n; simp only [hc' n]; omega
  rw [if_neg c11]
  refine ⟨st, rfl, ?_⟩
  constructor <;> first | (simp [c1, c2, c3, c4, c5, c6, c7, c8, c9, c10, c11, hne.1, hne.2]; done) | skip
  exact ⟨hc, g1, g2, g3, g4, g5, g6, g7⟩

theorem handle_fine (I : Inet) (st : St) (hi : Inv st) (x : Item) (hn : NoOverflow x) (hf : Fine I x) :
    ∃ st', handle I st x = .ok st' ∧ Effect I x st st' := by
  cases x with
  | lost => exact absurd hf (by simp [Fine])
  | bad => exact absurd hf (by simp [Fine])
  | opt c arg =>
    rcases hf with rfl | rfl | ⟨h1, h2, s, rfl, hs, a1, a2, a3, a4, a5⟩
    · refine ⟨_, by simp [handle]; rfl, ?_⟩
      constructor <;> first | (simp; done) | skip
      obtain ⟨hc, g1, g2, g3, g4, g5, g6, g7⟩ := hi
      constructor <;> assumption
    · refine ⟨_, by simp [handle]; rfl, ?_⟩
      constructor <;> first | (simp; done) | skip
      obtain ⟨hc, g1, g2, g3, g4, g5, g6, g7⟩ := hi
      constructor <;> assumption
    · by_cases c1 : c = 0x74
      · subst c1
        refine ⟨_, by simp [handle]; rfl, ?_⟩
        constructor <;> first | (simp; done) | skip
        obtain ⟨hc, g1, g2, g3, g4, g5, g6, g7⟩ := hi
        constructor <;> assumption
      · by_cases c2 : c = 0x64
        · subst c2
          refine ⟨_, by simp [handle]; rfl, ?_⟩
          constructor <;> first | (simp; done) | skip
          obtain ⟨hc, g1, g2, g3, g4, g5, g6, g7⟩ := hi
          constructor <;> assumption
        · obtain ⟨st', e, he⟩ := withArg_fine I st hi c s ⟨c1, c2⟩ hn a1 a2 a3 a4 a5
          refine ⟨st', ?_, he⟩
          simp only [handle, h1, h2, c1, c2, if_false, List.length_eq_zero_iff, hs, e]

theorem handle_bad (I : Inet) (hu : ∀ s p, saFromString I s p ≠ .ub) (st : St) (hi : Inv st) (x : Item) (hn : NoOverflow x)
    (hl : x ≠ .lost) (hf : ¬ Fine I x) : handle I st x = .err (exitOf x) := by
  cases x with
  | lost => exact absurd rfl hl
  | bad => rfl
  | opt c arg =>
    by_cases c1 : c = 0x76
    · simp [handle, exitOf, c1]
    by_cases c2 : c = 0x68
    · simp [handle, exitOf, c2]
    by_cases c3 : c = 0x74
    · exact absurd (Or.inl c3) hf
    by_cases c4 : c = 0x64
    · exact absurd (Or.inr (Or.inl c4)) hf
    cases arg with
    | none => simp [handle, exitOf, c1, c2, c3, c4]
    | some s =>
      by_cases hs : s = []
      · simp [handle, exitOf, c1, c2, c3, c4, hs]
      have hx : handle I st (.opt c (some s)) = withArg I st c s := by simp [handle, c1, c2, c3, c4, hs]
      rw [hx]
      simp only [exitOf, if_neg c1, if_neg c2]
      have hf' : ¬ ((c = 0x6e → ∃ a, saFromString I s 5349 = .ok a) ∧ (c = 0x72 → ∃ a, saFromString I s 5350 = .ok a) ∧
          (c = 0x69 → ∃ a, saFromString I s 0 = .ok a) ∧ (c = 0x70 → ∃ v : Int, Number s v ∧ 1 ≤ v ∧ v ≤ 1000) ∧
          (c = 0x6b → ∃ k, k.length = 32 ∧ HexText s k)) := fun h => hf (Or.inr (Or.inr ⟨c1, c2, s, rfl, hs, h⟩))
      unfold withArg
      by_cases d1 : c = 0x6e
      · subst d1
        rw [if_neg (by decide), if_pos rfl]
        exact bind_er (address_err (hu _ _) (fun h => hf' ⟨fun _ => h, by simp, by simp, by simp, by simp⟩))
      by_cases d2 : c = 0x72
      · subst d2
        rw [if_neg (by decide), if_neg (by decide), if_pos rfl]
        exact bind_er (address_err (hu _ _) (fun h => hf' ⟨by simp, fun _ => h, by simp, by simp, by simp⟩))
      by_cases d3 : c = 0x69
      · subst d3
        rw [if_neg (by decide), if_neg (by decide), if_neg (by decide), if_pos rfl]
        exact bind_er (address_err (hu _ _) (fun h => hf' ⟨by simp, by simp, fun _ => h, by simp, by simp⟩))
      by_cases d4 : c = 0x70
      · subst d4
        rw [if_neg (by decide), if_neg (by decide), if_neg (by decide), if_neg (by decide), if_neg (by decide), if_pos rfl]
        exact bind_er ((size_spec s (hn rfl)).2 (fun h => hf' ⟨by simp, by simp, by simp, fun _ => h, by simp⟩))
      by_cases d5 : c = 0x6b
      · subst d5
        rw [if_neg (by decide), if_neg (by decide), if_neg (by decide), if_neg (by decide), if_neg (by decide), if_neg (by decide), if_pos rfl]
        exact bind_er ((key_spec _ s hi.len).2 (fun h => hf' ⟨by simp, by simp, by simp, by simp, fun _ => h⟩))
      exact absurd ⟨fun h => absurd h d1, fun h => absurd h d2, fun h => absurd h d3, fun h => absurd h d4, fun h => absurd h d5⟩ hf'

/-! ### The loop -/

/-- The effects of the options, one after the other. -/
inductive Chain (I : Inet) : List Item → St → St → Prop
  | nil (st : St) : Chain I [] st st
  | cons {x : Item} {r : List Item} {a b c : St} (h : Effect I x a b) (t : Chain I r b c) : Chain I (x :: r) a c

theorem loop_fine (I : Inet) (items : List Item) : ∀ st, Inv st → (∀ x ∈ items, NoOverflow x) → (∀ x ∈ items, Fine I x) →
    ∃ st', loop I st items = .ok st' ∧ Inv st' ∧ Chain I items st st' := by
  induction items with
  | nil => intro st hi _ _; exact ⟨st, rfl, hi, .nil st⟩
  | cons x r ih =>
    intro st hi hn hf
    obtain ⟨a, ha, he⟩ := handle_fine I st hi x (hn x (by simp)) (hf x (by simp))
    obtain ⟨b, hb, hib, hc⟩ := ih a he.inv (fun y hy => hn y (by simp [hy])) (fun y hy => hf y (by simp [hy]))
    exact ⟨b, by rw [loop, ha]; exact hb, hib, .cons he hc⟩

theorem loop_append (I : Inet) (a b : List Item) : ∀ st, loop I st (a ++ b) = (loop I st a).bind fun st => loop I st b := by
  induction a with
  | nil => intro st; rfl
  | cons x r ih =>
    intro st
    simp only [List.cons_append, loop]
    cases handle I st x with
    | ok s => exact ih s
    | err _ => rfl
    | ub => rfl

theorem loop_stop (I : Inet) (hu : ∀ s p, saFromString I s p ≠ .ub) (pre post : List Item) (x : Item) (st : St) (hi : Inv st)
    (hn : ∀ y ∈ pre ++ x :: post, NoOverflow y) (hf : ∀ y ∈ pre, Fine I y) (hx : ¬ Fine I x) :
    loop I st (pre ++ x :: post) = if x = .lost then .ub else .err (exitOf x) := by
  obtain ⟨a, ha, hia, _⟩ := loop_fine I pre st hi (fun y hy => hn y (by simp [hy])) hf
  rw [loop_append, ha]
  by_cases h : x = .lost
  · subst h; rfl
  · rw [if_neg h]
    simp only [Out.bind, loop]
    rw [handle_bad I hu a hia x (hn x (by simp)) h hx]

/-- The step of `last`. -/
def upd (c : UInt8) (r : Option Bytes) (x : Item) : Option Bytes :=
  match x with | .opt d (some s) => if d = c then some s else r | _ => r

theorem last_eq (c : UInt8) (items : List Item) : last c items = items.foldl (upd c) none := rfl

theorem chain_field {α : Type} {I : Inet} (c : UInt8) (R : Bytes → α → Prop) (f : St → α)
    (hs : ∀ x a b, Effect I x a b → (∃ s, x = .opt c (some s) ∧ R s (f b)) ∨ ((∀ s, x ≠ .opt c (some s)) ∧ f b = f a))
    {items : List Item} {a b : St} (h : Chain I items a b) :
    (∃ s, (∀ r, items.foldl (upd c) r = some s) ∧ R s (f b)) ∨ ((∀ r, items.foldl (upd c) r = r) ∧ f b = f a) := by
  induction h with
  | nil st => exact Or.inr ⟨fun _ => rfl, rfl⟩
  | @cons x r a b d he _ ih =>
    rcases ih with ⟨s, h1, h2⟩ | ⟨h1, h2⟩
    · exact Or.inl ⟨s, fun r => by rw [List.foldl_cons]; exact h1 _, h2⟩
    · rcases hs x a b he with ⟨s, rfl, h3⟩ | ⟨h3, h4⟩
      · exact Or.inl ⟨s, fun r => by rw [List.foldl_cons, h1]; simp [upd], by rw [h2]; exact h3⟩
      · refine Or.inr ⟨fun r => ?_, by rw [h2, h4]⟩
        rw [List.foldl_cons, h1]
        unfold upd
        split
        · rename_i d s
          split
          · rename_i e; subst e; exact absurd rfl (h3 s)
          · rfl
        · rfl

theorem chain_last {α : Type} {I : Inet} (c : UInt8) (R : Bytes → α → Prop) (f : St → α)
    (hs : ∀ x a b, Effect I x a b → (∃ s, x = .opt c (some s) ∧ R s (f b)) ∨ ((∀ s, x ≠ .opt c (some s)) ∧ f b = f a))
    {items : List Item} {a b : St} (h : Chain I items a b) :
    (∃ s, last c items = some s ∧ R s (f b)) ∨ (last c items = none ∧ f b = f a) := by
  rw [last_eq]
  rcases chain_field c R f hs h with ⟨s, h1, h2⟩ | ⟨h1, h2⟩
  · exact Or.inl ⟨s, h1 none, h2⟩
  · exact Or.inr ⟨h1 none, h2⟩

theorem chain_flag {I : Inet} (c : UInt8) (f : St → Bool)
    (hs : ∀ x a b, Effect I x a b → (f b = true ↔ f a = true ∨ ∃ v, x = .opt c v))
    {items : List Item} {a b : St} (h : Chain I items a b) : f b = true ↔ f a = true ∨ has c items := by
  induction h with
  | nil st => simp [has]
  | @cons x r a b d he _ ih =>
    rw [ih, hs x a b he]
    simp only [has, List.mem_cons]
    constructor
    · rintro ((h | ⟨v, h⟩) | ⟨v, h⟩)
      · exact Or.inl h
      · exact Or.inr ⟨v, Or.inl h.symm⟩
      · exact Or.inr ⟨v, Or.inr h⟩
    · rintro (h | ⟨v, h | h⟩)
      · exact Or.inl (Or.inl h)
      · exact Or.inl (Or.inr ⟨v, h.symm⟩)
      · exact Or.inr ⟨v, h⟩

theorem uninit_spec (h : Heap) (o : Opts) (hk : o.key = none) (g1 : onHeap o.config) (g2 : onHeap o.rsConfig) (g3 : onHeap o.seeds)
    (g4 : onHeap o.userAgent) (g5 : onHeap o.pre)
    (hc : ∀ n, h.live.count n = (blk o.config).count n + (blk o.rsConfig).count n + (blk o.seeds).count n + (blk o.userAgent).count n + (blk o.pre).count n) :
    ∃ h', optsUninit h o = .ok h' ∧ h'.live = [] := by
  obtain ⟨h1, e1, c1⟩ := freeIf_spec (ε := Unit) h o.config g1 (fun n => (blk o.rsConfig).count n + (blk o.seeds).count n + (blk o.userAgent).count n + (blk o.pre).count n)
    (fun n => by rw [hc n]; omega)
  obtain ⟨h2, e2, c2⟩ := freeIf_spec (ε := Unit) h1 o.rsConfig g2 (fun n => (blk o.seeds).count n + (blk o.userAgent).count n + (blk o.pre).count n)
    (fun n => by rw [c1 n]; omega)
  obtain ⟨h3, e3, c3⟩ := freeIf_spec (ε := Unit) h2 o.seeds g3 (fun n => (blk o.userAgent).count n + (blk o.pre).count n)
    (fun n => by rw [c2 n]; omega)
  obtain ⟨h4, e4, c4⟩ := freeIf_spec (ε := Unit) h3 o.userAgent g4 (fun n => (blk o.pre).count n) (fun n => by rw [c3 n])
  obtain ⟨h5, e5, c5⟩ := freeIf_spec (ε := Unit) h4 o.pre g5 (fun _ => 0) (fun n => by rw [c4 n]; rfl)
  refine ⟨h5, ?_, ?_⟩
  · unfold optsUninit
    rw [e1]; dsimp only [Out.bind]
    rw [e2]; dsimp only [Out.bind]
    rw [hk, show (freeIf h2 none : Out Unit Heap) = .ok h2 from rfl]; dsimp only [Out.bind]
    rw [e3]; dsimp only [Out.bind]
    rw [e4]; dsimp only [Out.bind]
    exact e5
  · apply List.eq_nil_iff_forall_not_mem.2
    intro n hn
    have := List.count_pos_iff.2 hn
    rw [c5 n] at this
    omega

end Verif.Options
