import Verif.Lemmas.OptionsLoop
import Verif.Props.Addr
import Verif.Props.Base32
/-
C82: the command line.
-/
namespace Verif.Props.Options
open Verif.Options Verif.Spec.Options
open Verif.Addr (Inet Sa)

theorem sa_safe (I : Inet) (s : Bytes) (p : Nat) : saFromString I s p ≠ .ub := by
  unfold saFromString
  cases h : Addr.fromString I s p with
  | ok a => simp [Out.bind]
  | err _ => simp [Out.bind]
  | ub => exact absurd h (Props.Addr.C54_safe I s p)

theorem sa_local (I : Inet) (hI : I.pton4 localhost = some [127, 0, 0, 1]) (p : Nat) (hp : p ≠ 0) :
    saFromString I localhost p = .ok (.in4 [127, 0, 0, 1] p) := by
  have : Addr.parseHost I localhost = some (.inet, [127, 0, 0, 1]) := by simp [Addr.parseHost, hI]
  simp only [saFromString, Addr.fromString, Addr.parseKey, show Addr.strchr 0x40 localhost = none from rfl, Out.bind,
    show Addr.splitHost localhost = some (localhost, none) from rfl, show ¬ localhost.length > Addr.addrStrLen by decide, if_false,
    show ¬ localhost.length + 1 > Addr.addrStrLen + 1 by decide, Addr.choosePort, hp, this]
  rfl

theorem sa_local0 (I : Inet) (hI : I.pton4 localhost = some [127, 0, 0, 1]) :
    saFromString I localhost 0 = .ok (.in4 [127, 0, 0, 1] 12038) := by
  have : Addr.parseHost I localhost = some (.inet, [127, 0, 0, 1]) := by simp [Addr.parseHost, hI]
  simp only [saFromString, Addr.fromString, Addr.parseKey, show Addr.strchr 0x40 localhost = none from rfl, Out.bind,
    show Addr.splitHost localhost = some (localhost, none) from rfl, show ¬ localhost.length > Addr.addrStrLen by decide, if_false,
    show ¬ localhost.length + 1 > Addr.addrStrLen + 1 by decide, Addr.choosePort, this]
  rfl

/-- The options before any is read. -/
def defaults : Opts :=
  { config := none, nsHost := .in4 [127, 0, 0, 1] 5349, rsHost := .in4 [127, 0, 0, 1] 5350, nsIp := .in4 [127, 0, 0, 1] 12038
    rsConfig := none, key_ := List.replicate 32 0, key := none, seeds := none, poolSize := 8, userAgent := none, checkpoint := false, pre := none }

theorem init_eq (I : Inet) (hI : I.pton4 localhost = some [127, 0, 0, 1]) : optsInit I = .ok defaults := by
  unfold optsInit
  rw [sa_local I hI nsPort (by decide), sa_local I hI rsPort (by decide), sa_local0 I hI]
  rfl

/-- The state before the loop. -/
def st0 : St := { o := defaults, heap := ⟨0, []⟩, hasIp := false, log := none, background := false }

theorem inv0 : Inv st0 := by
  constructor <;> first | (intro n; simp [st0, defaults, blk]; done) | (intro s h; simp [st0, defaults] at h; done) | rfl

theorem start_eq (I : Inet) (hI : I.pton4 localhost = some [127, 0, 0, 1]) (sys : Sys) (args : List Bytes) :
    start I sys args = (loop I st0 (scan optstring table args).1).bind fun st => finish sys st (scan optstring table args).2 := by
  unfold start
  rw [init_eq I hI]
  rfl

/-- The end of the reading, of a state with its blocks in order. -/
theorem finish_ok (sys : Sys) (st : St) (hi : Inv st) :
    (∃ h out, (finish sys st false = .ok (if st.hasIp then st.o else { st.o with nsIp := st.o.nsHost }, h, out) ∧
      (∀ n, h.live.count n = (blk st.o.config).count n + (blk st.o.rsConfig).count n + (blk st.o.seeds).count n +
        (blk st.o.userAgent).count n + (blk st.o.pre).count n) ∧
      (st.background = false → out = match st.log with | some f => .file f.text | none => .unchanged) ∧
      (st.background = true → sys.init = false → sys.fork = .child → out = match st.log with | some f => .file f.text | none => .null) ∧
      (st.background = true → sys.init = true ∨ sys.fork = .fails → out = .unchanged)) ∧
      ¬ (st.background = true ∧ sys.init = false ∧ sys.fork = .parent)) ∨
    ((st.background = true ∧ sys.init = false ∧ sys.fork = .parent) ∧ finish sys st false = .err .parent) := by
  obtain ⟨h, e, c⟩ := freeIf_spec (ε := Exit) st.heap st.log hi.log
    (fun n => (blk st.o.config).count n + (blk st.o.rsConfig).count n + (blk st.o.seeds).count n + (blk st.o.userAgent).count n + (blk st.o.pre).count n)
    (fun n => by rw [hi.count n]; omega)
  cases hb : st.background with
  | false =>
    left
    cases hl : st.log with
    | none =>
      rw [hl] at e
      exact ⟨h, .unchanged, ⟨by simp only [finish, hb, hl, Out.bind, e, Bool.false_eq_true, if_false], c, by simp, by simp, by simp⟩, by simp⟩
    | some f =>
      rw [hl] at e
      exact ⟨h, .file f.text, ⟨by simp only [finish, hb, hl, Out.bind, e, Bool.false_eq_true, if_false], c, by simp, by simp, by simp⟩, by simp⟩
  | true =>
    cases hs : sys.init with
    | true =>
      left
      exact ⟨h, .unchanged, ⟨by simp only [finish, hb, daemonize, hs, Out.bind, e, Bool.false_eq_true, if_false, if_true], c, by simp, by simp, by simp⟩, by simp⟩
    | false =>
      cases hf : sys.fork with
      | parent => right; exact ⟨by simp, by simp only [finish, hb, daemonize, hs, hf, Out.bind, Bool.false_eq_true, if_false, if_true]⟩
      | fails =>
        left
        exact ⟨h, .unchanged, ⟨by simp only [finish, hb, daemonize, hs, hf, Out.bind, e, Bool.false_eq_true, if_false, if_true], c, by simp, by simp, by simp⟩, by simp⟩
      | child =>
        left
        cases hl : st.log with
        | none =>
          rw [hl] at e
          exact ⟨h, .null, ⟨by simp only [finish, hb, daemonize, hs, hf, hl, Option.map_none, Out.bind, Bool.false_eq_true, if_false, if_true] at e ⊢; rw [e], c, by simp, by simp, by simp⟩, by simp⟩
        | some f =>
          rw [hl] at e
          exact ⟨h, .file f.text, ⟨by simp only [finish, hb, daemonize, hs, hf, hl, Option.map_some, Out.bind, Bool.false_eq_true, if_false, if_true] at e ⊢; rw [e], c, by simp, by simp, by simp⟩, by simp⟩

theorem means_of {I : Inet} {items : List Item} {st : St} (hi : Inv st) (hc : Chain I items st0 st) :
    Means I items (if st.hasIp then st.o else { st.o with nsIp := st.o.nsHost }) := by
  have text : ∀ (c : UInt8) (f : St → Option Str) (_ : f st0 = none)
      (_ : ∀ x a b, Effect I x a b → (∃ s, x = .opt c (some s) ∧ (f b).map (·.text) = some s) ∨ ((∀ s, x ≠ .opt c (some s)) ∧ f b = f a)),
      (f st).map (·.text) = last c items := by
    intro c f h0 hs
    rcases chain_last c (fun s v => v.map (·.text) = some s) f hs hc with ⟨s, h1, h2⟩ | ⟨h1, h2⟩
    · rw [h1, h2]
    · rw [h1, h2, h0]; rfl
  have ho : ∀ {β : Type} (g : Opts → β), (∀ o a, g { o with nsIp := a } = g o) →
      g (if st.hasIp then st.o else { st.o with nsIp := st.o.nsHost }) = g st.o := by
    intro β g hg
    split
    · rfl
    · exact hg _ _
  constructor
  · rw [ho (fun o => o.config) (fun _ _ => rfl)]; exact text 0x63 (fun s => s.o.config) rfl (fun _ _ _ h => h.config)
  · rw [ho (fun o => o.rsConfig) (fun _ _ => rfl)]; exact text 0x75 (fun s => s.o.rsConfig) rfl (fun _ _ _ h => h.rsConfig)
  · rw [ho (fun o => o.seeds) (fun _ _ => rfl)]; exact text 0x73 (fun s => s.o.seeds) rfl (fun _ _ _ h => h.seeds)
  · rw [ho (fun o => o.userAgent) (fun _ _ => rfl)]; exact text 0x61 (fun s => s.o.userAgent) rfl (fun _ _ _ h => h.userAgent)
  · rw [ho (fun o => o.pre) (fun _ _ => rfl)]; exact text 0x78 (fun s => s.o.pre) rfl (fun _ _ _ h => h.pre)
  · rw [ho (fun o => o.nsHost) (fun _ _ => rfl)]
    exact chain_last 0x6e (fun s v => saFromString I s 5349 = .ok v) (fun s => s.o.nsHost) (fun _ _ _ h => h.nsHost) hc
  · rw [ho (fun o => o.rsHost) (fun _ _ => rfl)]
    exact chain_last 0x72 (fun s v => saFromString I s 5350 = .ok v) (fun s => s.o.rsHost) (fun _ _ _ h => h.rsHost) hc
  · rcases chain_last 0x69 (fun s (v : Sa × Bool) => saFromString I s 0 = .ok v.1 ∧ v.2 = true) (fun s => (s.o.nsIp, s.hasIp))
      (fun x a b h => by
        rcases h.nsIp with ⟨s, h1, h2, h3⟩ | ⟨h1, h2, h3⟩
        · exact Or.inl ⟨s, h1, h2, h3⟩
        · exact Or.inr ⟨h1, by rw [h2, h3]⟩) hc with ⟨s, h1, h2, h3⟩ | ⟨h1, h2⟩
    · left
      refine ⟨s, h1, ?_⟩
      simp only at h3
      rw [if_pos h3]; exact h2
    · right
      refine ⟨h1, ?_⟩
      simp only [Prod.mk.injEq] at h2
      have : st.hasIp = false := h2.2
      simp [this]
  · rw [ho (fun o => o.poolSize) (fun _ _ => rfl)]
    exact chain_last 0x70 (fun s v => Number s v ∧ 1 ≤ v ∧ v ≤ 1000) (fun s => s.o.poolSize) (fun _ _ _ h => h.poolSize) hc
  · rw [ho (fun o => o.key) (fun _ _ => rfl), ho (fun o => o.key_) (fun _ _ => rfl)]
    rcases chain_last 0x6b (fun s (v : Bytes × Option Ptr) => HexText s v.1 ∧ v.2 = some .inside) (fun s => (s.o.key_, s.o.key))
      (fun x a b h => by
        rcases h.key with ⟨s, h1, h2, h3⟩ | ⟨h1, h2, h3⟩
        · exact Or.inl ⟨s, h1, h2, h3⟩
        · exact Or.inr ⟨h1, by rw [h2, h3]⟩) hc with ⟨s, h1, h2, h3⟩ | ⟨h1, h2⟩
    · exact Or.inl ⟨s, h1, by simp only at h3; rw [h3]; rfl, hi.len, h2⟩
    · simp only [Prod.mk.injEq] at h2
      exact Or.inr ⟨h1, h2.2⟩
  · rw [ho (fun o => o.checkpoint) (fun _ _ => rfl)]
    have := chain_flag 0x74 (fun s => s.o.checkpoint) (fun _ _ _ h => h.checkpoint) hc
    simpa [st0, defaults] using this

/-- C82: when every option on the command line is acceptable and nothing else is on it, the process goes on
(in the background it is the child that does), with exactly the options the line says. The
output goes to the file of the option for it. -/
theorem C82_options_partial (I : Inet) (hI : I.pton4 localhost = some [127, 0, 0, 1]) (sys : Sys) (args : List Bytes) (items : List Item)
    (hs : scan optstring table args = (items, false)) (hn : ∀ x ∈ items, NoOverflow x) (hf : ∀ x ∈ items, Fine I x)
    (hp : ¬ (has 0x64 items ∧ sys.init = false ∧ sys.fork = .parent)) :
    ∃ o h out, start I sys args = .ok (o, h, out) ∧ Means I items o ∧
      (¬ has 0x64 items → out = match last 0x6c items with | some f => .file f | none => .unchanged) ∧
      (has 0x64 items → sys.init = false → sys.fork = .child → out = match last 0x6c items with | some f => .file f | none => .null) := by
  obtain ⟨st, h1, hi, hc⟩ := loop_fine I items st0 inv0 hn hf
  have hbg : st.background = true ↔ has 0x64 items := by
    have := chain_flag 0x64 (fun s => s.background) (fun _ _ _ h => h.background) hc
    simpa [st0] using this
  have hlog : st.log.map (·.text) = last 0x6c items := by
    rcases chain_last 0x6c (fun s (v : Option Str) => v.map (·.text) = some s) (fun s => s.log) (fun _ _ _ h => h.log) hc with ⟨s, h1, h2⟩ | ⟨h1, h2⟩
    · rw [h1, h2]
    · rw [h1, h2]; rfl
  have hsel : ∀ (d : Output), (match st.log with | some f => Output.file f.text | none => d) = match last 0x6c items with | some f => .file f | none => d := by
    intro d
    rw [← hlog]
    cases st.log <;> rfl
  rw [start_eq I hI, hs]
  simp only [h1, Out.bind]
  rcases finish_ok sys st hi with ⟨h, out, ⟨e, _, o1, o2, _⟩, _⟩ | ⟨hb, _⟩
  · refine ⟨_, h, out, e, means_of hi hc, ?_, ?_⟩
    · intro hd
      rw [o1 (by rw [← Bool.not_eq_true, hbg]; exact hd), hsel]
    · intro hd h1 h2
      rw [o2 (hbg.2 hd) h1 h2, hsel]
  · exact absurd ⟨hbg.1 hb.1, hb.2⟩ hp

/-- C82: the process ends at the first option it does not accept, with status 0 if that asks for the version
or for help and with status 1 otherwise; and with status 1 if something else is on the line. -/
theorem C82_exit_partial (I : Inet) (hI : I.pton4 localhost = some [127, 0, 0, 1]) (sys : Sys) (args : List Bytes) (items : List Item)
    (extra : Bool) (hs : scan optstring table args = (items, extra)) (hn : ∀ x ∈ items, NoOverflow x) :
    (∀ pre x post, items = pre ++ x :: post → (∀ y ∈ pre, Fine I y) → ¬ Fine I x → x ≠ .lost → start I sys args = .err (exitOf x)) ∧
    ((∀ x ∈ items, Fine I x) → extra = true → start I sys args = .err (.help 1)) := by
  rw [start_eq I hI, hs]
  constructor
  · rintro pre x post rfl hp hx hl
    simp only
    rw [loop_stop I (sa_safe I) pre post x st0 inv0 hn hp hx, if_neg hl]
    rfl
  · rintro hf rfl
    obtain ⟨st, h1, _, _⟩ := loop_fine I items st0 inv0 hn hf
    simp [h1, Out.bind, finish]

/-- C82: at the end all memory of the options is released, each block once, if no identity key is
given. -/
theorem C82_memory_partial (I : Inet) (hI : I.pton4 localhost = some [127, 0, 0, 1]) (sys : Sys) (args : List Bytes)
    (items : List Item) (hs : scan optstring table args = (items, false)) (hn : ∀ x ∈ items, NoOverflow x) (hf : ∀ x ∈ items, Fine I x)
    (o : Opts) (h : Heap) (out : Output) (hr : start I sys args = .ok (o, h, out)) (hk : last 0x6b items = none) :
    ∃ h', optsUninit h o = .ok h' ∧ h'.live = [] := by
  obtain ⟨st, h1, hi, hc⟩ := loop_fine I items st0 inv0 hn hf
  rw [start_eq I hI, hs] at hr
  simp only [h1, Out.bind] at hr
  rcases finish_ok sys st hi with ⟨h', out', ⟨e, hcnt, _⟩, _⟩ | ⟨_, e⟩
  · rw [e] at hr
    simp only [Out.ok.injEq, Prod.mk.injEq] at hr
    obtain ⟨rfl, rfl, rfl⟩ := hr
    have hm := means_of hi hc
    rcases hm.key with ⟨s, h2, _⟩ | ⟨_, h2⟩
    · rw [hk] at h2; cases h2
    · apply uninit_spec _ _ h2
      all_goals (split <;> first | exact hi.config | exact hi.rsConfig | exact hi.seeds | exact hi.userAgent | exact hi.pre | exact hcnt)
  · rw [e] at hr; cases hr

/-- C82: with an identity key the process releases at its end memory it did not allocate. -/
theorem C82_free_false (I : Inet) (hI : I.pton4 localhost = some [127, 0, 0, 1]) (sys : Sys) (args : List Bytes)
    (items : List Item) (hs : scan optstring table args = (items, false)) (hn : ∀ x ∈ items, NoOverflow x) (hf : ∀ x ∈ items, Fine I x)
    (o : Opts) (h : Heap) (out : Output) (hr : start I sys args = .ok (o, h, out)) (k : Bytes) (hk : last 0x6b items = some k) :
    optsUninit h o = .ub := by
  obtain ⟨st, h1, hi, hc⟩ := loop_fine I items st0 inv0 hn hf
  rw [start_eq I hI, hs] at hr
  simp only [h1, Out.bind] at hr
  rcases finish_ok sys st hi with ⟨h', out', ⟨e, hcnt, _⟩, _⟩ | ⟨_, e⟩
  · rw [e] at hr
    simp only [Out.ok.injEq, Prod.mk.injEq] at hr
    obtain ⟨rfl, rfl, rfl⟩ := hr
    have hkey : st.o.key = some .inside := by
      rcases chain_last 0x6b (fun s (v : Bytes × Option Ptr) => HexText s v.1 ∧ v.2 = some .inside) (fun s => (s.o.key_, s.o.key))
        (fun x a b h => by
          rcases h.key with ⟨s, h1, h2, h3⟩ | ⟨h1, h2, h3⟩
          · exact Or.inl ⟨s, h1, h2, h3⟩
          · exact Or.inr ⟨h1, by rw [h2, h3]⟩) hc with ⟨s, _, _, h3⟩ | ⟨h2, _⟩
      · exact h3
      · rw [hk] at h2; cases h2
    have hko : (if st.hasIp then st.o else { st.o with nsIp := st.o.nsHost }).key = some .inside := by split <;> exact hkey
    have hoc : onHeap (if st.hasIp then st.o else { st.o with nsIp := st.o.nsHost }).config := by split <;> exact hi.config
    have hor : onHeap (if st.hasIp then st.o else { st.o with nsIp := st.o.nsHost }).rsConfig := by split <;> exact hi.rsConfig
    have hcc : ∀ n, h'.live.count n = (blk (if st.hasIp then st.o else { st.o with nsIp := st.o.nsHost }).config).count n +
        ((blk (if st.hasIp then st.o else { st.o with nsIp := st.o.nsHost }).rsConfig).count n + ((blk st.o.seeds).count n +
        (blk st.o.userAgent).count n + (blk st.o.pre).count n)) := by
      intro n
      rw [hcnt n]
      split <;> (try dsimp only) <;> omega
    generalize (if st.hasIp then st.o else { st.o with nsIp := st.o.nsHost }) = o at *
    obtain ⟨a, e1, c1⟩ := freeIf_spec (ε := Unit) h' o.config hoc _ hcc
    obtain ⟨b, e2, _⟩ := freeIf_spec (ε := Unit) a o.rsConfig hor _ c1
    unfold optsUninit
    rw [e1]; dsimp only [Out.bind]
    rw [e2]; dsimp only [Out.bind]
    rw [hko]
    rfl
  · rw [e] at hr; cases hr

/-- C82: `-d` with a log file, the parent being the first process: the output does not go to the file. -/
theorem C82_log_false : ∃ (sys : Sys) (log : Bytes), daemonize sys (some log) = .ok .unchanged :=
  ⟨⟨true, .child⟩, [0x61], rfl⟩

theorem takeWhile_self (s : Bytes) (h : ∀ c ∈ s, c ≠ 0x3d) : s.takeWhile (· != 0x3d) = s := by
  have := List.takeWhile_append_of_pos (p := (· != (0x3d : UInt8))) (l₁ := s) (l₂ := []) (by intro x hx; simp [h x hx])
  simpa using this

/-- C82: a long option that is not exactly one of the table's makes the search leave the table. -/
theorem C82_unknown_false (name : Bytes) (hn : ∀ c ∈ name, c ≠ 0x3d) (hne : name ≠ []) (ht : ∀ l ∈ table, l.name ≠ name) (rest : List Bytes) :
    ∃ r, (scan optstring table ((0x2d :: 0x2d :: name) :: rest)).1 = .lost :: r := by
  obtain ⟨c, t, rfl⟩ : ∃ c t, name = c :: t := by cases name <;> simp_all
  refine ⟨(scan optstring table rest).1, ?_⟩
  rw [scan]
  · have e1 : (c :: t).takeWhile (· != 0x3d) = c :: t := by
      exact takeWhile_self _ hn
    have e2 : table.find? (fun l => l.name == (c :: t)) = none := by
      rw [List.find?_eq_none]; intro l hl; simp [ht l hl]
    simp only [long, e1, e2]
    rfl
  · simp

/-- C82: a number above an `int` for the size of the pool is undefined. -/
theorem C82_number_false (I : Inet) (st : St) : handle I st (.opt 0x70 (some (ascii "2147483648"))) = .ub := by
  have : size (ascii "2147483648") = .ub := by decide
  simp only [handle, withArg, this]
  rfl

/-- The four ways to write an option with an argument, and the two to write one without. -/
theorem C82_forms (l : Long) (hl : l ∈ table) (v : Bytes) (rest : List Bytes) :
    (l.arg = true →
      (scan optstring table ([0x2d, l.val] :: v :: rest) = (.opt l.val (some v) :: (scan optstring table rest).1, (scan optstring table rest).2)) ∧
      (v ≠ [] → scan optstring table ((0x2d :: l.val :: v) :: rest) = (.opt l.val (some v) :: (scan optstring table rest).1, (scan optstring table rest).2)) ∧
      (scan optstring table ((0x2d :: 0x2d :: l.name) :: v :: rest) = (.opt l.val (some v) :: (scan optstring table rest).1, (scan optstring table rest).2)) ∧
      (scan optstring table ((0x2d :: 0x2d :: l.name ++ [0x3d] ++ v) :: rest) = (.opt l.val (some v) :: (scan optstring table rest).1, (scan optstring table rest).2))) ∧
    (l.arg = false →
      (scan optstring table ([0x2d, l.val] :: rest) = (.opt l.val none :: (scan optstring table rest).1, (scan optstring table rest).2)) ∧
      (scan optstring table ((0x2d :: 0x2d :: l.name) :: rest) = (.opt l.val none :: (scan optstring table rest).1, (scan optstring table rest).2))) := by
  have hv : l.val ≠ 0x2d ∧ l.val ≠ 0x3a ∧ l.val ≠ 0x3b ∧ kind l.val optstring = some l.arg ∧ (∀ c ∈ l.name, c ≠ 0x3d) ∧ l.name ≠ [] ∧
      table.find? (fun m => m.name == l.name) = some l := by
    simp only [table, List.mem_cons, List.not_mem_nil, or_false] at hl
    rcases hl with rfl | rfl | rfl | rfl | rfl | rfl | rfl | rfl | rfl | rfl | rfl | rfl | rfl | rfl | rfl <;> exact ⟨by decide, by decide, by decide, by decide, by decide, by decide, rfl⟩
  obtain ⟨h1, h2, h3, h4, h5, h6, h7⟩ := hv
  have e1 : l.name.takeWhile (· != 0x3d) = l.name := by
    exact takeWhile_self _ h5
  have e2 : (l.name ++ [0x3d] ++ v).takeWhile (· != 0x3d) = l.name := by
    rw [List.append_assoc, List.takeWhile_append_of_pos (by intro x hx; simp [h5 x hx])]; simp
  have e3 : (l.name ++ [0x3d] ++ v).drop (l.name.length + 1) = v := by
    rw [List.append_assoc, ← List.drop_drop, List.drop_left]; rfl
  have e4 : l.name.length < (l.name ++ [0x3d] ++ v).length := by simp only [List.length_append, List.length_singleton]; omega
  have k1 : (if l.val = 0x3a ∨ l.val = 0x3b then none else kind l.val optstring) = some l.arg := by rw [if_neg (by simp [h2, h3]), h4]
  obtain ⟨c, t, hct⟩ : ∃ c t, l.name = c :: t := by cases h : l.name <;> simp_all
  constructor
  · intro ha
    refine ⟨?_, ?_, ?_, ?_⟩
    · rw [scan]
      · simp only [letters, k1, ha]; simp
      · simp [h1]
      · simp [h1]
    · intro hv
      rw [scan]
      · simp only [letters, k1, ha]; simp [hv]
      · simp [h1]
      · simp [h1]
    · rw [scan]
      · simp only [long, e1, h7, ha]; simp
      · simp [h6]
    · rw [List.cons_append, List.cons_append, List.cons_append, List.cons_append, scan]
      · simp only [long, e2, h7, ha, e4, e3]; simp
      · simp [h6]
  · intro ha
    refine ⟨?_, ?_⟩
    · rw [scan]
      · simp only [letters, k1, ha]; simp
      · simp [h1]
      · simp [h1]
    · rw [scan]
      · simp only [long, e1, h7, ha]; simp
      · simp [h6]

/-- C82: the text of the identity printed fits its buffer and is the key in base 32. -/
theorem C82_identity (create : Bytes → Option Bytes) (k pub : Bytes) (hc : create k = some pub) (hp : pub.length = 33) :
    ∃ s, printIdentity create k = .ok s ∧ Base32.decode2 true Base32.table s false = .ok pub := by
  have hl : (Spec.Base32.text Base32.charset pub false).length + 1 ≤ 54 := by
    rw [Addr.text_length, hp]; decide
  refine ⟨Spec.Base32.text Base32.charset pub false, ?_, ?_⟩
  · unfold printIdentity
    rw [hc]
    dsimp only
    rw [if_neg (by rw [(Props.Base32.C42_encode_size pub false).1]; omega), (Props.Base32.C42_encode pub false).1]
    simp only [Out.bind, Addr.strcpy, if_pos hl]
  · have := (Props.Base32.C42_round_trip pub false).1
    rw [(Props.Base32.C42_encode pub false).1] at this
    exact this

/-- C82: the hexadecimal text of a byte string has two digits for each byte, and reads back. -/
theorem C82_hex (data : Bytes) : ∃ s, hexEncode data = some s ∧ s.length = 2 * data.length ∧ HexText s data := by
  obtain ⟨t, h1, h2, h3⟩ := hexEncode_spec data
  exact ⟨t, h1, h2, (hexDecode_iff _ _).1 h3⟩

/-! ### Examples -/

/-- An `Inet` that knows one address. -/
def exInet : Inet where
  pton4 s := if s = localhost then some [127, 0, 0, 1] else none
  pton6 _ := none
  ntop4 _ := localhost
  ntop6 _ := []

/-- hnsd -tp 12x --seeds=a,b -r 127.0.0.1:53 -p 7 -/
def exArgs : List Bytes := [ascii "-tp", ascii "12x", ascii "--seeds=a,b", ascii "-r", ascii "127.0.0.1:53", ascii "-p", ascii "7"]

def exItems : List Item :=
  [.opt 0x74 none, .opt 0x70 (some (ascii "12x")), .opt 0x73 (some (ascii "a,b")), .opt 0x72 (some (ascii "127.0.0.1:53")), .opt 0x70 (some (ascii "7"))]

theorem exScan : scan optstring table exArgs = (exItems, false) := by
  simp [scan, exArgs, exItems, ascii, letters, long, kind, optstring, table]

theorem exNumber {s : Bytes} {v w : Int} (h : Number s v) (e : atoiVal s = w) : v = w := (number_val h).trans e

theorem exNoOverflow : ∀ x ∈ exItems, NoOverflow x := by
  intro x hx
  simp only [exItems, List.mem_cons, List.not_mem_nil, or_false] at hx
  rcases hx with rfl | rfl | rfl | rfl | rfl
  · trivial
  · intro _ v hv
    rw [exNumber hv (show atoiVal (ascii "12x") = 12 by decide)]; decide
  · intro h; simp at h
  · intro h; simp at h
  · intro _ v hv
    rw [exNumber hv (show atoiVal (ascii "7") = 7 by decide)]; decide

theorem exFine : ∀ x ∈ exItems, Fine exInet x := by
  intro x hx
  simp only [exItems, List.mem_cons, List.not_mem_nil, or_false] at hx
  rcases hx with rfl | rfl | rfl | rfl | rfl
  · exact Or.inl rfl
  · exact Or.inr (Or.inr ⟨by decide, by decide, _, rfl, by decide, by simp, by simp, by simp, fun _ => ⟨12, number_exists (ascii "12x"), by decide, by decide⟩, by simp⟩)
  · exact Or.inr (Or.inr ⟨by decide, by decide, _, rfl, by decide, by simp, by simp, by simp, by simp, by simp⟩)
  · exact Or.inr (Or.inr ⟨by decide, by decide, _, rfl, by decide, by simp, fun _ => ⟨.in4 [127, 0, 0, 1] 53, by decide⟩, by simp, by simp, by simp⟩)
  · exact Or.inr (Or.inr ⟨by decide, by decide, _, rfl, by decide, by simp, by simp, by simp, fun _ => ⟨7, number_exists (ascii "7"), by decide, by decide⟩, by simp⟩)

/-- The hypotheses of the theorems are met, and their conclusions say something. -/
example : ∃ o h out, start exInet ⟨false, .child⟩ exArgs = .ok (o, h, out) ∧ Means exInet exItems o ∧ o.poolSize = 7 ∧ out = .unchanged ∧
    ∃ h', optsUninit h o = .ok h' ∧ h'.live = [] := by
  have hI : exInet.pton4 localhost = some [127, 0, 0, 1] := rfl
  have hd : ¬ has 0x64 exItems := by rintro ⟨a, h⟩; simp [exItems] at h
  obtain ⟨o, h, out, h1, h2, h3, _⟩ := C82_options_partial exInet hI ⟨false, .child⟩ exArgs exItems exScan exNoOverflow exFine (fun h => hd h.1)
  refine ⟨o, h, out, h1, h2, ?_, h3 hd, C82_memory_partial exInet hI _ exArgs exItems exScan exNoOverflow exFine o h out h1 (by decide)⟩
  rcases h2.poolSize with ⟨s, hs, hn, _⟩ | ⟨hs, _⟩
  · have : last 0x70 exItems = some (ascii "7") := by decide
    rw [this] at hs
    simp only [Option.some.injEq] at hs
    subst hs
    exact exNumber hn (by decide)
  · have : last 0x70 exItems = some (ascii "7") := by decide
    rw [this] at hs
    cases hs

/-- Sixty-four digits. -/
def exKey : Bytes := List.replicate 32 0x30 ++ List.replicate 32 0x61

/-- An identity key is accepted, and its end is undefined. -/
example : ∃ o h out, start exInet ⟨false, .child⟩ [ascii "-k", exKey] = .ok (o, h, out) ∧
    o.key_ = List.replicate 16 0 ++ List.replicate 16 0xaa ∧ optsUninit h o = .ub := by
  have hI : exInet.pton4 localhost = some [127, 0, 0, 1] := rfl
  have hs : scan optstring table [ascii "-k", exKey] = ([.opt 0x6b (some exKey)], false) := by
    simp [scan, ascii, letters, kind, optstring]
  have hn : ∀ x ∈ [Item.opt 0x6b (some exKey)], NoOverflow x := by
    intro x hx; simp only [List.mem_singleton] at hx; subst hx; intro h; simp at h
  have hk : HexText exKey (List.replicate 16 0 ++ List.replicate 16 0xaa) := (hexDecode_iff _ _).1 (by decide)
  have hf : ∀ x ∈ [Item.opt 0x6b (some exKey)], Fine exInet x := by
    intro x hx; simp only [List.mem_singleton] at hx; subst hx
    exact Or.inr (Or.inr ⟨by decide, by decide, _, rfl, by decide, by simp, by simp, by simp, by simp, fun _ => ⟨_, by decide, hk⟩⟩)
  obtain ⟨o, h, out, h1, h2, _⟩ := C82_options_partial exInet hI ⟨false, .child⟩ _ _ hs hn hf (fun h => by obtain ⟨⟨a, h⟩, _⟩ := h; simp at h)
  refine ⟨o, h, out, h1, ?_, C82_free_false exInet hI _ _ _ hs hn hf o h out h1 exKey rfl⟩
  rcases h2.key with ⟨s, hs, _, _, ht⟩ | ⟨hs, _⟩
  · have : last 0x6b [Item.opt 0x6b (some exKey)] = some exKey := rfl
    rw [this] at hs
    simp only [Option.some.injEq] at hs
    subst hs
    have a := (hexDecode_iff _ _).2 ht
    rw [(hexDecode_iff _ _).2 hk] at a
    simp only [Option.some.injEq] at a
    exact a.symm
  · cases hs

/-- `-v` before and after a wrong option. -/
example (sys : Sys) : start exInet sys [ascii "-v", ascii "-p", ascii "0"] = .err .version ∧
    start exInet sys [ascii "-p", ascii "0", ascii "-v"] = .err (.help 1) := by
  have hI : exInet.pton4 localhost = some [127, 0, 0, 1] := rfl
  have hz : ∀ x ∈ [Item.opt 0x76 none, Item.opt 0x70 (some (ascii "0"))], NoOverflow x := by
    intro x hx
    simp only [List.mem_cons, List.not_mem_nil, or_false] at hx
    rcases hx with rfl | rfl
    · trivial
    · intro _ v hv
      rw [exNumber hv (show atoiVal (ascii "0") = 0 by decide)]; decide
  have hb : ¬ Fine exInet (Item.opt 0x70 (some (ascii "0"))) := by
    rintro (h | h | ⟨_, _, s, hs, _, _, _, _, h, _⟩)
    · simp at h
    · simp at h
    · simp only [Option.some.injEq] at hs
      subst hs
      obtain ⟨v, hv, h1, _⟩ := h rfl
      rw [exNumber hv (show atoiVal (ascii "0") = 0 by decide)] at h1
      omega
  constructor
  · exact (C82_exit_partial exInet hI sys _ [.opt 0x76 none, .opt 0x70 (some (ascii "0"))] false
      (by simp [scan, ascii, letters, kind, optstring]) hz).1 [] _ _ rfl (by simp) (by simp [Fine]) (by simp)
  · exact (C82_exit_partial exInet hI sys _ [.opt 0x70 (some (ascii "0")), .opt 0x76 none] false
      (by simp [scan, ascii, letters, kind, optstring]) (fun x hx => hz x (by simp only [List.mem_cons, List.not_mem_nil, or_false] at hx ⊢; exact hx.symm))).1 [] _ _ rfl (by simp) hb (by simp)

/-- `--foo` and `--see`, which would abbreviate `--seeds`. -/
example (rest : List Bytes) : (∃ r, (scan optstring table (ascii "--foo" :: rest)).1 = .lost :: r) ∧
    ∃ r, (scan optstring table (ascii "--see" :: rest)).1 = .lost :: r :=
  ⟨C82_unknown_false (ascii "foo") (by decide) (by decide) (by decide) rest, C82_unknown_false (ascii "see") (by decide) (by decide) (by decide) rest⟩

end Verif.Props.Options
