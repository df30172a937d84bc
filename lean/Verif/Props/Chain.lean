import Verif.Lemmas.ChainConv
import Verif.Lemmas.ChainLocator
/-
Properties C05-C13 and C52 of the header chain (src/chain.c).

Histories start from the genesis block and offer any headers in any order, each
with the clock value at that moment. What is assumed throughout:
- `H`, the header hash, returns 32 bytes;
- no header hashes to the all-zero string the genesis block names as its parent;
- the adjusted clock stays between -7200 and 2^63 - 7200 seconds.
-/
namespace Verif.Props.Chain
open Verif Verif.Chain Verif.Header Verif.Spec Verif.Spec.Chain

/-- A node just started from the genesis header `g`. -/
structure Booted (P : Params) (H : Hdr → Bytes) (g : Hdr) (s0 : State) : Prop where
  params : ParamsOK P
  hash : ∀ h, (H h).length = 32
  time : g.time < 2 ^ 63
  noLoop : H g ≠ g.prevBlock
  start : ∃ now, initGenesis P H now g = .ok s0

/-- What is assumed of the clock values and headers of a history. -/
def Plausible (H : Hdr → Bytes) (g : Hdr) (ops : List (Int × Hdr)) : Prop :=
  ∀ op ∈ ops, (0 ≤ op.1 + 7200 ∧ op.1 + 7200 < 2 ^ 63) ∧ H op.2 ≠ g.prevBlock

variable {P : Params} {H : Hdr → Bytes} {g : Hdr} {s0 s : State} {ops : List (Int × Hdr)}

theorem Plausible.opsOK (h : Plausible H g ops) : OpsOK H [g.prevBlock] ops := fun op hop =>
  ⟨(h op hop).1, by simpa using (h op hop).2⟩

/-- The invariant of a history. -/
abbrev GInv (P : Params) (H : Hdr → Bytes) (g : Hdr) (s0 s : State) : Prop :=
  Inv P H (· = blk s0.tip) [g.prevBlock] (fun _ => none) s

theorem Booted.inv (hb : Booted P H g s0) : s0.tip.hdr = g ∧ s0.tip.hash = H g ∧ s0.tip.height = 0 ∧
    s0.orphans = [] ∧ s0.prevs = [] ∧ FromGenesis (· = blk s0.tip) ∧ GInv P H g s0 s0 := by
  obtain ⟨now, hs⟩ := hb.start
  obtain ⟨e0, h1, h2, h3, h4, h5, h6, h7⟩ := initGenesis_inv hb.time hs
  subst h4
  exact ⟨h1, h2, h3, h5, h6, ⟨blk s0.tip, h3, fun _ h => h⟩, h7 hb.noLoop⟩

theorem Booted.sizes (hb : Booted P H g s0) : Sizes s0 := by
  obtain ⟨_, _, _, h5, h6, _⟩ := hb.inv
  exact ⟨by rw [h5]; simp [AMap.Nodup], by rw [h5, h6], by rw [h5]; simp [AMap.size]⟩

theorem initGenesis_only {now : Int} (h : initGenesis P H now g = .ok s0) (k : Bytes) (x : Entry)
    (hx : AMap.get s0.hashes k = some x) : x = s0.tip := by
  unfold initGenesis at h
  split at h
  · simp only [Out.ok.injEq] at h
    rw [← h] at hx ⊢
    obtain ⟨m1, _, _, _, m5, _⟩ := maybeSync_fields P now _
    rw [m1, AMap.get_set] at hx
    rw [m5]
    split at hx
    · cases hx; rfl
    · simp at hx
  · cases h

theorem Booted.run (hb : Booted P H g s0) (hops : Plausible H g ops) :
    ∃ s, Chain.run P H s0 ops = .ok s ∧ GInv P H g s0 s ∧ Sizes s ∧
    (∀ k x, AMap.get s0.hashes k = some x → AMap.get s.hashes k = some x) := by
  obtain ⟨_, _, _, _, _, h7, h8⟩ := hb.inv
  rcases run_spec hb.params hb.hash ops hops.opsOK h8 with ⟨s, r1, r2, r3, r4⟩ | ⟨_, r⟩
  · exact ⟨s, r1, r2, r3 hb.sizes, r4⟩
  · exact absurd h7 r

theorem Booted.at (hb : Booted P H g s0) (hops : Plausible H g ops) (hr : Chain.run P H s0 ops = .ok s) :
    GInv P H g s0 s ∧ Sizes s ∧ (∀ k x, AMap.get s0.hashes k = some x → AMap.get s.hashes k = some x) := by
  obtain ⟨s', h1, h2⟩ := hb.run hops
  rw [hr] at h1; cases h1; exact h2

/-! A small network for the examples: no retargeting, any hash is good enough. -/
def toyP : Params :=
  { bits := 0x207fffff, limit := 0x7f :: 0xff :: 0xff :: List.replicate 29 0,
    chainwork := List.replicate 32 0, noRetarget := true, targetReset := false, treeInterval := 36,
    maxTipAge := 86400 }
def toyH (h : Hdr) : Bytes := List.replicate 28 0 ++ leBytes 4 h.nonce
def mk (nonce : Nat) (prev : Bytes) (time : Nat) : Hdr :=
  { nonce := nonce, time := time, prevBlock := prev, nameRoot := List.replicate 32 0,
    extraNonce := List.replicate 24 0, reservedRoot := List.replicate 32 0,
    witnessRoot := List.replicate 32 0, merkleRoot := List.replicate 32 0, version := 0,
    bits := 0x207fffff, mask := List.replicate 32 0 }
def g0 : Hdr := mk 1 (List.replicate 32 0) 1000
def c1 : Hdr := mk 2 (toyH g0) 1001
def c2 : Hdr := mk 3 (toyH c1) 1002
def c2' : Hdr := mk 4 (toyH c1) 1003
def c3' : Hdr := mk 5 (toyH c2') 1004
/-- A child of `c1` older than its predecessors. -/
def c2old : Hdr := mk 6 (toyH c1) 900

def toyS : State := match initGenesis toyP toyH 2000 g0 with
  | .ok s => s
  | _ => ⟨[], [], [], [], 0, 0, ⟨g0, [], 0, []⟩, false⟩
def hist : List (Int × Hdr) := [(2000, c2), (2000, c1), (2000, c2'), (2000, c3'), (2000, c3')]

theorem toyBooted : Booted toyP toyH g0 toyS where
  params := ⟨by decide +kernel, by decide +kernel⟩
  hash := fun h => by simp [toyH]
  time := by decide +kernel
  noLoop := by decide +kernel
  start := ⟨2000, by
    have h : (initGenesis toyP toyH 2000 g0) ≠ .ub ∧ (initGenesis toyP toyH 2000 g0) ≠ .err () := by
      decide +kernel
    unfold toyS
    cases hc : initGenesis toyP toyH 2000 g0 with
    | ok s => rfl
    | err e => exact absurd hc h.2
    | ub => exact absurd hc h.1⟩

theorem toyPlausible : Plausible toyH g0 hist := by unfold Plausible; decide +kernel
theorem toyRun : ∃ s, run toyP toyH toyS hist = .ok s ∧ s.height = 3 ∧ s.tip.hdr = c3' ∧
    s.hashes.length = 5 ∧ s.orphans = [] := by
  have h : (match run toyP toyH toyS hist with
    | .ok s => decide (s.height = 3 ∧ s.tip.hdr = c3' ∧ s.hashes.length = 5 ∧ s.orphans = [])
    | _ => false) = true := by decide +kernel
  cases hc : run toyP toyH toyS hist with
  | ok s => rw [hc] at h; exact ⟨s, rfl, of_decide_eq_true h⟩
  | err e => rw [hc] at h; cases h
  | ub => rw [hc] at h; cases h

/-! C05 -/

/-- C05: no history crashes or aborts the node. -/
theorem C05_never_aborts (hb : Booted P H g s0) (hops : Plausible H g ops) : ∃ s, run P H s0 ops = .ok s := by
  obtain ⟨s, h, _⟩ := hb.run hops
  exact ⟨s, h⟩

/-- C05: after any history, every stored header is stored under its own hash, and it
and its stored ancestors form a chain down to the genesis block in which every
header obeys the rules of the network. -/
theorem C05_stored_headers_valid (hb : Booted P H g s0) (hops : Plausible H g ops) (hr : run P H s0 ops = .ok s)
    {k : Bytes} {e : Entry} (he : AMap.get s.hashes k = some e) :
    e.hash = k ∧ k = H e.hdr ∧
    ∃ l : List Entry, Path s.hashes e l ∧ l.getLast? = some s0.tip ∧ s0.tip.hdr = g ∧ s0.tip.height = 0 ∧
      (∀ x ∈ l, AMap.get s.hashes x.hash = some x) ∧
      ValidChain (rules P) (· = blk s0.tip) (l.map blk) := by
  obtain ⟨h6, _, keep⟩ := hb.at hops hr
  obtain ⟨g1, g2, g3, _, _, _, g8⟩ := hb.inv
  obtain ⟨k1, k2, _⟩ := h6.key _ _ he
  obtain ⟨l, l1, l2⟩ := h6.path _ _ he
  obtain ⟨r, r1, r2, r3⟩ := h6.last he l1
  refine ⟨k1, k2.symm, l, l1, ?_, g1, g3, h6.path_mem he l1, l2⟩
  have t1 := keep _ _ g8.tip
  have hh : r.hash = s0.tip.hash := congrArg Block.hash r2
  rw [hh, t1] at r3
  cases r3
  exact r1

/-- C05 spelled out for one header: it is the genesis header or it sits on a stored
parent and obeys each rule. -/
theorem C05_each_header (hb : Booted P H g s0) (hops : Plausible H g ops) (hr : run P H s0 ops = .ok s)
    {k : Bytes} {e : Entry} (he : AMap.get s.hashes k = some e) :
    e = s0.tip ∨ ∃ (p : Entry) (l : List Entry), AMap.get s.hashes e.hdr.prevBlock = some p ∧
      Path s.hashes p (p :: l) ∧ e.height = p.height + 1 ∧
      (∃ t, Difficulty.expand e.hdr.bits = some t ∧ beNat (H e.hdr) ≤ t ∧
        beNat e.work = (beNat p.work + Difficulty.work t) % 2 ^ 256) ∧
      Demanded (rules P) e.hdr.time ((p :: l).map blk) e.hdr.bits ∧
      ∃ m, IsMedian m (((p :: l).take 11).map (·.hdr.time)) ∧ m < e.hdr.time := by
  obtain ⟨k1, k2, l, l1, l2, _, _, l3, l4⟩ := C05_stored_headers_valid hb hops hr he
  cases l1 with
  | root h =>
    left; simp at l2; exact l2
  | @step _ p l' h hp =>
    right
    obtain ⟨t, ht⟩ := hp.head
    subst ht
    refine ⟨p, t, h, hp, ?_⟩
    simp only [List.map_cons] at l4
    have hv : Extends (rules P) (blk e) (blk p) (t.map blk) := by
      generalize hq : blk e :: blk p :: t.map blk = q at l4
      cases l4 with
      | root => simp at hq
      | start h1 h2 h3 =>
        simp only [List.cons.injEq] at hq
        obtain ⟨q1, q2, q3⟩ := hq
        subst q1; subst q2; subst q3
        exfalso
        have z1 : e.height = s0.tip.height := congrArg Block.height h1
        have z2 : e.height = p.height + 1 := h2.2
        have := hb.inv.2.2.1
        omega
      | next h1 h2 =>
        simp only [List.cons.injEq] at hq
        obtain ⟨q1, q2, q3⟩ := hq
        subst q1; subst q2; subst q3
        exact h1
    obtain ⟨m, m1, m2⟩ := hv.later
    obtain ⟨tt, t1, t2, t3⟩ := hv.pow
    refine ⟨hv.linked.2, ⟨tt, t1, ?_, t3⟩, hv.bits, m, ?_, m2⟩
    · rw [← k2, ← k1]; exact t2
    · have : ((blk p :: t.map blk).take 11).map (·.time) = ((p :: t).take 11).map (·.hdr.time) := by
        rw [← List.map_cons, ← List.map_take, List.map_map]; rfl
      rw [← this]; exact m1

example : ∃ s e, run toyP toyH toyS hist = .ok s ∧ AMap.get s.hashes (toyH c3') = some e ∧ e ≠ toyS.tip := by
  obtain ⟨s, h1, _, h3, _⟩ := toyRun
  refine ⟨s, s.tip, h1, ?_, ?_⟩
  · have := (toyBooted.at toyPlausible h1).1
    have h := this.tip
    rw [← (this.key _ _ h).2.1, h3] at h
    exact h
  · intro h
    rw [h, toyBooted.inv.1] at h3
    revert h3; decide +kernel

/-! C06 -/

/-- C06: after any history the tip is stored and no stored header has more work. -/
theorem C06_tip_has_most_work (hb : Booted P H g s0) (hops : Plausible H g ops) (hr : run P H s0 ops = .ok s) :
    AMap.get s.hashes s.tip.hash = some s.tip ∧ s.height = s.tip.height ∧
    ∀ k e, AMap.get s.hashes k = some e → beNat e.work ≤ beNat s.tip.work := by
  obtain ⟨h, _⟩ := hb.at hops hr
  exact ⟨h.tip, h.height, h.best⟩

/-- C06: each call leaves the tip alone or replaces it by one with more work, and no
stored header is ever forgotten or altered. -/
theorem C06_tip_only_moves_up (hb : Booted P H g s0) (hops : Plausible H g ops) (hr : run P H s0 ops = .ok s)
    {now : Int} {h : Hdr} {rc : Rc} {s' : State} (hop : Plausible H g [(now, h)])
    (ha : add P H s now h = .ok (rc, s')) :
    (s'.tip = s.tip ∨ beNat s.tip.work < beNat s'.tip.work) ∧
    ∀ k e, AMap.get s.hashes k = some e → AMap.get s'.hashes k = some e := by
  obtain ⟨hi, _⟩ := hb.at hops hr
  have hq := hop.opsOK (now, h) (by simp)
  rcases add_spec hb.params hb.hash hi hq.1 hq.2 with ⟨rc', s1, a1, a2⟩ | ⟨_, a⟩
  · rw [ha] at a1; cases a1
    cases a2 with
    | refused => exact ⟨.inl rfl, fun _ _ h => h⟩
    | orphan =>
      obtain ⟨o1, _, o3, _⟩ := addOrphan_served s { hdr := h, hash := H h }
      exact ⟨.inl o3, fun k e he => by rw [o1]; exact he⟩
    | stored _ _ _ _ h2 => exact ⟨h2.tip, h2.keep⟩
  · exact absurd hb.inv.2.2.2.2.2.1 a

example : ∃ s, run toyP toyH toyS hist = .ok s ∧ s.tip.hdr = c3' ∧ s.hashes.length = 5 := by
  obtain ⟨s, h1, _, h3, h4, _⟩ := toyRun
  exact ⟨s, h1, h3, h4⟩

/-! C07 -/

theorem find_height {a : Entry} {l : List Entry} (hs : Steps (a :: l)) (n : Nat)
    (hn : n ≤ a.height) (hl : (a :: l).length = a.height + 1) :
    (a :: l).find? (fun x => x.height = n) = (a :: l)[a.height - n]? := by
  have hlt : a.height - n < (a :: l).length := by omega
  rw [List.getElem?_eq_getElem hlt, List.find?_eq_some_iff_getElem]
  have hx := hs.index (a.height - n) (List.getElem?_eq_getElem hlt)
  refine ⟨by simp; omega, a.height - n, hlt, rfl, ?_⟩
  intro j hj
  have := hs.index j (List.getElem?_eq_getElem (by omega))
  simp only [decide_eq_true_eq, Bool.not_eq_eq_eq_not, Bool.not_true, decide_eq_false_iff_not]
  omega

/-- C07: after any history, looking up a height gives the tip's ancestor at that
height, for every height from 0 to the tip, and nothing above the tip. -/
theorem C07_index_is_tip_ancestry (hb : Booted P H g s0) (hops : Plausible H g ops) (hr : run P H s0 ops = .ok s) :
    ∃ l : List Entry, Path s.hashes s.tip l ∧ l.length = s.height + 1 ∧ (∀ x ∈ l, x.height ≤ s.height) ∧
      ∀ n, getByHeight s n = if n ≤ s.height then l[s.height - n]? else none := by
  obtain ⟨h, _⟩ := hb.at hops hr
  obtain ⟨l, r, l1, l2, l3⟩ := h.index
  obtain ⟨t, ht⟩ := l1.head
  subst ht
  have hlen := h.path_length hb.inv.2.2.2.2.2.1 h.tip l1
  have hst := h.steps h.tip l1
  have hle : ∀ x ∈ s.tip :: t, x.height ≤ s.height := by
    intro x hx; rw [h.height]; exact hst.le hx
  refine ⟨_, l1, by rw [h.height]; exact hlen, hle, ?_⟩
  intro n
  have hr0 : r.height = 0 := by
    obtain ⟨r', r1, r2, _⟩ := h.last h.tip l1
    rw [l2] at r1; cases r1
    have := congrArg Block.height r2
    have h0 := hb.inv.2.2.1
    simp only [blk] at this
    omega
  unfold getByHeight
  rw [l3, if_pos (by omega), h.height]
  split
  · exact find_height hst n (by assumption) hlen
  · rw [List.find?_eq_none]
    intro x hx
    have := hst.le hx
    simp; omega

/-- C07: in particular the block served at a height is stored, has that height, and
its parent is the block served one below. -/
theorem C07_index_linked (hb : Booted P H g s0) (hops : Plausible H g ops) (hr : run P H s0 ops = .ok s) (n : Nat) :
    ((getByHeight s n).isSome ↔ n ≤ s.height) ∧
    ∀ e, getByHeight s n = some e → e.height = n ∧ AMap.get s.hashes e.hash = some e ∧
      (n ≠ 0 → AMap.get s.hashes e.hdr.prevBlock = getByHeight s (n - 1)) := by
  obtain ⟨l, l1, l2, l3, l4⟩ := C07_index_is_tip_ancestry hb hops hr
  obtain ⟨h, _⟩ := hb.at hops hr
  have hst := h.steps h.tip l1
  have hmem := h.path_mem h.tip l1
  obtain ⟨t, ht⟩ := l1.head
  constructor
  · rw [l4]
    split
    · rename_i hn
      simp only [hn, iff_true]
      rw [List.getElem?_eq_getElem (by omega)]; rfl
    · simp_all
  · intro e he
    rw [l4] at he
    split at he
    swap
    · cases he
    rename_i hn
    have hx := List.mem_of_getElem? he
    have hhe : e.height = n := by
      have := (ht ▸ hst).index (s.height - n) (ht ▸ he)
      have := h.height
      omega
    refine ⟨hhe, hmem e hx, ?_⟩
    intro hn0
    rw [l4, if_pos (by omega)]
    -- position of e
    have hpos : l = l.take (s.height - n) ++ e :: l.drop (s.height - n + 1) := by
      have hlt : s.height - n < l.length := by omega
      rw [List.getElem?_eq_getElem hlt] at he
      conv => lhs; rw [← List.take_append_drop (s.height - n) l]
      rw [List.drop_eq_getElem_cons hlt]
      cases he; rfl
    have hsuf := Path.suffix (hpos ▸ l1)
    generalize hd : l.drop (s.height - n + 1) = d at hpos hsuf
    have hidx : l[s.height - (n - 1)]? = d.head? := by
      rw [← hd, List.head?_drop]; congr 1; omega
    rw [hidx]
    generalize hq : e :: d = q at hsuf
    cases hsuf with
    | root hp =>
      simp at hq; subst hq; simpa using hp
    | step hp hpp =>
      simp only [List.cons.injEq, true_and] at hq
      obtain ⟨t', ht'⟩ := hpp.head
      rw [hq, ht']; simpa using hp

example : ∃ s, run toyP toyH toyS hist = .ok s ∧ (getByHeight s 2).map (·.hdr) = some c2' ∧ s.height = 3 := by
  have h : (match run toyP toyH toyS hist with
    | .ok s => decide ((getByHeight s 2).map (·.hdr) = some c2' ∧ s.height = 3)
    | _ => false) = true := by decide +kernel
  cases hc : run toyP toyH toyS hist with
  | ok s => rw [hc] at h; exact ⟨s, rfl, of_decide_eq_true h⟩
  | err e => rw [hc] at h; cases h
  | ub => rw [hc] at h; cases h

/-! C08 -/

/-- C08: on top of any stored header, the difficulty the node demands of a new
header with a given time exists and is the one the network's retarget rule gives
for that header's ancestors. The rule leaves no choice (`C08_rule_is_a_function`). -/
theorem C08_demanded_difficulty (hb : Booted P H g s0) (hops : Plausible H g ops) (hr : run P H s0 ops = .ok s)
    {k : Bytes} {e : Entry} (he : AMap.get s.hashes k = some e) {time : Nat} (ht : time < 2 ^ 63) :
    ∃ (l : List Entry) (b : Nat), Path s.hashes e l ∧ getTarget P s.hashes (toI64 time) e = .ok b ∧
      Demanded (rules P) time (l.map blk) b := by
  obtain ⟨h, _⟩ := hb.at hops hr
  obtain ⟨l, l1, _⟩ := h.path _ _ he
  have hm := h.path_mem he l1
  rcases getTarget_spec P l1 (h.steps he l1) hb.params.limit (fun x hx => (h.key _ _ (hm x hx)).2.2.2)
    (fun x hx => (h.key _ _ (hm x hx)).2.2.1) ht with ⟨b, b1, b2⟩ | ⟨_, b2, b3⟩
  · exact ⟨l, b, l1, b1, b2⟩
  · have := h.path_length hb.inv.2.2.2.2.2.1 he l1
    omega

/-- C08: the rule determines the difficulty. -/
theorem C08_rule_is_a_function {R : Rules} {time : Nat} {l : List Block} {b b' : Nat}
    (h : Demanded R time l b) (h' : Demanded R time l b') : b = b' := demanded_unique h h'

/-- C08: the arithmetic alone, for any two reference blocks: clamped elapsed time,
big-number quotient, compact form, limit. -/
theorem C08_retarget_arithmetic (P : Params) (hlim : P.limit.length = 32) {first last : Entry}
    (hw : first.work.length = 32) (hw' : last.work.length = 32) (ht : first.hdr.time < 2 ^ 63)
    (ht' : last.hdr.time < 2 ^ 63) (hh : first.height ≤ last.height) :
    ∃ b, retarget P first last = .ok b ∧ Retarget (rules P) (blk first) (blk last) b :=
  retarget_spec P hlim hw hw' ht ht' hh

/-! C09 -/

/-- The part of the state that is served. -/
def Served (s : State) : HashMap × AMap Nat Entry × Entry × Nat × Bool := (s.hashes, s.heights, s.tip, s.height, s.synced)

/-- C09, the part that holds: a call that does not report success leaves what is
served untouched, except when the report is "too old" or "bad difficulty": then the
offered header itself may have been valid and stored, the complaint being about
another header that was waiting for it. (`C09_error_but_stored` is an instance.) -/
theorem C09_refused_changes_nothing_partial (hb : Booted P H g s0) (hops : Plausible H g ops)
    (hr : run P H s0 ops = .ok s) {now : Int} {h : Hdr} {rc : Rc} {s' : State}
    (hop : Plausible H g [(now, h)]) (ha : add P H s now h = .ok (rc, s')) (hrc : rc ≠ .success) :
    Served s' = Served s ∨
    ((rc = .timeTooOld ∨ rc = .badDiffBits) ∧ ∃ e prev l, AMap.get s'.hashes (H h) = some e ∧ e.hdr = h ∧
      Path s.hashes prev (prev :: l) ∧ Extends (rules P) (blk e) (blk prev) (l.map blk)) := by
  obtain ⟨hi, _⟩ := hb.at hops hr
  have hq := hop.opsOK (now, h) (by simp)
  rcases add_spec hb.params hb.hash hi hq.1 hq.2 with ⟨rc', s1, a1, a2⟩ | ⟨_, a⟩
  · rw [ha] at a1; cases a1
    cases a2 with
    | refused => exact .inl rfl
    | orphan =>
      left
      obtain ⟨o1, o2, o3, o4, o5⟩ := addOrphan_served s { hdr := h, hash := H h }
      unfold Served
      rw [o1, o2, o3, o4, o5]
    | stored e prev l h1 h2 h3 h4 h5 h6 h7 =>
      exact .inr ⟨h1.resolve_left hrc, e, prev, l, h4, h5, h6, h7⟩
  · exact absurd hb.inv.2.2.2.2.2.1 a

theorem insert_error {P : Params} {now : Int} {s : State} {n : Node} {prev : Entry} {rc : Rc}
    (h : Chain.insert P now s n prev = .ok (.error rc)) : rc = .timeTooOld ∨ rc = .badDiffBits := by
  unfold Chain.insert at h
  split at h
  · cases h; exact .inl rfl
  · obtain ⟨x, x1, x2⟩ := Out.bind_eq_ok.1 h
    split at x2
    · cases x2; exact .inr rfl
    · split at x2
      · obtain ⟨y, y1, y2⟩ := Out.bind_eq_ok.1 x2
        cases y2
      · cases x2

/-- C09: a header that was refused for its own sake (too new, duplicate, bad proof
of work, unknown parent) never changes what is served, in any state at all. -/
theorem C09_early_refusal (P : Params) (H : Hdr → Bytes) (s : State) (now : Int) (h : Hdr) {rc : Rc} {s' : State}
    (ha : add P H s now h = .ok (rc, s'))
    (hrc : rc = .timeTooNew ∨ rc = .duplicate ∨ rc = .duplicateOrphan ∨ rc = .negTarget ∨ rc = .highHash ∨ rc = .orphan) :
    Served s' = Served s := by
  have loop : ∀ fuel s e rc s', resolveLoop P now fuel s e = .ok (rc, s') → rc = .success ∨ rc = .timeTooOld ∨ rc = .badDiffBits := by
    intro fuel
    induction fuel with
    | zero => intro s e rc s' h; cases h
    | succ f ih =>
      intro s e rc s' h
      unfold resolveLoop at h
      split at h
      · cases h; exact .inl rfl
      · obtain ⟨x, x1, x2⟩ := Out.bind_eq_ok.1 h
        cases x with
        | error rc' =>
          cases x2
          exact .inr (insert_error x1)
        | ok q => exact ih _ _ _ _ x2
  unfold add at ha
  dsimp only at ha
  split at ha
  · cases ha; rfl
  split at ha
  · cases ha; rfl
  split at ha
  · cases ha; rfl
  split at ha
  · cases ha; rfl
  · cases ha; rfl
  split at ha
  · cases ha
    obtain ⟨o1, o2, o3, o4, o5⟩ := addOrphan_served s { hdr := h, hash := H h }
    unfold Served
    rw [o1, o2, o3, o4, o5]
  · obtain ⟨x, x1, x2⟩ := Out.bind_eq_ok.1 ha
    cases x with
    | error rc' => cases x2; rfl
    | ok q =>
      exfalso
      have := loop _ _ _ _ _ x2
      rcases this with h | h | h <;> subst h <;> simp at hrc

/-- C09 is false of the code: a waiting header that turns out to be too old makes
the call that stores its parent report "too old", although the parent was stored
and is the new tip (src/chain.c:660-665). -/
theorem C09_error_but_stored : ∃ s s', run toyP toyH toyS [(2000, c2old)] = .ok s ∧
    add toyP toyH s 2000 c1 = .ok (.timeTooOld, s') ∧ s.tip.hdr = g0 ∧ s'.tip.hdr = c1 := by
  have h : (match run toyP toyH toyS [(2000, c2old)] with
    | .ok s => match add toyP toyH s 2000 c1 with
      | .ok (rc, s') => decide (rc = .timeTooOld ∧ s.tip.hdr = g0 ∧ s'.tip.hdr = c1)
      | _ => false
    | _ => false) = true := by decide +kernel
  cases hc : run toyP toyH toyS [(2000, c2old)] with
  | ok s =>
    rw [hc] at h
    simp only at h
    cases hd : add toyP toyH s 2000 c1 with
    | ok p =>
      rw [hd] at h
      obtain ⟨rc, s'⟩ := p
      obtain ⟨h1, h2, h3⟩ := of_decide_eq_true h
      subst h1
      exact ⟨s, s', rfl, hd, h2, h3⟩
    | err e => rw [hd] at h; cases h
    | ub => rw [hd] at h; cases h
  | err e => rw [hc] at h; cases h
  | ub => rw [hc] at h; cases h

/-! C52 -/

/-- C52: a header that validly extends a stored header, is not too far in the
future and is not already held, is stored by the call. -/
theorem C52_valid_header_accepted (hb : Booted P H g s0) (hops : Plausible H g ops) (hr : run P H s0 ops = .ok s)
    {now : Int} {h : Hdr} (hop : Plausible H g [(now, h)]) (hfut : (h.time : Int) ≤ now + 7200)
    (hnew : AMap.get s.hashes (H h) = none) (hno : AMap.get s.orphans (H h) = none)
    {e prev : Entry} {l : List Entry} (hp : AMap.get s.hashes h.prevBlock = some prev)
    (hpath : Path s.hashes prev (prev :: l)) (hhdr : e.hdr = h) (hhash : e.hash = H h) (hw : e.work.length = 32)
    (hext : Extends (rules P) (blk e) (blk prev) (l.map blk)) :
    ∃ rc s', add P H s now h = .ok (rc, s') ∧ AMap.get s'.hashes (H h) = some e ∧
      beNat e.work ≤ beNat s'.tip.work := by
  obtain ⟨hi, _⟩ := hb.at hops hr
  have hg := hb.inv.2.2.2.2.2.1
  have hq := hop.opsOK (now, h) (by simp)
  obtain ⟨hc1, hc2⟩ := hq.1
  have hk := (hi.key _ _ hp).1
  subst hhdr
  have hcand : Cand P H [g.prevBlock] s prev { hdr := e.hdr, hash := e.hash } := by
    rw [hhash]
    exact { stored := by rw [hk]; exact hp, link := hk.symm, fresh := hnew, noOrphan := hno,
            noRoot := hq.2, good := ⟨rfl, by simp only; omega⟩,
            pow := by
              have := extends_pow hb.params hext (by rw [hhash]; exact hb.hash _)
              rwa [hhash] at this }
  obtain ⟨s1, i1, i2⟩ := insert_complete hb.params hb.hash hi hcand now hpath hext hw hg
  rw [hhash] at i1
  have he1 : AMap.get s1.hashes e.hash = some e := by rw [i2.hashes, AMap.get_set, if_pos rfl]
  rcases resolveLoop_spec hb.params hb.hash now (AMap.size s1.prevs + 1) i2.inv he1 with ⟨rc, s2, r1, r2, _⟩ | ⟨_, r⟩
  · have hst := r2.keep _ _ he1
    refine ⟨rc, s2, ?_, by rw [← hhash]; exact hst, r2.inv.best _ _ hst⟩
    unfold add
    dsimp only
    rw [if_neg (by unfold toU64; omega), if_neg (by simp [AMap.has, hnew]), if_neg (by simp [AMap.has, hno])]
    have := hcand.pow
    simp only [hhash] at this
    rw [this]
    simp only [hp, i1, Out.bind]
    exact r1
  · have := r hg; omega

/-! C10 -/

/-- C10 is false of the code: when two headers waiting for the same parent arrive
before it, only the later one is connected. The earlier stays aside although its
parent is stored, and offering it again is refused as a duplicate. -/
theorem C10_stranded : ∃ s, run toyP toyH toyS [(2000, c2), (2000, c2'), (2000, c1)] = .ok s ∧
    AMap.get s.hashes (toyH c2) = none ∧ (AMap.get s.hashes (toyH c1)).isSome ∧
    add toyP toyH s 2000 c2 = .ok (.duplicateOrphan, s) := by
  have h : (match run toyP toyH toyS [(2000, c2), (2000, c2'), (2000, c1)] with
    | .ok s => decide (AMap.get s.hashes (toyH c2) = none ∧ (AMap.get s.hashes (toyH c1)).isSome ∧
        add toyP toyH s 2000 c2 = .ok (.duplicateOrphan, s))
    | _ => false) = true := by decide +kernel
  cases hc : run toyP toyH toyS [(2000, c2), (2000, c2'), (2000, c1)] with
  | ok s => rw [hc] at h; exact ⟨s, rfl, of_decide_eq_true h⟩
  | err e => rw [hc] at h; cases h
  | ub => rw [hc] at h; cases h

/-- The part of C10 that holds: if no two of the offered headers name the same
parent, then after any history no header is left waiting for a parent that is
stored. -/
theorem C10_nothing_waits_partial (hb : Booted P H g s0) (hops : Plausible H g ops) (hr : run P H s0 ops = .ok s)
    (hlin : ∀ a ∈ ops, ∀ b ∈ ops, a.2.prevBlock = b.2.prevBlock → a.2 = b.2)
    {k : Bytes} {o : Node} (ho : AMap.get s.orphans k = some o) : AMap.get s.hashes o.hdr.prevBlock = none := by
  obtain ⟨_, _, _, h5, _, _, h8⟩ := hb.inv
  have ht : Tidy s0 := by intro k o ho; rw [h5] at ho; simp at ho
  have := run_tidy hb.params hb.hash (ops.map (·.2)) ops hops.opsOK (fun op h => List.mem_map.2 ⟨op, h, rfl⟩)
    (by
      intro a ha b hb h
      obtain ⟨x, hx, rfl⟩ := List.mem_map.1 ha
      obtain ⟨y, hy, rfl⟩ := List.mem_map.1 hb
      exact hlin x hx y hy h)
    h8 ht (by intro k o ho; rw [h5] at ho; simp at ho) hr
  exact (this k o ho).1

/-- The part of C10 that holds: take any valid chain of at most 10000 headers on top
of the genesis block (newest first in `es`, with heights and work filled in). Offer
its headers in any order, any number of times, each at least once and not before
two hours ahead of its time. Then all of them end up stored. -/
theorem C10_linear_chain_converges_partial (hb : Booted P H g s0) {es : List Entry}
    (hne : es ≠ []) (hvalid : ValidChain (rules P) (· = blk s0.tip) ((es ++ [s0.tip]).map blk))
    (hlen : es.length < 10000)
    (hhash : ∀ e ∈ es, e.hash = H e.hdr ∧ e.work.length = 32 ∧ e.hash ≠ g.prevBlock)
    (hnc : ∀ e ∈ es ++ [s0.tip], ∀ e' ∈ es ++ [s0.tip], e.hash = e'.hash → e = e')
    (hsub : ∀ op ∈ ops, (0 ≤ op.1 + 7200 ∧ op.1 + 7200 < 2 ^ 63) ∧ (op.2.time : Int) ≤ op.1 + 7200 ∧ ∃ e ∈ es, e.hdr = op.2)
    (hall : ∀ e ∈ es, ∃ op ∈ ops, op.2 = e.hdr) :
    ∃ s, run P H s0 ops = .ok s ∧ (∀ e ∈ es, AMap.get s.hashes e.hash = some e) ∧ s.tip ∈ es ++ [s0.tip] ∧
      ∀ e ∈ es, beNat e.work ≤ beNat s.tip.work := by
  obtain ⟨t1, t2, t3, h5, h6, hg, hi⟩ := hb.inv
  have hst : Steps (es ++ [s0.tip]) := validChain_steps _ hvalid
  have ht : ∀ e ∈ es, e.hdr.time < 2 ^ 63 := by
    intro e he
    obtain ⟨op, o1, o2⟩ := hall e he
    obtain ⟨q1, q2, _⟩ := hsub op o1
    rw [o2] at q2
    omega
  have hL : Linear P H (· = blk s0.tip) [g.prevBlock] (es ++ [s0.tip]) := by
    refine ⟨hvalid, ?_, hnc, ?_⟩
    · intro e he
      rcases List.mem_append.1 he with he | he
      · obtain ⟨a1, a2, a3⟩ := hhash e he
        exact ⟨a1, a2, ht e he, by simpa using a3⟩
      · simp only [List.mem_singleton] at he
        subst he
        obtain ⟨k1, k2, k3, k4⟩ := hi.key _ _ hi.tip
        exact ⟨k2.symm, k3, k4, by rw [t2]; simpa using hb.noLoop⟩
    · intro e he htr A B hAB
      have hh : e.height = 0 := by have := congrArg Block.height htr; simp only [blk] at this; omega
      cases B with
      | nil => rfl
      | cons b B =>
        exfalso
        have := (hAB ▸ hst : Steps (A ++ e :: b :: B)).drop.lt (b := b) (by simp)
        omega
  have hc : Conv P H (· = blk s0.tip) [g.prevBlock] (fun _ => none) (es ++ [s0.tip]) s0 := by
    refine ⟨hi, ?_, ?_, ?_⟩
    · intro k x hx
      obtain ⟨now, hs⟩ := hb.start
      obtain ⟨l, l1, _⟩ := hi.path _ _ hx
      have := initGenesis_only hs k x hx
      rw [this]; simp
    · intro k o ho; rw [h5] at ho; simp at ho
    · exact hb.sizes.nodup
  obtain ⟨s, r1, r2, r3, r4⟩ := run_conv hb.params hb.hash hg hL (by simp; omega) ops (by
      intro op hop
      obtain ⟨q1, q2, e, q3, q4⟩ := hsub op hop
      exact ⟨q1, e, by simp [q3], q4, by rw [q4]; exact q2⟩) hc
  have htidy : Tidy s0 := by intro k o ho; rw [h5] at ho; simp at ho
  have hdl : (es ++ [s0.tip]).dropLast = es := by simp
  have hlin : ∀ a ∈ es.map (·.hdr), ∀ b ∈ es.map (·.hdr), a.prevBlock = b.prevBlock → a = b := by
    intro a ha b hb' hab
    obtain ⟨x, hx, rfl⟩ := List.mem_map.1 ha
    obtain ⟨y, hy, rfl⟩ := List.mem_map.1 hb'
    rw [hL.parents (by rw [hdl]; exact hx) (by rw [hdl]; exact hy) hab]
  have htidy' := run_tidy hb.params hb.hash (es.map (·.hdr)) ops (by
      intro op hop
      obtain ⟨q1, q2, e, q3, q4⟩ := hsub op hop
      refine ⟨q1, ?_⟩
      have := hhash e q3
      rw [← q4, ← this.1]
      simpa using this.2.2)
    (by
      intro op hop
      obtain ⟨q1, q2, e, q3, q4⟩ := hsub op hop
      exact List.mem_map.2 ⟨e, q3, q4⟩)
    hlin hi htidy (by intro k o ho; rw [h5] at ho; simp at ho) r1
  have hfin := r2.all_stored hg hL htidy' (by rw [hdl]; exact fun e he => r4 e (by simp [he]) (hall e he))
  refine ⟨s, r1, fun e he => hfin e (by simp [he]), r2.stored _ _ r2.inv.tip, ?_⟩
  exact fun e he => r2.inv.best _ _ (hfin e (by simp [he]))

/-- The three headers of a toy chain, as stored when offered in order. -/
def toyLin : State := match run toyP toyH toyS [(2000, c1), (2000, c2')] with
  | .ok s => s
  | _ => toyS
def toyE1 : Entry := (AMap.get toyLin.hashes (toyH c1)).getD toyS.tip

theorem toyLinRun : run toyP toyH toyS [(2000, c1), (2000, c2')] = .ok toyLin := by
  have h : run toyP toyH toyS [(2000, c1), (2000, c2')] ≠ .ub ∧
      run toyP toyH toyS [(2000, c1), (2000, c2')] ≠ .err () := by decide +kernel
  unfold toyLin
  cases hc : run toyP toyH toyS [(2000, c1), (2000, c2')] with
  | ok s => rfl
  | err e => exact absurd hc h.2
  | ub => exact absurd hc h.1

/-- The hypotheses of `C10_linear_chain_converges_partial` are met by a chain of two
headers offered child first, with a repetition. -/
example : ∃ s, run toyP toyH toyS [(2000, c2'), (2000, c2'), (2000, c1)] = .ok s ∧
    ∀ e ∈ [toyLin.tip, toyE1], AMap.get s.hashes e.hash = some e := by
  have hp : Plausible toyH g0 [(2000, c1), (2000, c2')] := by unfold Plausible; decide +kernel
  have hlast : AMap.get toyLin.hashes toyLin.tip.hash = some toyLin.tip := by decide +kernel
  obtain ⟨_, _, l, l1, l2, _, _, l3, l4⟩ := C05_stored_headers_valid toyBooted hp toyLinRun hlast
  have hl : l = [toyLin.tip, toyE1] ++ [toyS.tip] := by
    refine l1.unique ?_
    exact Path.step (by decide +kernel : _ = some toyE1)
      (Path.step (by decide +kernel : _ = some toyS.tip) (Path.root (by decide +kernel)))
  rw [hl] at l4
  obtain ⟨s, s1, s2, _⟩ := C10_linear_chain_converges_partial (ops := [(2000, c2'), (2000, c2'), (2000, c1)])
    toyBooted (by simp) l4 (by simp) (by decide +kernel) (by decide +kernel) (by decide +kernel) (by decide +kernel)
  exact ⟨s, s1, s2⟩

/-- The hypotheses of `C52_valid_header_accepted` are met by the second header of
that chain after the first. -/
example : ∃ rc s', add toyP toyH toyLin 2000 c3' = .ok (rc, s') ∧ (AMap.get s'.hashes (toyH c3')).isSome := by
  have h : (match add toyP toyH toyLin 2000 c3' with
    | .ok (_, s') => (AMap.get s'.hashes (toyH c3')).isSome
    | _ => false) = true := by decide +kernel
  cases hc : add toyP toyH toyLin 2000 c3' with
  | ok p => rw [hc] at h; exact ⟨p.1, p.2, rfl, h⟩
  | err e => rw [hc] at h; cases h
  | ub => rw [hc] at h; cases h

/-! C11 -/

/-- C11: after any history at most 10001 headers are held aside, and the parent
index holds no more than that and only headers that are held. -/
theorem C11_orphans_bounded (hb : Booted P H g s0) (hops : Plausible H g ops) (hr : run P H s0 ops = .ok s) :
    s.orphans.length ≤ 10001 ∧ s.prevs.length ≤ s.orphans.length ∧
    ∀ k o, AMap.get s.prevs k = some o → o.hdr.prevBlock = k ∧ AMap.get s.orphans o.hash = some o := by
  obtain ⟨hi, hs, _⟩ := hb.at hops hr
  exact ⟨hs.bound, hs.le, hi.prevs⟩

example : ∃ s, run toyP toyH toyS [(2000, c2), (2000, c2')] = .ok s ∧ s.orphans.length = 2 ∧ s.prevs.length = 1 := by
  have h : (match run toyP toyH toyS [(2000, c2), (2000, c2')] with
    | .ok s => decide (s.orphans.length = 2 ∧ s.prevs.length = 1)
    | _ => false) = true := by decide +kernel
  cases hc : run toyP toyH toyS [(2000, c2), (2000, c2')] with
  | ok s => rw [hc] at h; exact ⟨s, rfl, of_decide_eq_true h⟩
  | err e => rw [hc] at h; cases h
  | ub => rw [hc] at h; cases h

/-! C12 -/

/-- C12: in any state whatever with a 32-bit height the locator is built without
overrunning its 64 slots. -/
theorem C12_locator_fits (s : State) (hh : s.height < 2 ^ 32) : ∃ r, locator s = .ok r ∧ r.length ≤ 44 := by
  unfold locator
  exact locatorLoop_bounded s (s.height + 1) s.height 1 [s.tip.hash] (by omega) hh (by simp) (by omega)

/-- C12: after any history the locator lists main-chain hashes from the tip to the
genesis block, at strictly decreasing heights; eleven steps of one block, then 2,
4, 8, ... -/
theorem C12_locator_shape (hb : Booted P H g s0) (hops : Plausible H g ops) (hr : run P H s0 ops = .ok s)
    (hh : s.height < 2 ^ 32) :
    ∃ (r : List Bytes) (hts : List Nat), locator s = .ok r ∧
      r.map some = hts.map (fun n => (getByHeight s n).map (·.hash)) ∧
      hts[0]? = some s.height ∧ hts.getLast? = some 0 ∧ hts.Pairwise (· > ·) ∧
      ∀ i a b, hts[i]? = some a → hts[i + 1]? = some b → b = a - 2 ^ (i - 10) := by
  obtain ⟨r, r1, _⟩ := C12_locator_fits s hh
  obtain ⟨hi, _⟩ := hb.at hops hr
  have hall : ∀ n ≤ s.height, ∃ e, getByHeight s n = some e := fun n hn =>
    Option.isSome_iff_exists.1 ((C07_index_linked hb hops hr n).1.2 hn)
  obtain ⟨t, t1, t2, t3, t4, t5⟩ := locatorLoop_heights s hall (s.height + 1) s.height [s.tip.hash]
    (by omega) (Nat.le_refl _) r1
  refine ⟨r, s.height :: t, r1, ?_, rfl, t2, List.pairwise_cons.2 ⟨fun n hn => t3 n hn, t4⟩, ?_⟩
  · rw [t1]
    simp only [List.reverse_singleton, List.map_cons, List.map_nil, List.singleton_append, List.cons.injEq, and_true]
    obtain ⟨l, l1, l2, l3, l4⟩ := C07_index_is_tip_ancestry hb hops hr
    obtain ⟨t', ht'⟩ := l1.head
    rw [l4, if_pos (Nat.le_refl _), ht']
    simp
  · intro i a b ha hb'
    have := t5 i a b ha (by simpa using hb')
    rw [this]
    congr 2
    simp only [List.length_singleton]
    omega

example : ∃ s r, run toyP toyH toyS hist = .ok s ∧ locator s = .ok r ∧ r = [toyH c3', toyH c2', toyH c1, toyH g0] := by
  have h : (match run toyP toyH toyS hist with
    | .ok s => decide (locator s = .ok [toyH c3', toyH c2', toyH c1, toyH g0])
    | _ => false) = true := by decide +kernel
  cases hc : run toyP toyH toyS hist with
  | ok s => rw [hc] at h; exact ⟨s, _, rfl, of_decide_eq_true h, rfl⟩
  | err e => rw [hc] at h; cases h
  | ub => rw [hc] at h; cases h

/-! C13 -/

/-- The network rule for the committed tree root: it only changes in the block
after each multiple of the interval. -/
def RootRule (interval : Nat) (s : State) : Prop :=
  ∀ n e p, getByHeight s (n + 1) = some e → getByHeight s n = some p → (n + 1) % interval ≠ 1 →
    e.hdr.nameRoot = p.hdr.nameRoot

/-- C13: the root used always exists and is that of a main-chain block at most 11
below the tip. -/
theorem C13_safe_root_exists (hb : Booted P H g s0) (hops : Plausible H g ops) (hr : run P H s0 ops = .ok s) :
    ∃ n e, n ≤ s.height ∧ s.height ≤ n + 11 ∧ getByHeight s n = some e ∧ safeRoot P s = .ok e.hdr.nameRoot := by
  have hn : safeHeight P s ≤ s.height ∧ s.height ≤ safeHeight P s + 11 := by
    unfold safeHeight
    dsimp only
    split <;> omega
  obtain ⟨e, he⟩ := Option.isSome_iff_exists.1 ((C07_index_linked hb hops hr (safeHeight P s)).1.2 hn.1)
  exact ⟨safeHeight P s, e, hn.1, hn.2, he, by unfold safeRoot; rw [he]⟩

theorem rootRule_back (hb : Booted P H g s0) (hops : Plausible H g ops) (hr : run P H s0 ops = .ok s)
    {I : Nat} (hI : RootRule I s) (c d : Nat) (hd : c + d ≤ s.height)
    (hmod : ∀ j, c < j → j ≤ c + d → j % I ≠ 1) {e : Entry} (he : getByHeight s (c + d) = some e) :
    ∃ p, getByHeight s c = some p ∧ p.hdr.nameRoot = e.hdr.nameRoot := by
  induction d generalizing e with
  | zero => exact ⟨e, he, rfl⟩
  | succ d ih =>
    obtain ⟨q, hq⟩ := Option.isSome_iff_exists.1 ((C07_index_linked hb hops hr (c + d)).1.2 (by omega))
    obtain ⟨p, p1, p2⟩ := ih (by omega) (fun j h1 h2 => hmod j h1 (by omega)) hq
    exact ⟨p, p1, by rw [p2]; exact (hI (c + d) e q he hq (hmod _ (by omega) (by omega))).symm⟩

/-- C13: under the network rule, while the tip is in the window of heights
`k * interval + 12` to `(k + 1) * interval + 11` the root used is the one committed
by block `k * interval + 1`; below height 12 it is that of the genesis block. -/
theorem C13_safe_root_block (hb : Booted P H g s0) (hops : Plausible H g ops) (hr : run P H s0 ops = .ok s)
    (hI : 12 ≤ P.treeInterval) (hrule : RootRule P.treeInterval s) :
    (s.height < 12 → ∃ e, getByHeight s 0 = some e ∧ safeRoot P s = .ok e.hdr.nameRoot) ∧
    ∀ k, k * P.treeInterval + 12 ≤ s.height → s.height < (k + 1) * P.treeInterval + 12 →
      ∃ e, getByHeight s (k * P.treeInterval + 1) = some e ∧ safeRoot P s = .ok e.hdr.nameRoot := by
  generalize hIe : P.treeInterval = I at *
  obtain ⟨e, he⟩ := Option.isSome_iff_exists.1 ((C07_index_linked hb hops hr (safeHeight P s)).1.2
    (by unfold safeHeight; dsimp only; omega))
  have hsr : safeRoot P s = .ok e.hdr.nameRoot := by unfold safeRoot; rw [he]
  constructor
  · intro h12
    have : safeHeight P s = s.height - s.height % I ∧ s.height % I < 12 := by
      have := Nat.mod_le s.height I
      unfold safeHeight
      dsimp only
      rw [hIe, if_neg (by omega)]
      omega
    by_cases hlt : s.height < I
    · rw [Nat.mod_eq_of_lt hlt] at this
      rw [this.1, Nat.sub_self] at he
      exact ⟨e, he, hsr⟩
    · omega
  · intro k h1 h2
    rw [Nat.succ_mul] at h2
    have back := rootRule_back hb hops hr hrule (k * I + 1) (safeHeight P s - (k * I + 1))
    have hmodk : ∀ j, k * I + 1 < j → j ≤ k * I + I → j % I ≠ 1 := by
      intro j hj1 hj2 hj
      obtain ⟨d, rfl⟩ := Nat.exists_eq_add_of_lt hj1
      have hq : k * I + 1 + d + 1 = (d + 2) + I * k := by rw [Nat.mul_comm]; omega
      rw [hq, Nat.add_mul_mod_self_left] at hj
      by_cases hd : d + 2 = I
      · rw [hd, Nat.mod_self] at hj; omega
      · rw [Nat.mod_eq_of_lt (by omega)] at hj; omega
    have hsafe : k * I + 1 ≤ safeHeight P s ∧ safeHeight P s ≤ k * I + I ∧ safeHeight P s ≤ s.height := by
      unfold safeHeight
      dsimp only
      rw [hIe]
      by_cases hc : s.height < k * I + I
      · have : s.height % I = s.height - k * I := by
          conv => lhs; rw [show s.height = (s.height - k * I) + I * k by rw [Nat.mul_comm I]; omega]
          rw [Nat.add_mul_mod_self_left, Nat.mod_eq_of_lt (by omega)]
        rw [this, if_pos (by omega)]
        omega
      · by_cases h36 : s.height < k * I + I + I
        · have : s.height % I = s.height - (k * I + I) := by
            conv => lhs; rw [show s.height = (s.height - (k * I + I)) + I * (k + 1) by
              rw [Nat.mul_add, Nat.mul_comm I]; omega]
            rw [Nat.add_mul_mod_self_left, Nat.mod_eq_of_lt (by omega)]
          rw [this, if_neg (by omega)]
          omega
        · omega
    rw [show safeHeight P s = k * I + 1 + (safeHeight P s - (k * I + 1)) by omega] at he
    obtain ⟨p, p1, p2⟩ := back (by omega) (fun j hj1 hj2 => hmodk j hj1 (by omega)) he
    exact ⟨p, p1, by rw [hsr, p2]⟩

/-- C13: under the network rule, the root used was already committed by a block with
at least 12 confirmations (itself included), or by the genesis block. -/
theorem C13_safe_root_buried (hb : Booted P H g s0) (hops : Plausible H g ops) (hr : run P H s0 ops = .ok s)
    (hI : 12 ≤ P.treeInterval) (hrule : RootRule P.treeInterval s) :
    ∃ c e, getByHeight s c = some e ∧ safeRoot P s = .ok e.hdr.nameRoot ∧ (c = 0 ∨ c + 12 ≤ s.height + 1) := by
  obtain ⟨h1, h2⟩ := C13_safe_root_block hb hops hr hI hrule
  by_cases h12 : s.height < 12
  · obtain ⟨e, e1, e2⟩ := h1 h12
    exact ⟨0, e, e1, e2, .inl rfl⟩
  · have hd := Nat.div_add_mod (s.height - 12) P.treeInterval
    have hm := Nat.mod_lt (s.height - 12) (show 0 < P.treeInterval by omega)
    rw [Nat.mul_comm] at hd
    obtain ⟨e, e1, e2⟩ := h2 ((s.height - 12) / P.treeInterval) (by omega) (by rw [Nat.succ_mul]; omega)
    exact ⟨_, e, e1, e2, .inr (by omega)⟩

/-- C13: two moments of a node's life in the same window, with the same block
`k * interval + 1`, use the same root. -/
theorem C13_safe_root_stable (hb : Booted P H g s0) (hops : Plausible H g ops) (hr : run P H s0 ops = .ok s)
    {ops' : List (Int × Hdr)} {s' : State} (hops' : Plausible H g ops') (hr' : run P H s0 ops' = .ok s')
    (hI : 12 ≤ P.treeInterval) (hrule : RootRule P.treeInterval s) (hrule' : RootRule P.treeInterval s') (k : Nat)
    (h : k * P.treeInterval + 12 ≤ s.height ∧ s.height < (k + 1) * P.treeInterval + 12)
    (h' : k * P.treeInterval + 12 ≤ s'.height ∧ s'.height < (k + 1) * P.treeInterval + 12)
    (hsame : getByHeight s (k * P.treeInterval + 1) = getByHeight s' (k * P.treeInterval + 1)) :
    safeRoot P s = safeRoot P s' := by
  obtain ⟨e, e1, e2⟩ := (C13_safe_root_block hb hops hr hI hrule).2 k h.1 h.2
  obtain ⟨e', e1', e2'⟩ := (C13_safe_root_block hb hops' hr' hI hrule').2 k h'.1 h'.2
  rw [hsame, e1'] at e1
  cases e1
  rw [e2, e2']

/-- The rule and the window hypotheses hold, for example, right after the start. -/
example : ∃ s, run toyP toyH toyS hist = .ok s ∧ 12 ≤ toyP.treeInterval ∧ s.height < 12 ∧
    safeRoot toyP s = .ok (List.replicate 32 0) := by
  have h : (match run toyP toyH toyS hist with
    | .ok s => decide (12 ≤ toyP.treeInterval ∧ s.height < 12 ∧ safeRoot toyP s = .ok (List.replicate 32 0))
    | _ => false) = true := by decide +kernel
  cases hc : run toyP toyH toyS hist with
  | ok s => rw [hc] at h; exact ⟨s, rfl, of_decide_eq_true h⟩
  | err e => rw [hc] at h; cases h
  | ub => rw [hc] at h; cases h

/-- A history of 40 blocks whose root changes at height 37. -/
def long : Nat → List (Int × Hdr)
  | 0 => []
  | n + 1 => long n ++ [(5000, { mk (n + 2) (toyH (mk (n + 1) [] 0)) (1001 + n) with
      nameRoot := List.replicate 32 (if n + 1 ≥ 37 then 1 else 0) })]

/-- At height 40 the old root is still used; at height 49 the new one. -/
example : (match run toyP toyH toyS (long 40) with
    | .ok s => decide (s.height = 40 ∧ safeRoot toyP s = .ok (List.replicate 32 0) ∧
        (getByHeight s 40).map (·.hdr.nameRoot) = some (List.replicate 32 1))
    | _ => false) = true ∧
    (match run toyP toyH toyS (long 49) with
    | .ok s => decide (s.height = 49 ∧ safeRoot toyP s = .ok (List.replicate 32 1))
    | _ => false) = true := by decide +kernel

/-- A retarget from two stored blocks: 200 units of work in 10 hours. -/
example : (match retarget { toyP with noRetarget := false }
      ⟨c1, [], 10, List.replicate 31 0 ++ [1]⟩ ⟨{ c2 with time := 37001 }, [], 154, List.replicate 31 0 ++ [201]⟩ with
    | .ok b => b != 0x207fffff
    | _ => false) = true := by decide +kernel

end Verif.Props.Chain
