import Verif.Lemmas.Store
import Verif.Props.Chain
/-
Helper lemmas about a node that saves its checkpoint file.
-/
namespace Verif.Props.Store
open Verif Verif.Chain Verif.Header Verif.Bio Verif.Store Verif.Spec Verif.Spec.Chain Verif.Props.Chain

variable {P : Params} {H : Hdr → Bytes} {g : Hdr} {s0 s r0 : State} {ops : List (Int × Hdr)} {net : Net}

/-- A node, started from genesis block `g`, that has just decided to write its
checkpoint file after the history `ops`. Headers come off the wire, so their
fields have the sizes of the wire format (`WF`). -/
structure Saving (P : Params) (H : Hdr → Bytes) (g : Hdr) (s0 : State) (ops : List (Int × Hdr)) (net : Net)
    (s : State) : Prop where
  booted : Booted P H g s0
  plausible : Plausible H g ops
  history : run P H s0 ops = .ok s
  sized : WF g ∧ ∀ op ∈ ops, WF op.2
  window : 150 ≤ net.window
  magic : net.magic < 2 ^ 32
  small : s.height < 2 ^ 32
  flush : flushes net true s = true

/-- First height of the window that is saved. -/
abbrev start (net : Net) (s : State) : Nat := s.height - net.window

theorem initGenesis_facts {now : Int} (h : initGenesis P H now g = .ok s0) :
    s0.initHeight = 0 ∧ ∃ w, calcWork g.bits none = .ok w ∧ s0.tip = { hdr := g, hash := H g, height := 0, work := w } ∧
      (∀ k x, AMap.get s0.hashes k = some x → k = H g) ∧ (∀ n, AMap.get s0.heights n = if n = 0 then some s0.tip else none) := by
  unfold initGenesis at h
  cases hw : calcWork g.bits none with
  | ok w =>
    rw [hw] at h
    simp only [Out.ok.injEq] at h
    subst h
    have hsync : ∀ x : State, (maybeSync P now x).initHeight = x.initHeight := by
      intro x; unfold maybeSync; split
      · rfl
      · split
        · rfl
        · split <;> rfl
    obtain ⟨m1, m2, _, _, m5, _⟩ := maybeSync_fields P now
      { hashes := AMap.set [] (H g) { hdr := g, hash := H g, height := 0, work := w },
        heights := AMap.set [] 0 { hdr := g, hash := H g, height := 0, work := w }, orphans := [],
        prevs := [], height := 0, initHeight := 0, tip := { hdr := g, hash := H g, height := 0, work := w },
        synced := false }
    refine ⟨hsync _, w, rfl, m5, ?_, ?_⟩
    · intro k x hx
      rw [m1, AMap.get_set] at hx
      split at hx
      · rename_i hk; exact hk.symm
      · cases hx
    · intro n
      rw [m2, m5, AMap.get_set]
      simp only [AMap.get_nil, eq_comm]
  | err e => rw [hw] at h; cases h
  | ub => rw [hw] at h; cases h

theorem genesis_same (h : Booted P H g s0) (h' : Booted P H g r0) : s0.tip = r0.tip := by
  obtain ⟨_, h1⟩ := h.start
  obtain ⟨_, h2⟩ := h'.start
  obtain ⟨_, w, a1, a2, _⟩ := initGenesis_facts h1
  obtain ⟨_, w', b1, b2, _⟩ := initGenesis_facts h2
  rw [a1] at b1; cases b1
  rw [a2, b2]

theorem Saving.facts (hs : Saving P H g s0 ops net s) :
    net.window < s.height ∧ 150 ≤ start net s ∧ s.height % net.window = 0 ∧ s.initHeight = 0 ∧
    Indexed H s 0 ∧ (∀ k e, AMap.get s.hashes k = some e → WF e.hdr) ∧ GInv P H g s0 s := by
  obtain ⟨h6, _, _⟩ := hs.booted.at hs.plausible hs.history
  obtain ⟨now, hst⟩ := hs.booted.start
  obtain ⟨g1, g2, g3, g4, g5, _, _⟩ := hs.booted.inv
  obtain ⟨i0, _⟩ := initGenesis_facts hst
  have hf : From WF 0 s0 := by
    refine ⟨?_, by rw [g4]; simp, by rw [g5]; simp, i0⟩
    intro k e he
    rw [initGenesis_only hst k e he, g1]
    exact hs.sized.1
  have hf' := hf.run ops hs.sized.2 hs.history
  have hfl := hs.flush
  have hw := hs.window
  have hsm := hs.small
  unfold flushes at hfl
  rw [hf'.init] at hfl
  simp only [Bool.and_true, Bool.and_eq_true, decide_eq_true_eq, Nat.sub_zero] at hfl
  rw [Nat.add_mod_right, Nat.mod_eq_of_lt hsm] at hfl
  have hd : net.window ∣ s.height - net.window := Nat.dvd_sub (Nat.dvd_of_mod_eq_zero hfl.1) (Nat.dvd_refl _)
  have := Nat.le_of_dvd (by omega) hd
  refine ⟨hfl.2, by show 150 ≤ s.height - net.window; omega, hfl.1, hf'.init, Verif.Store.Inv.indexed hs.booted.params h6 ?_, hf'.hashes, h6⟩
  intro b hb
  rw [hb]; simp [blk, g3]

theorem Saving.windowList (hs : Saving P H g s0 ops net s) :
    ∃ p es, getByHeight s (start net s - 1) = some p ∧ p.hash.length = 32 ∧ p.work.length = 32 ∧ es.length = 150 ∧
      (∀ i, i < 150 → getByHeight s (start net s + i) = es[i]?) ∧
      Chained H ⟨some p.hash, p.work⟩ (start net s) es := by
  obtain ⟨f1, f2, f3, f4, f5, f6, f7⟩ := hs.facts
  have hw := hs.window
  have hst : start net s = s.height - net.window := rfl
  obtain ⟨p, p1, p2, p3, p4, p5⟩ := f5.all (start net s - 1) (by omega) (by omega)
  obtain ⟨es, e1, e2, e3⟩ := f5.chained f6 150 (start net s - 1) (by omega) p1 (by omega)
  rw [show start net s - 1 + 1 = start net s by omega] at e2 e3
  exact ⟨p, es, p1, by rw [p3]; exact hs.booted.hash _, p4, e1, e2, e3⟩

/-- The layout of the file: magic, version 0, height, work below the window, and
the 150 headers. -/
theorem Saving.encoded (hs : Saving P H g s0 ops net s) {p : Entry} {es : List Entry}
    (hp : getByHeight s (start net s - 1) = some p) (hl : es.length = 150)
    (he : ∀ i, i < 150 → getByHeight s (start net s + i) = es[i]?) :
    encode net s = .ok (start net s, beBytes 4 net.magic ++ leBytes 1 0 ++ beBytes 4 (start net s) ++ p.work ++
      es.flatMap fun e => write e.hdr) := by
  obtain ⟨f1, f2, f3, f4, f5, f6, f7⟩ := hs.facts
  have hsm := hs.small
  have hst : start net s = s.height - net.window := rfl
  unfold encode
  rw [if_pos f3]
  simp only
  have h1 : (s.height + 2 ^ 32 - net.window) % 2 ^ 32 = start net s := by
    rw [show s.height + 2 ^ 32 - net.window = start net s + 2 ^ 32 by omega, Nat.add_mod_right]
    exact Nat.mod_eq_of_lt (by omega)
  have h2 : (start net s + 2 ^ 32 - 1) % 2 ^ 32 = start net s - 1 := by
    rw [show start net s + 2 ^ 32 - 1 = start net s - 1 + 2 ^ 32 by omega, Nat.add_mod_right]
    exact Nat.mod_eq_of_lt (by omega)
  rw [h1, h2, hp]
  simp only
  have := encodeHeaders_eq (s := s) es (start net s) (fun i e hi => by
    have hlt := (List.getElem?_eq_some_iff.1 hi).1
    rw [he i (by omega)]; exact hi)
  rw [hl] at this
  rw [this]
  rfl

theorem headers_length {p : Prev} {h : Nat} {es : List Entry} (hc : Chained H p h es) :
    (es.flatMap fun e => write e.hdr).length = 236 * es.length := by
  induction hc with
  | nil => rfl
  | cons c1 c2 c3 c4 c5 c6 c7 ih =>
    simp only [List.flatMap_cons, List.length_append, List.length_cons, ih, write_length c3]
    omega

theorem genesis_at_zero (hb : Booted P H g s0) (hops : Plausible H g ops) (hr : run P H s0 ops = .ok s) :
    getByHeight s 0 = some s0.tip := by
  obtain ⟨h, _, keep⟩ := hb.at hops hr
  obtain ⟨l, l1, l2, _, l4⟩ := C07_index_is_tip_ancestry hb hops hr
  obtain ⟨_, _, _, _, _, _, g8⟩ := hb.inv
  rw [l4, if_pos (Nat.zero_le _)]
  obtain ⟨r, r1, r2, r3⟩ := h.last h.tip l1
  have : l[s.height - 0]? = l.getLast? := by rw [List.getLast?_eq_getElem?, l2]; rfl
  rw [this, r1]
  have hr := h.path_mem h.tip l1 r (List.mem_of_getLast? r1)
  have hh : r.hash = s0.tip.hash := congrArg Block.hash r2
  rw [hh, keep _ _ g8.tip] at hr
  exact hr.symm

theorem readFile_encoded (hm : net.magic < 2 ^ 32) {fs : Fs} {path : List Char} {rest : Bytes} (hlen : rest.length = 35436)
    (hfile : AMap.get fs path = some (beBytes 4 net.magic ++ leBytes 1 0 ++ rest)) : readFile net fs path = .ok rest := by
  unfold readFile
  rw [hfile]
  have hl : (beBytes 4 net.magic ++ leBytes 1 0 ++ rest).length = 35441 := by
    simp only [List.length_append, beBytes_length, leBytes_length, hlen]
  have ht : (beBytes 4 net.magic ++ leBytes 1 0 ++ rest).take 35441 = beBytes 4 net.magic ++ leBytes 1 0 ++ rest := by
    rw [← hl, List.take_length]
  simp only [ht, hl, ne_eq, not_true_eq_false, if_false]
  rw [List.append_assoc, readU32be_append hm]
  show (if ¬ net.magic = net.magic then _ else _) = _
  rw [if_neg (by simp)]
  show (readU8 (leBytes 1 0 ++ rest)).bind _ = _
  rw [readU8_append (by omega)]
  rfl

theorem Saving.loads (hs : Saving P H g s0 ops net s) (hr : Booted P H g r0) (now : Int) {fs : Fs} {path : List Char}
    {p : Entry} {es : List Entry} (hl : es.length = 150) (hw : p.work.length = 32)
    (hc : Chained H ⟨some p.hash, p.work⟩ (start net s) es)
    (hfile : AMap.get fs path = some (beBytes 4 net.magic ++ leBytes 1 0 ++ beBytes 4 (start net s) ++ p.work ++
      es.flatMap fun e => write e.hdr)) :
    load P H net now fs path r0 = .ok (es.foldl (save P now) { r0 with initHeight := start net s }) := by
  obtain ⟨f1, f2, _⟩ := hs.facts
  obtain ⟨_, hst⟩ := hr.start
  obtain ⟨i0, _⟩ := initGenesis_facts hst
  unfold load
  have hrd := readFile_encoded (net := net) (fs := fs) (path := path) hs.magic
    (rest := beBytes 4 (start net s) ++ p.work ++ es.flatMap fun e => write e.hdr)
    (by simp only [List.length_append, beBytes_length, headers_length hc, hl, hw])
    (by rw [hfile]; simp only [List.append_assoc])
  rw [hrd]
  simp only
  unfold inject
  have hsm := hs.small
  have hlt : start net s < 4294967296 := by
    have : start net s = s.height - net.window := rfl
    omega
  rw [List.append_assoc, readU32be_append hlt]
  simp only [Out.bind]
  rw [if_neg (by omega), readBytes_append' hw]
  simp only
  have := injectLoop_eq (P := P) now es hc.weaken { r0 with initHeight := start net s } []
  rw [List.append_nil, hl] at this
  exact this

theorem path_last {m : HashMap} {e r : Entry} {l : List Entry} (h : Path m e l) (hr : l.getLast? = some r) :
    AMap.get m r.hdr.prevBlock = none := by
  induction h with
  | root h => simp at hr; subst hr; exact h
  | step _ hp ih =>
    obtain ⟨t, rfl⟩ := hp.head
    rw [List.getLast?_cons_cons] at hr
    exact ih hr

theorem validChain_mono {R : Rules} {T T' : Block → Prop} (h : ∀ b, T b → T' b) {l : List Block} (hv : ValidChain R T l) :
    ValidChain R T' l := by
  induction hv with
  | root ht => exact .root (h _ ht)
  | start ht hl _ ih => exact .start (h _ ht) hl ih
  | next he _ ih => exact .next he ih

/-- Work never decreases along the main chain: its total has not wrapped at 2^256. -/
def Rising (s : State) : Prop := ∀ n p e, getByHeight s n = some p → getByHeight s (n + 1) = some e →
  beNat p.work ≤ beNat e.work

theorem Rising.mono {s : State} (hr : Rising s) (hx : Indexed H s 0) {n m : Nat} {p e : Entry} (h : n ≤ m) (hm : m ≤ s.height)
    (hp : getByHeight s n = some p) (he : getByHeight s m = some e) : beNat p.work ≤ beNat e.work := by
  induction m generalizing e with
  | zero =>
    have : n = 0 := by omega
    subst this
    rw [hp] at he; cases he; exact Nat.le_refl _
  | succ m ih =>
    by_cases hn : n = m + 1
    · subst hn; rw [hp] at he; cases he; exact Nat.le_refl _
    · obtain ⟨q, q1, _⟩ := hx.all m (Nat.zero_le _) (by omega)
      exact Nat.le_trans (ih (by omega) (by omega) q1) (hr m q e q1 he)

theorem Saving.reloaded_inv (hs : Saving P H g s0 ops net s) (hris : Rising s) (hr : Booted P H g r0) (now : Int)
    {p : Entry} {es : List Entry} (w1 : getByHeight s (start net s - 1) = some p) (w4 : es.length = 150)
    (w5 : ∀ i, i < 150 → getByHeight s (start net s + i) = es[i]?)
    (w6 : Chained H ⟨some p.hash, p.work⟩ (start net s) es) :
    Inv P H (fun b => b = blk r0.tip ∨ ∃ e ∈ es, b = blk e) [g.prevBlock, p.hash]
      (fun n => if n = 0 then some r0.tip else none) (es.foldl (save P now) { r0 with initHeight := start net s }) := by
  obtain ⟨f1, f2, f3, f4, f5, f6, f7⟩ := hs.facts
  have hw := hs.window
  have hst : start net s = s.height - net.window := rfl
  obtain ⟨_, hs1⟩ := hr.start
  obtain ⟨i0, w, i1, i2, i3, i4⟩ := initGenesis_facts hs1
  obtain ⟨g1, g2, g3, g4, g5, g6, g7⟩ := hr.inv
  have htip : getByHeight s 0 = some r0.tip := by
    rw [genesis_at_zero hs.booted hs.plausible hs.history, genesis_same hs.booted hr]
  have hmem : ∀ e ∈ es, ∃ n, (start net s ≤ n ∧ n < start net s + 150) ∧ getByHeight s n = some e := by
    intro e he
    obtain ⟨i, hi⟩ := List.mem_iff_getElem?.1 he
    have hlt := (List.getElem?_eq_some_iff.1 hi).1
    exact ⟨start net s + i, ⟨by omega, by omega⟩, by rw [w5 i (by omega)]; exact hi⟩
  have hsame : ∀ n e, getByHeight s n = some e → n ≤ s.height → e.height = n ∧ AMap.get s.hashes e.hash = some e := by
    intro n e he hn
    obtain ⟨e', e1, e2, _, _, e5⟩ := f5.all n (Nat.zero_le _) hn
    rw [he] at e1; cases e1
    exact ⟨e2, e5⟩
  -- two main chain headers with one hash have one height
  have hdiff : ∀ n m a b, getByHeight s n = some a → getByHeight s m = some b → n ≤ s.height → m ≤ s.height →
      a.hash = b.hash → a = b ∧ n = m := by
    intro n m a b ha hb hn hm hab
    obtain ⟨a1, a2⟩ := hsame n a ha hn
    obtain ⟨b1, b2⟩ := hsame m b hb hm
    rw [hab, b2] at a2
    cases a2
    exact ⟨rfl, by omega⟩
  have hne : es ≠ [] := by rintro rfl; simp at w4
  obtain ⟨e0, es', rfl⟩ := List.exists_cons_of_ne_nil hne
  have he0 : getByHeight s (start net s) = some e0 := by have := w5 0 (by omega); simpa using this
  have hlink : e0.hdr.prevBlock = p.hash := by
    have := f5.step (start net s - 1) e0 p (Nat.zero_le _) (by rw [show start net s - 1 + 1 = start net s by omega]; exact he0) w1 (by omega)
    exact this.1
  have hkey := g7.key _ _ g7.tip
  have hgp : AMap.get r0.hashes r0.tip.hdr.prevBlock = none := by
    cases hx : AMap.get r0.hashes r0.tip.hdr.prevBlock with
    | none => rfl
    | some x => exact absurd (i3 _ _ hx).symm (by rw [g1]; exact hr.noLoop)
  have := window_inv (P := P) (H := H) now (p := ⟨some p.hash, p.work⟩) (es := e0 :: es') (h := start net s) (g := r0.tip)
    (r := { r0 with initHeight := start net s }) (by omega) hne w6 g3 g7.tip
    (by rw [g2, g1]) hkey.2.2.1 hkey.2.2.2 hgp (fun k x hx => initGenesis_only hs1 k x hx) i4
    (fun k x hx => by rw [i3 k x hx, g2]) g4 g5 ?_ ?_ ?_ ?_ ?_
  · rw [g1] at this
    simpa [hlink] using this
  · intro a ha b hb hab
    obtain ⟨n, n1, n2⟩ := hmem a ha
    obtain ⟨m, m1, m2⟩ := hmem b hb
    exact (hdiff n m a b n2 m2 (by omega) (by omega) hab).1
  · intro e he
    obtain ⟨n, n1, n2⟩ := hmem e he
    exact (f7.key _ _ (hsame n e n2 (by omega)).2).2.2.2
  · intro e he
    simp at he; subst he
    rw [hlink]
    constructor
    · intro hh
      have := (hdiff _ _ _ _ w1 htip (by omega) (by omega) hh).2
      omega
    · intro x hx hh
      obtain ⟨n, n1, n2⟩ := hmem x hx
      have := (hdiff _ _ _ _ n2 w1 (by omega) (by omega) hh).2
      omega
  · intro x hx hh
    obtain ⟨n, n1, n2⟩ := hmem x hx
    have h1 := (hsame n x n2 (by omega)).2
    have hp0 : AMap.get s.hashes s0.tip.hdr.prevBlock = none := by
      obtain ⟨a1, a2, a3, a4, a5, a6, a7⟩ := hs.booted.inv
      obtain ⟨l, l1, _⟩ := f7.path _ _ f7.tip
      obtain ⟨r, q1, q2, q3⟩ := f7.last f7.tip l1
      have : r.hdr.prevBlock = s0.tip.hdr.prevBlock := congrArg Block.prev q2
      rw [← this]; exact path_last l1 q1
    rw [hh, ← genesis_same hs.booted hr, hp0] at h1
    cases h1
  · intro e he l hl
    obtain ⟨n, n1, n2⟩ := hmem e he
    have hll : getByHeight s (start net s + 149) = some l := by
      rw [w5 149 (by omega), ← hl, List.getLast?_eq_getElem?, w4]
    exact ⟨hris.mono f5 (by omega) (by omega) n2 hll, hris.mono f5 (by omega) (by omega) htip hll⟩

/-- A header on top of a stored one whose own parent is missing fails an assertion, where the difficulty is
adjusted. -/
theorem add_on_root {s1 : State} {first : Entry} {evil : Hdr} (hstored : AMap.get s1.hashes first.hash = some first)
    (hnone : AMap.get s1.hashes first.hdr.prevBlock = none) (horph : s1.orphans = []) (hft : first.hdr.time < 2 ^ 63)
    (hwin : 144 + 2 ≤ first.height) (hprev : evil.prevBlock = first.hash) (hnew : AMap.get s1.hashes (H evil) = none)
    (hnet : P.noRetarget = false) (hreset : P.targetReset = false ∨ evil.time ≤ first.hdr.time + 1200)
    (hpow : verifyPowHash evil.bits (H evil) = .ok ()) (now' : Int) (hclock : 0 ≤ now' + 7200 ∧ now' + 7200 < 2 ^ 63)
    (htime : first.hdr.time < evil.time ∧ evil.time ≤ now' + 7200) :
    add P H s1 now' evil = .ub := by
  unfold add
  simp only
  rw [if_neg (by unfold toU64; omega), if_neg (by simp [AMap.has, hnew]), if_neg (by simp [AMap.has, horph]), hpow]
  simp only
  rw [hprev, hstored]
  simp only
  unfold Chain.insert
  obtain ⟨t, t1, t2⟩ := mtp_spec (Path.root hnone) (by simpa using hft)
  have ht : t = first.hdr.time := by
    have := t2.1
    simpa [blk] using this
  have hev : toI64 evil.time = (evil.time : Int) := by
    unfold toI64; split <;> omega
  have hfi : toI64 first.hdr.time = (first.hdr.time : Int) := by
    unfold toI64; split <;> omega
  rw [if_neg (by rw [t1, ht, hev]; omega)]
  have hgt : getTarget P s1.hashes (toI64 evil.time) first = .ub := by
    unfold getTarget
    rw [if_neg (by simp [hnet]), if_neg (by
      rintro ⟨a, b⟩
      rw [hev, hfi] at b
      rcases hreset with h | h
      · rw [h] at a; cases a
      · omega), if_neg (by omega)]
    unfold suitableBlock
    rw [hnone]
    rfl
  simp only
  rw [hgt]
  rfl

end Verif.Props.Store
