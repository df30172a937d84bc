import Verif.Lemmas.StoreSave
import Verif.Props.StoreToy
/-
Properties C18, C19 and C53: the checkpoint file (src/store.c).
-/
namespace Verif.Props.Store
open Verif Verif.Chain Verif.Header Verif.Bio Verif.Store Verif.Spec Verif.Spec.Chain Verif.Props.Chain

variable {P : Params} {H : Hdr → Bytes} {g : Hdr} {s0 s r0 : State} {ops : List (Int × Hdr)} {net : Net}

/-! C18 -/

/-- C18: whenever the node decides to save, the headers it needs are there: the
file is the magic number, version 0, the height of the window, the cumulative work
below it, and the 150 headers of the main chain from that height. -/
theorem C18_saves_the_window (hs : Saving P H g s0 ops net s) :
    ∃ (below : Entry) (es : List Entry), getByHeight s (start net s - 1) = some below ∧ es.length = 150 ∧
      (∀ i, i < 150 → getByHeight s (start net s + i) = es[i]?) ∧
      ∃ file, encode net s = .ok (start net s, file) ∧ file.length = 35441 ∧ 0 < start net s ∧
        file = beBytes 4 net.magic ++ [0] ++ beBytes 4 (start net s) ++ below.work ++ es.flatMap fun e => write e.hdr := by
  obtain ⟨p, es, w1, w2, w3, w4, w5, w6⟩ := hs.windowList
  obtain ⟨_, f2, _⟩ := hs.facts
  refine ⟨p, es, w1, w4, w5, _, hs.encoded w1 w4 w5, ?_, by omega, rfl⟩
  simp only [List.length_append, beBytes_length, leBytes_length, headers_length w6, w3, w4]

/-- A regtest-like node that has reached height 300 saves the headers from 150 on. -/
theorem exFile : ∃ s file, Ex s ∧ encode exNet s = .ok (150, file) ∧ file.length = 35441 := by
  obtain ⟨s, hs⟩ := ex
  obtain ⟨_, _, _, _, _, file, h, l, _⟩ := C18_saves_the_window hs.saving
  rw [show start exNet s = 150 by have := hs.height; show s.height - 150 = 150; omega] at h
  exact ⟨s, file, hs, h, l⟩

/-- C18: a fresh node that finds this file has the saved window afterwards: the
same headers with the same hashes, heights and work, reachable by height and by
hash, with the last of them as its tip, and nothing else but the genesis block. -/
theorem C18_reload_restores (hs : Saving P H g s0 ops net s) {file : Bytes} {h : Nat} (henc : encode net s = .ok (h, file))
    (hr : Booted P H g r0) (now : Int) {fs : Fs} {path : List Char} (hfile : AMap.get fs path = some file) :
    ∃ s1, load P H net now fs path r0 = .ok s1 ∧ h = start net s ∧ s1.initHeight = h ∧ s1.height = h + 149 ∧
      getByHeight s (h + 149) = some s1.tip ∧
      (∀ n, getByHeight s1 n = if n = 0 ∨ h ≤ n ∧ n < h + 150 then getByHeight s n else none) ∧
      (∀ k e, AMap.get s1.hashes k = some e ↔
        k = e.hash ∧ ∃ n, (n = 0 ∨ h ≤ n ∧ n < h + 150) ∧ getByHeight s n = some e) := by
  obtain ⟨p, es, w1, w2, w3, w4, w5, w6⟩ := hs.windowList
  obtain ⟨f1, f2, f3, f4, f5, f6, f7⟩ := hs.facts
  have hw := hs.window
  rw [hs.encoded w1 w4 w5] at henc
  simp only [Out.ok.injEq, Prod.mk.injEq] at henc
  obtain ⟨rfl, rfl⟩ := henc
  have hst : start net s = s.height - net.window := rfl
  obtain ⟨_, hs1⟩ := hr.start
  obtain ⟨i0, w, i1, i2, i3, i4⟩ := initGenesis_facts hs1
  have htip : getByHeight s 0 = some r0.tip := by
    rw [genesis_at_zero hs.booted hs.plausible hs.history, genesis_same hs.booted hr]
  have hmem : ∀ e, e ∈ es ↔ ∃ n, (start net s ≤ n ∧ n < start net s + 150) ∧ getByHeight s n = some e := by
    intro e
    constructor
    · intro he
      obtain ⟨i, hi⟩ := List.mem_iff_getElem?.1 he
      have hlt := (List.getElem?_eq_some_iff.1 hi).1
      exact ⟨start net s + i, ⟨by omega, by omega⟩, by rw [w5 i (by omega)]; exact hi⟩
    · rintro ⟨n, ⟨n1, n2⟩, hn⟩
      have := w5 (n - start net s) (by omega)
      rw [show start net s + (n - start net s) = n by omega, hn] at this
      exact List.mem_of_getElem? this.symm
  have hsame : ∀ n e, getByHeight s n = some e → n ≤ s.height → e.height = n ∧ AMap.get s.hashes e.hash = some e := by
    intro n e he hn
    obtain ⟨e', e1, e2, _, _, e5⟩ := f5.all n (Nat.zero_le _) hn
    rw [he] at e1; cases e1
    exact ⟨e2, e5⟩
  have hinj : ∀ a ∈ es, ∀ b ∈ es, a.hash = b.hash → a = b := by
    intro a ha b hb hab
    obtain ⟨n, n1, n2⟩ := (hmem a).1 ha
    obtain ⟨m, m1, m2⟩ := (hmem b).1 hb
    have h1 := (hsame n a n2 (by omega)).2
    have h2 := (hsame m b m2 (by omega)).2
    rw [hab, h2] at h1
    exact (Option.some.inj h1).symm
  obtain ⟨x1, x2, x3, x4, x5, x6, x7⟩ := foldl_save (P := P) now es { r0 with initHeight := start net s }
  obtain ⟨l, hl⟩ : ∃ l, es.getLast? = some l := by
    cases hc : es.getLast? with
    | none => rw [List.getLast?_eq_none_iff] at hc; rw [hc] at w4; simp at w4
    | some l => exact ⟨l, rfl⟩
  have hlh : getByHeight s (start net s + 149) = some l := by
    rw [w5 149 (by omega), ← hl, List.getLast?_eq_getElem?, w4]
  have hheights : ∀ n, getByHeight (es.foldl (save P now) { r0 with initHeight := start net s }) n =
      if n = 0 ∨ start net s ≤ n ∧ n < start net s + 150 then getByHeight s n else none := by
    intro n
    unfold getByHeight at *
    rw [x2, get_foldl_key (fun e => e.height) _ _ _ w6.inj, i4]
    by_cases hn : start net s ≤ n ∧ n < start net s + 150
    · rw [if_pos (show n = 0 ∨ start net s ≤ n ∧ n < start net s + 150 from .inr hn)]
      obtain ⟨e, e1, e2, _⟩ := f5.all n (Nat.zero_le _) (by omega)
      have he := (hmem e).2 ⟨n, hn, e1⟩
      have hfind : es.find? (fun e => e.height = n) = some e := by
        cases hf : es.find? (fun e => e.height = n) with
        | none =>
          rw [List.find?_eq_none] at hf
          exact absurd (by simpa using e2) (hf e he)
        | some x =>
          have h3 := List.find?_some hf
          simp only [decide_eq_true_eq] at h3
          rw [w6.inj x (List.mem_of_find?_eq_some hf) e he (by omega)]
      rw [hfind, Option.some_or]
      exact e1.symm
    · have hfind : es.find? (fun e => e.height = n) = none := by
        rw [List.find?_eq_none]
        intro x hx
        obtain ⟨m, m1, m2⟩ := (hmem x).1 hx
        have := (hsame m x m2 (by omega)).1
        simp only [decide_eq_true_eq]
        omega
      rw [hfind, Option.none_or]
      by_cases h0 : n = 0
      · subst h0; rw [if_pos rfl, if_pos (.inl rfl)]; exact htip.symm
      · rw [if_neg h0, if_neg (by omega)]
  refine ⟨_, hs.loads hr now w4 w3 w6 hfile, rfl, x5, ?_, ?_, hheights, ?_⟩
  · rw [x7, hl]
    simp only [Option.map_some, Option.getD_some]
    exact (hsame _ _ hlh (by omega)).1
  · rw [x6, hl]; exact hlh
  · obtain ⟨y1, y2, y3⟩ := getByHash_window (P := P) now (es := es) (r := { r0 with initHeight := start net s }) (g := r0.tip)
      (fun k x hx => initGenesis_only hs1 k x hx) hinj
    intro k e
    constructor
    · intro he
      rcases y2 k e he with ⟨m1, rfl⟩ | ⟨rfl, m2⟩
      · obtain ⟨n, n1, n2⟩ := (hmem e).1 m1
        exact ⟨rfl, n, .inr n1, n2⟩
      · refine ⟨?_, 0, .inl rfl, htip⟩
        rw [i3 _ _ m2, i2]
    · rintro ⟨rfl, n, hn | hn, he⟩
      · subst hn
        rw [htip] at he; cases he
        rw [y3]
        · exact hr.inv.2.2.2.2.2.2.tip
        · intro e he hh
          obtain ⟨n, n1, n2⟩ := (hmem e).1 he
          have h1 := (hsame n e n2 (by omega)).2
          have h2 := (hsame 0 _ htip (by omega)).2
          rw [hh, h2] at h1
          have h3 := congrArg (Option.map Entry.height) h1
          simp only [Option.map_some, Option.some.injEq] at h3
          have h4 := (hsame 0 _ htip (by omega)).1
          have h5 := (hsame n e n2 (by omega)).1
          omega
      · exact y1 e ((hmem e).2 ⟨n, hn, he⟩)

/-- The node of the example above, restarted a day later. -/
example : ∃ s file s1, Ex s ∧ load exP exH exNet 88400 [("a".toList, file)] "a".toList exS0 = .ok s1 ∧ s1.height = 299 ∧
    getByHeight s 299 = some s1.tip := by
  obtain ⟨s, file, hs, h, _⟩ := exFile
  obtain ⟨s1, h1, _, _, h2, h3, _⟩ := C18_reload_restores hs.saving h exBooted 88400
    (fs := [("a".toList, file)]) (path := "a".toList) rfl
  exact ⟨s, file, s1, hs, h1, h2, h3⟩

/-- C18: a file that is absent, too short, or of another network or version is
ignored; the chain is left as it was. -/
theorem C18_bad_file_ignored {fs : Fs} {path : List Char} (now : Int)
    (hbad : AMap.get fs path = none ∨ ∃ file, AMap.get fs path = some file ∧
      (file.length < 35441 ∨ file.take 4 ≠ beBytes 4 net.magic ∨ file[4]? ≠ some 0)) (hm : net.magic < 2 ^ 32) :
    load P H net now fs path r0 = .ok r0 := by
  have : readFile net fs path = .err () := by
    unfold readFile
    rcases hbad with h | ⟨file, h, hb⟩
    · rw [h]
    · rw [h]
      simp only
      by_cases hl : file.length < 35441
      · rw [if_pos (by rw [List.length_take]; omega)]
      · rw [if_neg (by rw [List.length_take]; omega)]
        rcases hb with hb | hb | hb
        · exact absurd hb hl
        all_goals
          have hlen : (file.take 35441).length = 35441 := by rw [List.length_take]; omega
          obtain ⟨x, y, hx, hxl⟩ : ∃ x y, file.take 35441 = x ++ y ∧ x.length = 4 :=
            ⟨_, _, (List.take_append_drop 4 (file.take 35441)).symm, by rw [List.length_take, hlen]; rfl⟩
          have hx4 : file.take 4 = x := by
            have := congrArg (List.take 4) hx
            rw [List.take_take, show min 4 35441 = 4 by rfl, ← hxl, List.take_left] at this
            rw [hxl] at this; exact this
          have hrd : readU32be (file.take 35441) = .ok (beNat x, y) := by
            rw [readU32be_eq_ok]
            refine ⟨?_, ?_⟩
            · rw [← hxl, beBytes_beNat, hx]
            · have := beNat_lt x; rw [hxl] at this; exact this
          rw [hrd]
          show (if beNat x ≠ net.magic then _ else _) = _
          by_cases hmg : beNat x = net.magic
          · rw [if_neg (by simp [hmg])]
            first
              | (exfalso; apply hb; rw [hx4, ← hmg, ← hxl, beBytes_beNat])
              | (cases y with
                 | nil => rw [hx] at hlen; simp [hxl] at hlen
                 | cons a y =>
                   have h4 : file[4]? = some a := by
                     have h5 : (file.take 35441)[4]? = some a := by rw [hx]; simp [List.getElem?_append, hxl]
                     rw [List.getElem?_take] at h5
                     simpa using h5
                   have hrd8 : readU8 (a :: y) = .ok (a.toNat, y) := by
                     simp [readU8, memGet]
                   show (readU8 (a :: y)).bind _ = _
                   rw [hrd8]
                   simp only [Out.bind]
                   rw [if_pos]
                   intro h0
                   apply hb
                   rw [h4]
                   congr 1
                   exact UInt8.toNat_inj.1 (by simpa using h0))
          · rw [if_pos hmg]
  unfold load
  rw [this]

/-- A regtest file on a main network node. -/
example (rest : Bytes) : load exP exH { exNet with magic := 0x5b6ef2d3 } 0 [("a".toList, beBytes 4 0xae3895cf ++ rest)]
    "a".toList exS0 = .ok exS0 :=
  C18_bad_file_ignored 0 (.inr ⟨_, rfl, .inr (.inl (by
    rw [List.take_append_of_le_length (by simp)]
    decide +kernel))⟩) (by decide)

/-- C18: in particular a file that was cut off while it was being written. -/
theorem C18_truncated_file_ignored (hs : Saving P H g s0 ops net s) {file torn : Bytes} {h : Nat}
    (henc : encode net s = .ok (h, file)) (htorn : torn <+: file) (hne : torn ≠ file) {fs : Fs} {path : List Char}
    (hfile : AMap.get fs path = some torn) (now : Int) : load P H net now fs path r0 = .ok r0 := by
  obtain ⟨_, _, _, _, _, f, e1, e2, _⟩ := C18_saves_the_window hs
  rw [henc] at e1; cases e1
  refine C18_bad_file_ignored now (.inr ⟨torn, hfile, .inl ?_⟩) hs.magic
  rw [← e2]
  have := htorn.length_le
  rcases Nat.lt_or_eq_of_le this with h | h
  · exact h
  · exact absurd (htorn.eq_of_length h) hne

example : ∃ s file, Ex s ∧ encode exNet s = .ok (150, file) ∧
    load exP exH exNet 0 [("a".toList, file.take 10000)] "a".toList exS0 = .ok exS0 := by
  obtain ⟨s, file, hs, h, l⟩ := exFile
  refine ⟨s, file, hs, h, C18_truncated_file_ignored hs.saving h (List.take_prefix _ _) ?_ rfl 0⟩
  intro h
  have := congrArg List.length h
  rw [List.length_take, l] at this
  omega

/-! C19 -/

/-- The two names used by a save differ, whatever the directory is called. -/
theorem filename_ne (net : Net) (pfx : List Char) {h : Nat} (hh : 0 < h) : filename net pfx h ≠ filename net pfx 0 := by
  unfold filename
  simp only [hh, gt_iff_lt, if_true, Nat.lt_irrefl, if_false]
  intro hc
  have := congrArg List.length hc
  simp at this

/-- C19: at every moment of a save, however much was written and whichever steps
fail, the checkpoint file has its old content or the complete new one, and no other
file but the temporary one is touched. -/
theorem C19_old_or_new (net : Net) (pfx : List Char) {h : Nat} (hh : 0 < h) (content : Bytes) (p : Plan) (fs : Fs) :
    ∀ fs' ∈ saveTrace (filename net pfx 0) (filename net pfx h) content p fs,
      (AMap.get fs' (filename net pfx 0) = AMap.get fs (filename net pfx 0) ∨
       AMap.get fs' (filename net pfx 0) = some content) ∧
      ∀ other, other ≠ filename net pfx 0 → other ≠ filename net pfx h → AMap.get fs' other = AMap.get fs other := by
  have hne := filename_ne net pfx hh
  intro fs' hm
  unfold saveTrace at hm
  split at hm
  · simp at hm
  · have hset : ∀ c : Bytes, (AMap.get (AMap.set fs (filename net pfx h) c) (filename net pfx 0) = AMap.get fs (filename net pfx 0)) ∧
        ∀ other, other ≠ filename net pfx 0 → other ≠ filename net pfx h →
          AMap.get (AMap.set fs (filename net pfx h) c) other = AMap.get fs other := by
      intro c
      refine ⟨by rw [AMap.get_set, if_neg hne], fun o _ ho => by rw [AMap.get_set, if_neg (Ne.symm ho)]⟩
    simp only [List.cons_append, List.mem_cons, List.mem_append, List.mem_map, List.not_mem_nil, or_false] at hm
    rcases hm with rfl | (⟨n, _, rfl⟩ | rfl) | hm
    · exact ⟨.inl (hset _).1, (hset _).2⟩
    · exact ⟨.inl (hset _).1, (hset _).2⟩
    · exact ⟨.inl (hset _).1, (hset _).2⟩
    · split at hm
      · simp at hm
      · split at hm
        · simp only [List.mem_cons, List.not_mem_nil, or_false] at hm
          subst hm
          exact ⟨.inl (hset _).1, (hset _).2⟩
        · simp only [List.mem_cons, List.not_mem_nil, or_false] at hm
          subst hm
          refine ⟨.inr (by rw [AMap.get_set, if_pos rfl]), fun o h1 h2 => ?_⟩
          rw [AMap.get_set, if_neg (Ne.symm h1), AMap.get_del, if_neg (Ne.symm h2)]
          exact (hset _).2 o h1 h2

/-- C19: when nothing fails, the new content is there in the end and the temporary
file is gone. -/
theorem C19_success (net : Net) (pfx : List Char) {h : Nat} (hh : 0 < h) (content : Bytes) (p : Plan) (fs : Fs)
    (h1 : p.opens = true) (h2 : p.written = content.length) (h3 : p.renames = true) :
    ∃ fs', (saveTrace (filename net pfx 0) (filename net pfx h) content p fs).getLast? = some fs' ∧
      AMap.get fs' (filename net pfx 0) = some content ∧ AMap.get fs' (filename net pfx h) = none := by
  have hne := filename_ne net pfx hh
  refine ⟨AMap.set (AMap.del (AMap.set fs (filename net pfx h) (content.take p.written)) (filename net pfx h)) (filename net pfx 0) content,
    ?_, by rw [AMap.get_set, if_pos rfl], ?_⟩
  · unfold saveTrace
    simp [h1, h2, h3, List.getLast?_cons, List.getLast?_append]
  · rw [AMap.get_set, if_neg (Ne.symm hne), AMap.get_del, if_pos rfl]

/-- C19: a node restarted after a crash in the middle of a save loads what it would
have loaded before the save, or what it would load after it. -/
theorem C19_restart (net : Net) (pfx : List Char) {h : Nat} (hh : 0 < h) (content : Bytes) (p : Plan) (fs : Fs)
    (now : Int) {fs' : Fs} (hc : fs' ∈ saveTrace (filename net pfx 0) (filename net pfx h) content p fs) :
    load P H net now fs' (filename net pfx 0) r0 = load P H net now fs (filename net pfx 0) r0 ∨
    load P H net now fs' (filename net pfx 0) r0 =
      load P H net now (AMap.set fs (filename net pfx 0) content) (filename net pfx 0) r0 := by
  have hext : ∀ a b : Fs, AMap.get a (filename net pfx 0) = AMap.get b (filename net pfx 0) →
      load P H net now a (filename net pfx 0) r0 = load P H net now b (filename net pfx 0) r0 := by
    intro a b hab
    unfold load readFile
    rw [hab]
  rcases (C19_old_or_new net pfx hh content p fs fs' hc).1 with h | h
  · exact .inl (hext _ _ h)
  · exact .inr (hext _ _ (by rw [h, AMap.get_set, if_pos rfl]))

/-- Crashing after 2 of 3 bytes leaves the old file. -/
example : saveTrace "c".toList "c~5".toList [1, 2, 3] ⟨true, [2], 3, true⟩ [("c".toList, [9])] =
    [[("c~5".toList, []), ("c".toList, [9])], [("c~5".toList, [1, 2]), ("c".toList, [9])],
     [("c~5".toList, [1, 2, 3]), ("c".toList, [9])], [("c".toList, [1, 2, 3])]] := by decide +kernel

/-! C53 -/

/-- C53, first half: after a restart from the file, any further history the node
survives keeps the rules. Every stored header is stored under its own hash, and it
and its stored ancestors form a chain in which every header is either one of those
saved before the restart or obeys the rules on top of the ones below; the tip has
the most work. (Partial: survival is not guaranteed, see `C53_abort`, and the
history may not contain the header right below the window.) -/
theorem C53_rules_after_restart_partial (hs : Saving P H g s0 ops net s) (hris : Rising s) {file : Bytes} {h : Nat}
    (henc : encode net s = .ok (h, file)) (hr : Booted P H g r0) (now : Int) {fs : Fs} {path : List Char}
    (hfile : AMap.get fs path = some file) {s1 s2 : State} (hload : load P H net now fs path r0 = .ok s1)
    {ops' : List (Int × Hdr)} (hplaus : Plausible H g ops')
    (hbelow : ∀ op ∈ ops', ∀ b, getByHeight s (h - 1) = some b → H op.2 ≠ b.hash)
    (hrun : run P H s1 ops' = .ok s2) :
    (∀ k e, AMap.get s1.hashes k = some e → AMap.get s2.hashes k = some e) ∧
    ∀ k e, AMap.get s2.hashes k = some e → e.hash = k ∧ k = H e.hdr ∧ beNat e.work ≤ beNat s2.tip.work ∧
      ∃ l : List Entry, Path s2.hashes e l ∧ (∀ x ∈ l, AMap.get s2.hashes x.hash = some x) ∧
        ValidChain (rules P) (fun b => ∃ n x, (n = 0 ∨ h ≤ n ∧ n < h + 150) ∧ getByHeight s n = some x ∧ b = blk x) (l.map blk) := by
  obtain ⟨p, es, w1, w2, w3, w4, w5, w6⟩ := hs.windowList
  rw [hs.encoded w1 w4 w5] at henc
  simp only [Out.ok.injEq, Prod.mk.injEq] at henc
  obtain ⟨rfl, rfl⟩ := henc
  rw [hs.loads hr now w4 w3 w6 hfile] at hload
  cases hload
  have hinv := hs.reloaded_inv hris hr now w1 w4 w5 w6
  have hops : OpsOK H [g.prevBlock, p.hash] ops' := by
    intro op hop
    refine ⟨(hplaus op hop).1, ?_⟩
    simp only [List.mem_cons, List.not_mem_nil, or_false, not_or]
    exact ⟨(hplaus op hop).2, hbelow op hop p w1⟩
  have htip : getByHeight s 0 = some r0.tip := by
    rw [genesis_at_zero hs.booted hs.plausible hs.history, genesis_same hs.booted hr]
  rcases run_spec hs.booted.params hs.booted.hash ops' hops hinv with ⟨s', q1, q2, q3, q4⟩ | ⟨q1, _⟩
  swap
  · rw [hrun] at q1; cases q1
  rw [hrun] at q1; cases q1
  refine ⟨q4, fun k e he => ?_⟩
  obtain ⟨k1, k2, _⟩ := q2.key k e he
  obtain ⟨l, l1, l2⟩ := q2.path k e he
  refine ⟨k1, k2.symm, q2.best k e he, l, l1, q2.path_mem he l1, ?_⟩
  refine validChain_mono (fun b hb => ?_) l2
  rcases hb with rfl | ⟨e, e1, rfl⟩
  · exact ⟨0, r0.tip, .inl rfl, htip, rfl⟩
  · obtain ⟨i, hi⟩ := List.mem_iff_getElem?.1 e1
    have hlt := (List.getElem?_eq_some_iff.1 hi).1
    exact ⟨start net s + i, e, .inr ⟨by omega, by omega⟩, by rw [w5 i (by omega)]; exact hi, rfl⟩

/-- The restarted example node with an empty further history. -/
example : ∃ file s1, load exP exH exNet 88400 [("a".toList, file)] "a".toList exS0 = .ok s1 ∧
    ∀ k e, AMap.get s1.hashes k = some e → e.hash = k ∧ beNat e.work ≤ beNat s1.tip.work := by
  obtain ⟨s, file, hs, h, _⟩ := exFile
  obtain ⟨s1, h1, _⟩ := C18_reload_restores hs.saving h exBooted 88400
    (fs := [("a".toList, file)]) (path := "a".toList) rfl
  refine ⟨file, s1, h1, fun k e he => ?_⟩
  have := (C53_rules_after_restart_partial hs.saving hs.rising h exBooted 88400 (fs := [("a".toList, file)])
    (path := "a".toList) rfl h1 (ops' := []) (by intro _ h; simp at h) (by simp) rfl).2 k e he
  exact ⟨this.1, this.2.2.1⟩

/-- C53 is false of the code: on a network with difficulty adjustment, a node
restarted from its checkpoint file aborts on any header that names the first header
of the window as its parent and meets the difficulty it claims for itself. -/
theorem C53_abort (hs : Saving P H g s0 ops net s) {file : Bytes} {h : Nat} (henc : encode net s = .ok (h, file))
    (hr : Booted P H g r0) (now : Int) {fs : Fs} {path : List Char} (hfile : AMap.get fs path = some file)
    {s1 : State} (hload : load P H net now fs path r0 = .ok s1) {first : Entry} (hfirst : getByHeight s h = some first)
    {evil : Hdr} (hprev : evil.prevBlock = first.hash) (hnew : AMap.get s1.hashes (H evil) = none)
    (hnet : P.noRetarget = false) (hreset : P.targetReset = false ∨ evil.time ≤ first.hdr.time + 1200)
    (hpow : verifyPowHash evil.bits (H evil) = .ok ()) (now' : Int) (hclock : 0 ≤ now' + 7200 ∧ now' + 7200 < 2 ^ 63)
    (htime : first.hdr.time < evil.time ∧ evil.time ≤ now' + 7200) :
    add P H s1 now' evil = .ub := by
  obtain ⟨f1, f2, f3, f4, f5, f6, f7⟩ := hs.facts
  have hw := hs.window
  obtain ⟨s1', r1, r2, r3, r4, r5, r6, r7⟩ := C18_reload_restores hs henc hr now hfile
  rw [hload] at r1; cases r1
  subst r2
  have hst : start net s = s.height - net.window := rfl
  have hsame : ∀ n e, getByHeight s n = some e → n ≤ s.height → e.height = n ∧ AMap.get s.hashes e.hash = some e := by
    intro n e he hn
    obtain ⟨e', e1, e2, _, _, e5⟩ := f5.all n (Nat.zero_le _) hn
    rw [he] at e1; cases e1
    exact ⟨e2, e5⟩
  have hstored : AMap.get s1.hashes first.hash = some first := (r7 _ _).2 ⟨rfl, start net s, .inr ⟨by omega, by omega⟩, hfirst⟩
  have hnone : AMap.get s1.hashes first.hdr.prevBlock = none := by
    cases hx : AMap.get s1.hashes first.hdr.prevBlock with
    | none => rfl
    | some x =>
      exfalso
      obtain ⟨x1, n, hn, x2⟩ := (r7 _ _).1 hx
      obtain ⟨b, b1, b2, _, _, b5⟩ := f5.all (start net s - 1) (Nat.zero_le _) (by omega)
      have hl := (f5.step (start net s - 1) first b (Nat.zero_le _) (by rw [show start net s - 1 + 1 = start net s by omega]; exact hfirst) b1 (by omega)).1
      have hxs := hsame n x x2 (by omega)
      rw [← x1, hl, b5] at hxs
      cases hxs.2
      omega
  obtain ⟨p, es, w1, w2, w3, w4, w5, w6⟩ := hs.windowList
  rw [hs.encoded w1 w4 w5] at henc
  simp only [Out.ok.injEq, Prod.mk.injEq] at henc
  obtain ⟨_, rfl⟩ := henc
  have horph : s1.orphans = [] := by
    rw [hs.loads hr now w4 w3 w6 hfile] at hload
    cases hload
    rw [(foldl_save (P := P) now es _).2.2.1]
    exact hr.inv.2.2.2.1
  have hft := (f7.key _ _ (hsame _ _ hfirst (by omega)).2).2.2.2
  have hfh := (hsame _ _ hfirst (by omega)).1
  exact add_on_root hstored hnone horph hft (by omega) hprev hnew hnet hreset hpow now' hclock htime

/-- The restarted example node aborts on one header of minimum difficulty. -/
example : ∃ file s1, load exP exH exNet 88400 [("a".toList, file)] "a".toList exS0 = .ok s1 ∧
    add exP exH s1 1000000 exEvil = .ub := by
  obtain ⟨s, file, hs, h, _⟩ := exFile
  obtain ⟨s1, h1, _, _, _, _, _, h7⟩ := C18_reload_restores hs.saving h exBooted 88400
    (fs := [("a".toList, file)]) (path := "a".toList) rfl
  obtain ⟨e, e3, e4, e5⟩ := hs.first
  refine ⟨file, s1, h1, C53_abort hs.saving h exBooted 88400 rfl h1 e3 ?_ ?_ rfl (.inr ?_) ?_ 1000000 (by decide) ?_⟩
  · rw [e4]; rfl
  · cases hx : AMap.get s1.hashes (exH exEvil) with
    | none => rfl
    | some x =>
      obtain ⟨x1, n, x2, x3⟩ := (h7 _ _).1 hx
      have hl := (C07_index_linked exBooted hs.saving.plausible hs.saving.history n).2 x x3
      rw [← x1, hs.fresh] at hl
      cases hl.2.1
  · rw [e5]; decide
  · decide +kernel
  · rw [e5]; decide

end Verif.Props.Store
