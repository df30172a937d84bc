import Verif.Lemmas.ChainAdd
import Mathlib.Data.List.Perm.Subperm
/-
Out-of-order delivery of a valid chain: uniqueness of the rules' answers, and
completeness of hsk_chain_insert.
-/
namespace Verif.Chain
open Verif.Header Verif.Spec Verif.Spec.Chain

variable {P : Params} {H : Hdr → Bytes} {trusted : Block → Prop} {roots : List Bytes}
  {base : Nat → Option Entry} {s : State}

theorem isMedian_unique {m m' : Nat} {l : List Nat} (h : IsMedian m l) (h' : IsMedian m' l) : m = m' := by
  have key : ∀ {a b : Nat}, IsMedian a l → IsMedian b l → ¬ a < b := by
    intro a b ha hb hlt
    have h1 : l.countP (· ≤ a) ≤ l.countP (· < b) := by
      apply List.countP_mono_left
      intro x _ hx
      simp only [decide_eq_true_eq] at *
      omega
    have := ha.2.2
    have := hb.2.1
    omega
  have := key h h'
  have := key h' h
  omega

theorem byteLength_unique {t e e' : Nat} (he : 1 ≤ e) (he' : 1 ≤ e') (h1 : 256 ^ (e - 1) ≤ t) (h2 : t < 256 ^ e)
    (h1' : 256 ^ (e' - 1) ≤ t) (h2' : t < 256 ^ e') : e = e' := by
  have key : ∀ {a b : Nat}, 1 ≤ b → t < 256 ^ a → 256 ^ (b - 1) ≤ t → ¬ a < b := by
    intro a b hb ha hbt hlt
    have : 256 ^ a ≤ 256 ^ (b - 1) := Nat.pow_le_pow_right (by omega) (by omega)
    omega
  have := key he' h2 h1'
  have := key he h2' h1
  omega

theorem isCompact_unique {t c c' : Nat} (h : IsCompact t c) (h' : IsCompact t c') : c = c' := by
  rcases h with ⟨h0, hc⟩ | ⟨e, m, he, h1, h2, hm, hc⟩
  · rcases h' with ⟨_, hc'⟩ | ⟨e', m', he', h1', h2', hm', hc'⟩
    · rw [hc, hc']
    · have := Nat.pow_pos (n := e' - 1) (show 0 < 256 by omega); omega
  · rcases h' with ⟨h0, hc'⟩ | ⟨e', m', he', h1', h2', hm', hc'⟩
    · have := Nat.pow_pos (n := e - 1) (show 0 < 256 by omega); omega
    · have hee := byteLength_unique he he' h1 h2 h1' h2'
      subst hee
      rw [← hm'] at hm
      subst hm
      rw [hc, hc']

theorem demanded_unique {R : Rules} {time : Nat} {l : List Block} {b b' : Nat}
    (h : Demanded R time l b) (h' : Demanded R time l b') : b = b' := by
  obtain ⟨p, hp, h⟩ := h
  obtain ⟨p', hp', h'⟩ := h'
  rw [hp] at hp'
  cases hp'
  split at h
  · rename_i hc
    rw [if_pos hc] at h'
    rw [h, h']
  · rename_i hc
    rw [if_neg hc] at h'
    obtain ⟨y, x, a, b1, c, h1, h2, h3, h4, h5, h6⟩ := h
    obtain ⟨y', x', a', b1', c', h1', h2', h3', h4', h5', h6'⟩ := h'
    rw [h1] at h1'; rw [h2] at h2'; rw [h3] at h3'; rw [h4] at h4'; rw [h5] at h5'
    cases h1'; cases h2'; cases h3'; cases h4'; cases h5'
    have key : ∃ q : Nat,
        (if q = 0 ∨ R.powLimit < 2 ^ 256 / q - 1 then b = R.powBits else IsCompact (2 ^ 256 / q - 1) b) ∧
        (if q = 0 ∨ R.powLimit < 2 ^ 256 / q - 1 then b' = R.powBits else IsCompact (2 ^ 256 / q - 1) b') :=
      ⟨_, h6, h6'⟩
    obtain ⟨q, k1, k2⟩ := key
    by_cases hq : q = 0 ∨ R.powLimit < 2 ^ 256 / q - 1
    · rw [if_pos hq] at k1 k2
      rw [k1, k2]
    · rw [if_neg hq] at k1 k2
      exact isCompact_unique k1 k2

/-- hsk_chain_insert accepts every header the rules accept. -/
theorem insert_complete (hP : ParamsOK P) (hH : ∀ h, (H h).length = 32)
    (hi : Inv P H trusted roots base s) {prev e : Entry} {l : List Entry}
    (hc : Cand P H roots s prev { hdr := e.hdr, hash := e.hash }) (now : Int)
    (hp : Path s.hashes prev (prev :: l)) (hext : Extends (rules P) (blk e) (blk prev) (l.map blk))
    (hw : e.work.length = 32) (hg : FromGenesis trusted) :
    ∃ s', insert P now s { hdr := e.hdr, hash := e.hash } prev = .ok (.ok (s', e)) ∧
      Placed P H trusted roots base s e s' := by
  have hmem := hi.path_mem hc.stored hp
  have hts : ∀ x ∈ prev :: l, x.hdr.time < 2 ^ 63 := fun x hx => (hi.key _ _ (hmem x hx)).2.2.2
  have hws : ∀ x ∈ prev :: l, x.work.length = 32 := fun x hx => (hi.key _ _ (hmem x hx)).2.2.1
  have st := hi.steps hc.stored hp
  rcases insert_spec hP hH hi hc now with ⟨rc, h1, h2⟩ | ⟨s', e', h1, h2, h3, h4, l', h5, h6⟩ | ⟨h1, _⟩
  · exfalso
    obtain ⟨m, m1, m2⟩ := mtp_spec hp hts
    obtain ⟨m', m3, m4⟩ := hext.later
    have hmm : m = m' := isMedian_unique m2 (by simpa using m3)
    unfold insert at h1
    rw [if_neg] at h1
    · rcases getTarget_spec P hp st hP.limit hts hws hc.good.2 with ⟨b, b1, b2⟩ | ⟨b1, b2, b3⟩
      · have hb : e.hdr.bits = b := demanded_unique hext.bits b2
        simp only at b1
        rw [b1] at h1
        simp only [Out.bind] at h1
        rw [if_neg (by simp [hb])] at h1
        obtain ⟨w, w1, _⟩ : ∃ w, calcWork e.hdr.bits (some prev.work) = .ok w ∧ True := by
          have hpow := hc.pow
          unfold verifyPowHash at hpow
          cases ht : powToTarget e.hdr.bits with
          | none => simp only [ht] at hpow; cases hpow
          | some t =>
            obtain ⟨w, w1, _⟩ := calcWork_some ht (hws prev (by simp))
            exact ⟨w, w1, trivial⟩
        rw [w1] at h1
        simp only at h1
        cases hpl : place P now s { hdr := e.hdr, hash := e.hash, height := prev.height + 1, work := w } with
        | ok x => rw [hpl] at h1; cases h1
        | err x => rw [hpl] at h1; cases h1
        | ub => rw [hpl] at h1; cases h1
      · have := hi.path_length hg hc.stored hp
        omega
    · rw [m1, toI64_of_lt hc.good.2, hmm]
      simp only [blk] at m4
      show ¬ ((e.hdr.time : Int) ≤ m')
      omega
  · refine ⟨s', ?_, ?_⟩
    all_goals
      have heq : e' = e := by
        have hl : l' = l := by
          have := h5.unique hp
          simpa using this
        subst hl
        obtain ⟨t, t1, _, t3⟩ := hext.pow
        obtain ⟨t', t1', _, t3'⟩ := h6.pow
        have hbits : (blk e').bits = (blk e).bits := by simp [blk, h2]
        rw [hbits, t1] at t1'
        cases t1'
        have hwork : beNat e'.work = beNat e.work := by
          rw [show beNat e'.work = (blk e').work from rfl, t3', show beNat e.work = (blk e).work from rfl, t3]
        have hwl : e'.work.length = 32 := by
          have hst : AMap.get s'.hashes e'.hash = some e' := by rw [h4.hashes, AMap.get_set, if_pos rfl]
          exact (h4.inv.key _ _ hst).2.2.1
        have hw' := beNat_inj (by rw [hwl, hw]) hwork
        have hht : e'.height = e.height := by
          rw [show e'.height = (blk e').height from rfl, h6.linked.2,
            show e.height = (blk e).height from rfl, hext.linked.2]
        cases e; cases e'
        simp_all
      subst heq
    · exact h1
    · exact h4
  · exact absurd h1 (insert_ub_not_genesis hP hH hi hc now hg)

/-! A linear valid chain `es`, newest first. -/

structure Linear (P : Params) (H : Hdr → Bytes) (trusted : Block → Prop) (roots : List Bytes)
    (es : List Entry) : Prop where
  valid : ValidChain (rules P) trusted (es.map blk)
  good : ∀ e ∈ es, e.hash = H e.hdr ∧ e.work.length = 32 ∧ e.hdr.time < 2 ^ 63 ∧ e.hash ∉ roots
  inj : ∀ e ∈ es, ∀ e' ∈ es, e.hash = e'.hash → e = e'
  trusted_last : ∀ e ∈ es, trusted (blk e) → ∀ A B, es = A ++ e :: B → B = []

theorem validChain_split {R : Rules} {A l : List Block} {b p : Block} (h : ValidChain R trusted (A ++ b :: p :: l)) :
    Linked b p ∧ (trusted b ∨ Extends R b p l) := by
  induction A with
  | nil =>
    cases h with
    | start h1 h2 => exact ⟨h2, .inl h1⟩
    | next h1 => exact ⟨h1.linked, .inr h1⟩
  | cons a A ih =>
    generalize hq : a :: A ++ b :: p :: l = q at h
    cases h with
    | root => simp at hq
    | start _ _ h =>
      apply ih
      simp only [List.cons_append, List.cons.injEq] at hq
      rw [hq.2]; exact h
    | next _ h =>
      apply ih
      simp only [List.cons_append, List.cons.injEq] at hq
      rw [hq.2]; exact h

theorem Linear.link {es A B : List Entry} {e p : Entry} (hL : Linear P H trusted roots es)
    (h : es = A ++ e :: p :: B) :
    e.hdr.prevBlock = p.hash ∧ Extends (rules P) (blk e) (blk p) (B.map blk) := by
  have hv := hL.valid
  rw [h, List.map_append] at hv
  obtain ⟨h1, h2⟩ := validChain_split hv
  refine ⟨h1.1, ?_⟩
  rcases h2 with h2 | h2
  · have := hL.trusted_last e (by rw [h]; simp) h2 A (p :: B) h
    cases this
  · exact h2

/-- State of a node that was only offered headers of `es`. -/
structure Conv (P : Params) (H : Hdr → Bytes) (trusted : Block → Prop) (roots : List Bytes)
    (base : Nat → Option Entry) (es : List Entry) (s : State) : Prop where
  inv : Inv P H trusted roots base s
  stored : ∀ k x, AMap.get s.hashes k = some x → x ∈ es
  orphans : ∀ k o, AMap.get s.orphans k = some o → ∃ e ∈ es, o.hdr = e.hdr ∧ o.hash = e.hash
  nodup : AMap.Nodup s.orphans

/-- The stored ancestors of a chain member are exactly those below it. -/
theorem Conv.path {es A B : List Entry} {p : Entry} {l : List Entry} (hg : FromGenesis trusted)
    (hL : Linear P H trusted roots es) (hc : Conv P H trusted roots base es s)
    (hs : AMap.get s.hashes p.hash = some p) (he : es = A ++ p :: B) (hp : Path s.hashes p l) : l = p :: B := by
  induction hp generalizing A B with
  | root hr =>
    rename_i e
    obtain ⟨r, r1, r2, _⟩ := hc.inv.last hs (Path.root hr)
    simp at r1
    subst r1
    rw [hL.trusted_last e (by rw [he]; simp) r2 A B he]
  | step hgt hp ih =>
    rename_i e q l
    cases B with
    | nil =>
      exfalso
      have hpth := Path.step hgt hp
      have hlen := hc.inv.path_length hg hs hpth
      obtain ⟨b, b1, b2⟩ := validChain_last hL.valid
      rw [he] at b1
      simp at b1
      obtain ⟨g, g0, hT⟩ := hg
      have h0 : e.height = 0 := by
        have := congrArg Block.height (hT b b2)
        rw [← b1, g0] at this; exact this
      obtain ⟨t, rfl⟩ := hp.head
      simp at hlen
      omega
    | cons b B =>
      have hlink := (hL.link he).1
      have hq := (hc.inv.key _ _ hgt).1
      have hqb : q = b := hL.inj q (hc.stored _ _ hgt) b (by rw [he]; simp) (by rw [hq, hlink])
      subst hqb
      rw [ih (by rw [hq]; exact hgt) (A := A ++ [e]) (B := B) (by rw [he]; simp)]

/-- Inserting a chain member on its stored parent succeeds. -/
theorem Conv.insert {es : List Entry} {prev e : Entry} (hP : ParamsOK P) (hH : ∀ h, (H h).length = 32)
    (hg : FromGenesis trusted) (hL : Linear P H trusted roots es) (hc : Conv P H trusted roots base es s)
    (he : e ∈ es) (hcand : Cand P H roots s prev { hdr := e.hdr, hash := e.hash }) (now : Int) :
    ∃ s', Chain.insert P now s { hdr := e.hdr, hash := e.hash } prev = .ok (.ok (s', e)) ∧
      Placed P H trusted roots base s e s' ∧ Conv P H trusted roots base es s' := by
  obtain ⟨A, B, hAB⟩ := List.append_of_mem he
  cases B with
  | nil =>
    -- the bottom of the chain is trusted, hence stored already
    exfalso
    obtain ⟨b, b1, b2⟩ := validChain_last hL.valid
    rw [hAB] at b1
    simp at b1
    obtain ⟨l, hl, _⟩ := hc.inv.path _ _ hc.inv.tip
    obtain ⟨r, _, r2, r3⟩ := hc.inv.last hc.inv.tip hl
    obtain ⟨g, _, hT⟩ := hg
    have : r.hash = e.hash := by
      have h1 := congrArg Block.hash (hT _ r2)
      have h2 := congrArg Block.hash (hT b b2)
      rw [← b1] at h2
      simp only [blk] at h1 h2
      rw [h1, h2]
    rw [this, hcand.fresh] at r3
    cases r3
  | cons p B =>
    obtain ⟨l1, l2⟩ := hL.link hAB
    have hpp : prev = p := hL.inj prev (hc.stored _ _ hcand.stored) p (by rw [hAB]; simp)
      (by rw [← l1]; exact hcand.link.symm)
    subst hpp
    obtain ⟨l, hl, _⟩ := hc.inv.path _ _ hcand.stored
    have hB := hc.path hg hL hcand.stored (A := A ++ [e]) (B := B) (by rw [hAB]; simp) hl
    subst hB
    obtain ⟨s', s1, s2⟩ := insert_complete hP hH hc.inv hcand now hl l2 (hL.good e he).2.1 hg
    refine ⟨s', s1, s2, s2.inv, ?_, by rw [s2.orphans]; exact hc.orphans, by rw [s2.orphans]; exact hc.nodup⟩
    intro k x hx
    rw [s2.hashes, AMap.get_set] at hx
    split at hx
    · cases hx; exact he
    · exact hc.stored k x hx

theorem extends_pow (hP : ParamsOK P) {e : Entry} {p : Block} {l : List Block}
    (h : Extends (rules P) (blk e) p l) (hl : e.hash.length = 32) :
    verifyPowHash e.hdr.bits e.hash = .ok () := by
  obtain ⟨t, t1, t2, _⟩ := h.pow
  have hx := powToTarget_spec (bits := e.hdr.bits) (demanded_exponent hP h.bits)
  rw [show Difficulty.expand e.hdr.bits = some t from t1] at hx
  cases ht : powToTarget e.hdr.bits with
  | none => rw [ht] at hx; simp at hx
  | some t' =>
    rw [ht] at hx
    simp only [Option.map_some, Option.some.injEq] at hx
    unfold verifyPowHash
    rw [ht]
    simp only
    rw [if_neg]
    rw [memcmp_pos (by rw [hl, powToTarget_length ht])]
    simp only [blk] at t2
    omega

/-- Bottom members are trusted, hence stored already. -/
theorem Conv.bottom {es A : List Entry} {e : Entry} (hg : FromGenesis trusted)
    (hL : Linear P H trusted roots es) (hc : Conv P H trusted roots base es s) (he : es = A ++ [e]) :
    ∃ x, AMap.get s.hashes e.hash = some x := by
  obtain ⟨b, b1, b2⟩ := validChain_last hL.valid
  rw [he] at b1
  simp at b1
  obtain ⟨l, hl, _⟩ := hc.inv.path _ _ hc.inv.tip
  obtain ⟨r, _, r2, r3⟩ := hc.inv.last hc.inv.tip hl
  obtain ⟨g, _, hT⟩ := hg
  have : r.hash = e.hash := by
    have h1 := congrArg Block.hash (hT _ r2)
    have h2 := congrArg Block.hash (hT b b2)
    rw [← b1] at h2
    simp only [blk] at h1 h2
    rw [h1, h2]
  rw [this] at r3
  exact ⟨r, r3⟩

theorem Conv.pow {es : List Entry} {e : Entry} (hP : ParamsOK P) (hH : ∀ h, (H h).length = 32)
    (hg : FromGenesis trusted) (hL : Linear P H trusted roots es)
    (hc : Conv P H trusted roots base es s) (he : e ∈ es) (hf : AMap.get s.hashes e.hash = none) :
    verifyPowHash e.hdr.bits e.hash = .ok () := by
  obtain ⟨A, B, hAB⟩ := List.append_of_mem he
  cases B with
  | nil =>
    obtain ⟨x, hx⟩ := hc.bottom hg hL hAB
    rw [hf] at hx; cases hx
  | cons p B => exact extends_pow hP (hL.link hAB).2 (by rw [(hL.good e he).1]; exact hH _)

/-- Stored or waiting. -/
def Known (s : State) (e : Entry) : Prop :=
  AMap.get s.hashes e.hash = some e ∨ ∃ o, AMap.get s.orphans e.hash = some o

theorem Conv.resolveLoop {es : List Entry} (hP : ParamsOK P) (hH : ∀ h, (H h).length = 32)
    (hg : FromGenesis trusted) (hL : Linear P H trusted roots es) (now : Int) (fuel : Nat) {s : State} {e : Entry}
    (hc : Conv P H trusted roots base es s) (he : AMap.get s.hashes e.hash = some e)
    (hf : AMap.size s.prevs < fuel) :
    ∃ s', Chain.resolveLoop P now fuel s e = .ok (.success, s') ∧ Conv P H trusted roots base es s' ∧
      ∀ x ∈ es, Known s x → Known s' x := by
  induction fuel generalizing s e with
  | zero => omega
  | succ f ih =>
    unfold Chain.resolveLoop
    cases hr : resolveOrphan s e.hash with
    | none => exact ⟨s, rfl, hc, fun _ _ h => h⟩
    | some p =>
      obtain ⟨o, s1⟩ := p
      obtain ⟨i1, c1, e1, e2, e3, e4, e5, e6, e7, e8⟩ := hc.inv.resolve he hr
      obtain ⟨x, hx, hx1, hx2⟩ := hc.orphans _ _ e6
      have ho : o = { hdr := x.hdr, hash := x.hash } := by cases o; simp_all
      have hc1 : Conv P H trusted roots base es s1 := by
        refine ⟨i1, by rw [e1]; exact hc.stored, ?_, by rw [e8]; exact AMap.nodup_del hc.nodup _⟩
        intro k o' ho'
        rw [e8, AMap.get_del] at ho'
        split at ho'
        · cases ho'
        · exact hc.orphans k o' ho'
      rw [ho] at c1
      obtain ⟨s2, q1, q2, q3⟩ := hc1.insert hP hH hg hL hx c1 now
      simp only [ho, q1, Out.bind]
      have hst : AMap.get s2.hashes x.hash = some x := by rw [q2.hashes, AMap.get_set, if_pos rfl]
      obtain ⟨s3, r1, r2, r3⟩ := ih q3 hst (by
        rw [q2.prevs, e7]
        have := AMap.size_del_lt e5
        omega)
      refine ⟨s3, r1, r2, ?_⟩
      intro y hy hk
      apply r3 y hy
      rcases hk with hk | ⟨o', hk⟩
      · left
        rw [q2.hashes, AMap.get_set, e1]
        split
        · rename_i heq
          rw [hL.inj x hx y hy heq]
        · exact hk
      · by_cases heq : x.hash = y.hash
        · left
          rw [← hL.inj x hx y hy heq]; exact hst
        · right
          rw [q2.orphans, e8, AMap.get_del, if_neg]
          · exact ⟨o', hk⟩
          · rw [hx2]; exact heq

theorem nodup_length_le {κ ν : Type} [DecidableEq κ] (m : AMap κ ν) (l : List κ) (hn : AMap.Nodup m)
    (h : ∀ k v, AMap.get m k = some v → k ∈ l) : AMap.size m ≤ l.length := by
  have hsub : (m.map (·.1)).Subperm l := by
    apply List.Nodup.subperm hn
    intro k hk
    obtain ⟨⟨k', v⟩, hp, rfl⟩ := List.mem_map.1 hk
    exact h _ v (AMap.get_of_mem hn hp)
  have := hsub.length_le
  simpa [AMap.size] using this

theorem Conv.add {es : List Entry} (hP : ParamsOK P) (hH : ∀ h, (H h).length = 32)
    (hg : FromGenesis trusted) (hL : Linear P H trusted roots es) (hlen : es.length ≤ 10000)
    {now : Int} (hclk : ClockOK now) {e : Entry} (he : e ∈ es) (htime : e.hdr.time ≤ now + 7200)
    (hc : Conv P H trusted roots base es s) :
    ∃ rc s', Chain.add P H s now e.hdr = .ok (rc, s') ∧ Conv P H trusted roots base es s' ∧ Known s' e ∧
      ∀ x ∈ es, Known s x → Known s' x := by
  obtain ⟨g1, g2, g3, g4⟩ := hL.good e he
  unfold Chain.add
  dsimp only
  have ht : ¬ e.hdr.time > toU64 (now + 7200) := by
    unfold toU64
    obtain ⟨c1, c2⟩ := hclk
    omega
  rw [if_neg ht, ← g1]
  by_cases h2 : AMap.has s.hashes e.hash = true
  · rw [if_pos h2]
    obtain ⟨x, hx⟩ := (AMap.has_iff _ _).1 h2
    have hxe : x = e := hL.inj x (hc.stored _ _ hx) e he (hc.inv.key _ _ hx).1
    subst hxe
    exact ⟨_, s, rfl, hc, .inl hx, fun _ _ h => h⟩
  rw [if_neg h2]
  by_cases h3 : AMap.has s.orphans e.hash = true
  · rw [if_pos h3]
    obtain ⟨x, hx⟩ := (AMap.has_iff _ _).1 h3
    exact ⟨_, s, rfl, hc, .inr ⟨x, hx⟩, fun _ _ h => h⟩
  rw [if_neg h3]
  simp only [AMap.has, Option.isSome_iff_ne_none, ne_eq, not_not] at h2 h3
  have hpow := hc.pow hP hH hg hL he h2
  rw [hpow]
  simp only
  cases hprev : AMap.get s.hashes e.hdr.prevBlock with
  | none =>
    have hsz : ¬ AMap.size s.orphans > 10000 := by
      have := nodup_length_le s.orphans (es.map (·.hash)) hc.nodup (by
        intro k o ho
        obtain ⟨x, hx, _, hx2⟩ := hc.orphans k o ho
        rw [← (hc.inv.orphan k o ho).1, hx2]
        exact List.mem_map_of_mem hx)
      simp at this
      omega
    have hinv := hc.inv.addOrphan (h := e.hdr) (by rw [← g1]; exact h2) (by rw [← g1]; exact g4)
      (by rw [← g1]; exact hpow) g3 (by rw [← g1]; exact h3)
    rw [← g1] at hinv
    obtain ⟨a1, _⟩ := addOrphan_served s { hdr := e.hdr, hash := e.hash }
    have a2 : (addOrphan s { hdr := e.hdr, hash := e.hash }).orphans = AMap.set s.orphans e.hash { hdr := e.hdr, hash := e.hash } := by
      unfold addOrphan
      dsimp only
      rw [if_neg hsz]
    refine ⟨_, _, rfl, ⟨hinv, by rw [a1]; exact hc.stored, ?_, by rw [a2]; exact AMap.nodup_set hc.nodup _ _⟩, ?_, ?_⟩
    · intro k o ho
      rw [a2, AMap.get_set] at ho
      split at ho
      · cases ho; exact ⟨e, he, rfl, rfl⟩
      · exact hc.orphans k o ho
    · right; rw [a2, AMap.get_set, if_pos rfl]; exact ⟨_, rfl⟩
    · intro x _ hk
      rcases hk with hk | ⟨o, hk⟩
      · left; rw [a1]; exact hk
      · right
        rw [a2, AMap.get_set]
        split
        · exact ⟨_, rfl⟩
        · exact ⟨o, hk⟩
  | some prev =>
    simp only
    have hk := (hc.inv.key _ _ hprev).1
    have hcand : Cand P H roots s prev { hdr := e.hdr, hash := e.hash } :=
      { stored := by rw [hk]; exact hprev, link := hk.symm, fresh := h2, noOrphan := h3,
        noRoot := g4, good := ⟨g1.symm, g3⟩, pow := hpow }
    obtain ⟨s1, q1, q2, q3⟩ := hc.insert hP hH hg hL he hcand now
    simp only [q1, Out.bind]
    have hst : AMap.get s1.hashes e.hash = some e := by rw [q2.hashes, AMap.get_set, if_pos rfl]
    obtain ⟨s2, r1, r2, r3⟩ := Conv.resolveLoop hP hH hg hL now (AMap.size s1.prevs + 1) q3 hst (by omega)
    refine ⟨_, s2, r1, r2, r3 e he (.inl hst), ?_⟩
    intro x hx hkn
    apply r3 x hx
    rcases hkn with hkn | ⟨o, hkn⟩
    · exact .inl ((q2.adv hc.inv h2).keep _ _ hkn)
    · right; rw [q2.orphans]; exact ⟨o, hkn⟩

/-! Histories in which no two headers name the same parent. -/

theorem orphans_shrink_resolveLoop (hP : ParamsOK P) (hH : ∀ h, (H h).length = 32) (now : Int) (fuel : Nat)
    {s s' : State} {e : Entry} {rc : Rc} (hi : Inv P H trusted roots base s)
    (he : AMap.get s.hashes e.hash = some e) (h : Chain.resolveLoop P now fuel s e = .ok (rc, s')) :
    ∀ k o, AMap.get s'.orphans k = some o → AMap.get s.orphans k = some o := by
  induction fuel generalizing s e with
  | zero => cases h
  | succ f ih =>
    unfold Chain.resolveLoop at h
    cases hr : resolveOrphan s e.hash with
    | none =>
      rw [hr] at h
      simp only [Out.ok.injEq, Prod.mk.injEq] at h
      rw [← h.2]; exact fun _ _ h => h
    | some p =>
      obtain ⟨o, s1⟩ := p
      rw [hr] at h
      simp only at h
      obtain ⟨i1, c1, e1, e2, e3, e4, e5, e6, e7, e8⟩ := hi.resolve he hr
      have hsub : ∀ k o, AMap.get s1.orphans k = some o → AMap.get s.orphans k = some o := by
        intro k o' ho
        rw [e8, AMap.get_del] at ho
        split at ho
        · cases ho
        · exact ho
      rcases insert_spec hP hH i1 c1 now with ⟨rc', h1, h2⟩ | ⟨s2, e', h1, h2, h3, h4, h5⟩ | ⟨h1, _⟩
      · rw [h1] at h
        simp only [Out.bind, Out.ok.injEq, Prod.mk.injEq] at h
        rw [← h.2]; exact hsub
      · rw [h1] at h
        simp only [Out.bind] at h
        have he' : AMap.get s2.hashes e'.hash = some e' := by rw [h4.hashes, AMap.get_set, if_pos rfl]
        intro k o ho
        have := ih h4.inv he' h k o ho
        rw [h4.orphans] at this
        exact hsub k o this
      · rw [h1] at h; cases h

/-- Every waiting header after a call was waiting before or is the one offered. -/
theorem add_orphans (hP : ParamsOK P) (hH : ∀ h, (H h).length = 32) (hi : Inv P H trusted roots base s)
    {now : Int} (hc : ClockOK now) {h : Hdr} (hroot : H h ∉ roots) {rc : Rc} {s' : State}
    (ha : Chain.add P H s now h = .ok (rc, s')) :
    ∀ k o, AMap.get s'.orphans k = some o → AMap.get s.orphans k = some o ∨ o.hdr = h := by
  unfold Chain.add at ha
  dsimp only at ha
  by_cases h1 : h.time > toU64 (now + 7200)
  · rw [if_pos h1] at ha; cases ha; exact fun _ _ h => .inl h
  rw [if_neg h1] at ha
  by_cases h2 : AMap.has s.hashes (H h) = true
  · rw [if_pos h2] at ha; cases ha; exact fun _ _ h => .inl h
  rw [if_neg h2] at ha
  by_cases h3 : AMap.has s.orphans (H h) = true
  · rw [if_pos h3] at ha; cases ha; exact fun _ _ h => .inl h
  rw [if_neg h3] at ha
  have htime := clock_time hc h1
  simp only [AMap.has, Option.isSome_iff_ne_none, ne_eq, not_not] at h2 h3
  cases hpow : verifyPowHash h.bits (H h) with
  | error err =>
    rw [hpow] at ha
    cases err <;> (cases ha; exact fun _ _ h => .inl h)
  | ok u =>
    rw [hpow] at ha
    simp only at ha
    cases hprev : AMap.get s.hashes h.prevBlock with
    | none =>
      rw [hprev] at ha
      cases ha
      intro k o ho
      unfold addOrphan at ho
      dsimp only at ho
      split at ho
      · rw [AMap.get_set] at ho
        split at ho
        · cases ho; exact .inr rfl
        · simp at ho
      · rw [AMap.get_set] at ho
        split at ho
        · cases ho; exact .inr rfl
        · exact .inl ho
    | some prev =>
      rw [hprev] at ha
      simp only at ha
      have hk := (hi.key _ _ hprev).1
      have hcand : Cand P H roots s prev { hdr := h, hash := H h } :=
        { stored := by rw [hk]; exact hprev, link := hk.symm, fresh := h2, noOrphan := h3,
          noRoot := hroot, good := ⟨rfl, htime⟩, pow := hpow }
      rcases insert_spec hP hH hi hcand now with ⟨rc', q1, q2⟩ | ⟨s1, e, q1, q2, q3, q4, _⟩ | ⟨q1, q2⟩
      · rw [q1] at ha; cases ha; exact fun _ _ h => .inl h
      · rw [q1] at ha
        simp only [Out.bind] at ha
        have he : AMap.get s1.hashes e.hash = some e := by rw [q4.hashes, AMap.get_set, if_pos rfl]
        intro k o ho
        have := orphans_shrink_resolveLoop hP hH now _ q4.inv he ha k o ho
        rw [q4.orphans] at this
        exact .inl this
      · rw [q1] at ha; cases ha

theorem tidy_addOrphan {s : State} {n : Node} (ht : Tidy s) (hn : AMap.get s.hashes n.hdr.prevBlock = none)
    (hd : ∀ k o, AMap.get s.orphans k = some o → o.hdr.prevBlock ≠ n.hdr.prevBlock) : Tidy (addOrphan s n) := by
  obtain ⟨a1, _⟩ := addOrphan_served s n
  intro k o ho
  rw [a1]
  unfold addOrphan at ho ⊢
  dsimp only at ho ⊢
  split at ho
  · rename_i hb
    rw [if_pos hb]
    rw [AMap.get_set] at ho
    split at ho
    · cases ho; exact ⟨hn, by simp [AMap.get_set]⟩
    · simp at ho
  · rename_i hb
    rw [if_neg hb]
    rw [AMap.get_set] at ho
    split at ho
    · cases ho; exact ⟨hn, by simp [AMap.get_set]⟩
    · obtain ⟨t1, t2⟩ := ht k o ho
      refine ⟨t1, ?_⟩
      rw [AMap.get_set, if_neg (fun h => hd k o ho h.symm)]
      exact t2

theorem run_tidy (hP : ParamsOK P) (hH : ∀ h, (H h).length = 32) (seen : List Hdr) (ops : List (Int × Hdr))
    (hops : OpsOK H roots ops) (hseen : ∀ op ∈ ops, op.2 ∈ seen)
    (hlin : ∀ a ∈ seen, ∀ b ∈ seen, a.prevBlock = b.prevBlock → a = b)
    {s s' : State} (hi : Inv P H trusted roots base s) (ht : Tidy s)
    (ho : ∀ k o, AMap.get s.orphans k = some o → o.hdr ∈ seen) (hr : run P H s ops = .ok s') : Tidy s' := by
  induction ops generalizing s with
  | nil => cases hr; exact ht
  | cons op ops ih =>
    obtain ⟨now, h⟩ := op
    have hop := hops (now, h) (by simp)
    have hs := hseen (now, h) (by simp)
    simp only [run] at hr
    rcases add_spec hP hH hi hop.1 hop.2 with ⟨rc, s1, a1, a2⟩ | ⟨a1, _⟩
    swap
    · rw [a1] at hr; cases hr
    rw [a1] at hr
    simp only [Out.bind] at hr
    have ho1 : ∀ k o, AMap.get s1.orphans k = some o → o.hdr ∈ seen := by
      intro k o hk
      rcases add_orphans hP hH hi hop.1 hop.2 a1 k o hk with h | h
      · exact ho k o h
      · rw [h]; exact hs
    refine ih (fun op hop => hops op (List.mem_cons_of_mem _ hop))
      (fun op hop => hseen op (List.mem_cons_of_mem _ hop)) (a2.inv hi) ?_ ho1 hr
    cases a2 with
    | refused => exact ht
    | orphan h1 h2 h3 _ =>
      refine tidy_addOrphan ht h1 ?_
      intro k o hk heq
      have := hlin o.hdr (ho k o hk) h hs heq
      have h4 := hi.orphan k o hk
      rw [this] at h4
      rw [← h4.2.1, h3] at hk
      cases hk
    | stored _ _ _ _ _ _ _ _ _ _ h _ => exact h ht

theorem run_conv {es : List Entry} (hP : ParamsOK P) (hH : ∀ h, (H h).length = 32)
    (hg : FromGenesis trusted) (hL : Linear P H trusted roots es) (hlen : es.length ≤ 10000)
    (ops : List (Int × Hdr))
    (hops : ∀ op ∈ ops, ClockOK op.1 ∧ ∃ e ∈ es, e.hdr = op.2 ∧ e.hdr.time ≤ op.1 + 7200)
    {s : State} (hc : Conv P H trusted roots base es s) :
    ∃ s', run P H s ops = .ok s' ∧ Conv P H trusted roots base es s' ∧
      (∀ e ∈ es, Known s e → Known s' e) ∧ ∀ e ∈ es, (∃ op ∈ ops, op.2 = e.hdr) → Known s' e := by
  induction ops generalizing s with
  | nil => exact ⟨s, rfl, hc, fun _ _ h => h, by simp⟩
  | cons op ops ih =>
    obtain ⟨now, h⟩ := op
    obtain ⟨hclk, e, he, hhd, htm⟩ := hops (now, h) (by simp)
    simp only at hhd htm
    subst hhd
    obtain ⟨rc, s1, a1, a2, a3, a4⟩ := hc.add hP hH hg hL hlen hclk he htm
    obtain ⟨s', r1, r2, r3, r4⟩ := ih (fun op hop => hops op (List.mem_cons_of_mem _ hop)) a2
    refine ⟨s', by simp only [run, a1, Out.bind]; exact r1, r2, fun x hx hk => r3 x hx (a4 x hx hk), ?_⟩
    rintro x hx ⟨op, hop, heq⟩
    rcases List.mem_cons.1 hop with rfl | hop
    · simp only at heq
      have hxe : x = e := hL.inj x hx e he (by rw [(hL.good x hx).1, (hL.good e he).1, heq])
      subst hxe
      exact r3 x hx a3
    · exact r4 x hx ⟨op, hop, heq⟩

theorem Linear.steps {es : List Entry} (hL : Linear P H trusted roots es) : Steps es :=
  validChain_steps es hL.valid

/-- Different members of the chain have different parents. -/
theorem Linear.parents {es : List Entry} (hL : Linear P H trusted roots es) {a b : Entry} (ha : a ∈ es.dropLast)
    (hb : b ∈ es.dropLast) (h : a.hdr.prevBlock = b.hdr.prevBlock) : a = b := by
  have pos : ∀ {x : Entry}, x ∈ es.dropLast → ∃ A p B, es = A ++ x :: p :: B := by
    intro x hx
    obtain ⟨A, B, hAB⟩ := List.append_of_mem hx
    have hne : es ≠ [] := by rintro rfl; simp at hx
    have := List.dropLast_append_getLast hne
    rw [hAB] at this
    cases B with
    | nil => exact ⟨A, es.getLast hne, [], by simpa using this.symm⟩
    | cons p B => exact ⟨A, p, B ++ [es.getLast hne], by simpa using this.symm⟩
  obtain ⟨A, p, B, h1⟩ := pos ha
  obtain ⟨A', p', B', h1'⟩ := pos hb
  obtain ⟨l1, m1⟩ := hL.link h1
  obtain ⟨l2, m2⟩ := hL.link h1'
  have hp : p = p' := hL.inj p (by rw [h1]; simp) p' (by rw [h1']; simp) (by rw [← l1, ← l2, h])
  have hh : a.height = b.height := by
    have e1 := m1.linked.2
    have e2 := m2.linked.2
    simp only [blk] at e1 e2
    rw [e1, e2, hp]
  -- equal heights mean equal positions
  have hne : es ≠ [] := by rintro rfl; simp at ha
  obtain ⟨x, t, hx⟩ := List.exists_cons_of_ne_nil hne
  have st := hL.steps
  rw [hx] at st
  have i1 := st.index A.length (b := a) (by rw [← hx, h1]; simp)
  have i2 := st.index A'.length (b := b) (by rw [← hx, h1']; simp)
  have hAA : A.length = A'.length := by omega
  have g1 : es[A.length]? = some a := by rw [h1]; simp
  have g2 : es[A'.length]? = some b := by rw [h1']; simp
  rw [hAA, g2] at g1
  exact (Option.some.inj g1).symm

/-- When nothing known is waiting, everything known is stored. -/
theorem Conv.all_stored {es : List Entry} (hg : FromGenesis trusted) (hL : Linear P H trusted roots es)
    (hc : Conv P H trusted roots base es s) (ht : Tidy s) (hk : ∀ e ∈ es.dropLast, Known s e) :
    ∀ e ∈ es, AMap.get s.hashes e.hash = some e := by
  have key : ∀ (B A : List Entry) (e : Entry), es = A ++ e :: B → AMap.get s.hashes e.hash = some e := by
    intro B
    induction B with
    | nil =>
      intro A e he
      obtain ⟨x, hx⟩ := hc.bottom hg hL he
      have := hL.inj x (hc.stored _ _ hx) e (by rw [he]; simp) (hc.inv.key _ _ hx).1
      rw [this] at hx; exact hx
    | cons p B ih =>
      intro A e he
      have hp := ih (A ++ [e]) p (by rw [he]; simp)
      have hmem : e ∈ es.dropLast := by
        rw [he, List.dropLast_append_of_ne_nil (by simp), List.dropLast_cons_cons]
        simp
      rcases hk e hmem with h | ⟨o, ho⟩
      · exact h
      · exfalso
        obtain ⟨x, hx, hx1, hx2⟩ := hc.orphans _ _ ho
        have h1 := (hc.inv.orphan _ _ ho).1
        have hxe : x = e := hL.inj x hx e (by rw [he]; simp) (by rw [← hx2, h1])
        have h2 := (ht _ _ ho).1
        rw [hx1, hxe, (hL.link he).1, hp] at h2
        cases h2
  intro e he
  obtain ⟨A, B, hAB⟩ := List.append_of_mem he
  exact key B A e hAB

end Verif.Chain
