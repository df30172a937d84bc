import Verif.Lemmas.Checkpoint
/-
The genesis blocks and the checkpoint, evaluated.
-/
namespace Verif.Networks
open Verif.Header Verif.HeaderHash Verif.Bio Verif.Chain Verif.Store Verif.Spec Verif.Spec.Chain Verif.Spec.BlockHash Verif.Fast Verif.Checkpoint Verif.Props.Chain Verif.Props.Store

attribute [local irreducible] blockHash fhash HeaderHash.hashed

/-- The header in 236 bytes. -/
def decoded (b : Bytes) : Hdr := hdrOf (leNat b)

theorem read_decoded {b : Bytes} (h : b.length = 236) : read b = .ok (decoded b, []) := by
  have := read_hdrOf (leNat b) []
  rwa [List.append_nil, ← h, leBytes_leNat] at this

theorem hash_decoded (al : Bool × Bool) {b : Bytes} {n : Nat} (h : (fhash (leNat b) fun x => Nat.beq x (leNat (beBytes 32 n))) = true) :
    hashed al (decoded b) = beBytes 32 n := by
  rw [fhash_eq] at h
  refine leNat_inj ((cache_ok al al _).2.trans (by simp)) ?_
  rw [decoded, hashed_hdrOf]
  exact Nat.eq_of_beq_eq_true h

set_option maxRecDepth 100000 in
theorem main_hash : (fhash (leNat Network.mainGenesis) fun x => Nat.beq x (leNat (beBytes 32 0x5b6ef2d3c1f3cdcadfd9a030ba1811efdd17740f14e166489760741d075992e0))) = true := by
  decide +kernel
set_option maxRecDepth 100000 in
theorem testnet_hash : (fhash (leNat Network.testnetGenesis) fun x => Nat.beq x (leNat (beBytes 32 0xb1520dd24372f82ec94ebf8cf9d9b037d419c4aa3575d05dec70aedd1b427901))) = true := by
  decide +kernel
set_option maxRecDepth 100000 in
theorem regtest_hash : (fhash (leNat Network.regtestGenesis) fun x => Nat.beq x (leNat (beBytes 32 0xae3895cf597eff05b19e02a70ceeeecb9dc72dbfe6504a50e9343a72f06a87c5))) = true := by
  decide +kernel
set_option maxRecDepth 100000 in
theorem simnet_hash : (fhash (leNat Network.simnetGenesis) fun x => Nat.beq x (leNat (beBytes 32 0x0e648edc9cddb179014658061ea3f666a45cf44881877ae506e6babefbef6992))) = true := by
  decide +kernel

theorem boot {P : Chain.Params} {b : Bytes} {n : Nat} (al : Bool × Bool) (now : Int) (hP : Chain.ParamsOK P)
    (hl : b.length = 236) (ht : (decoded b).time < 2 ^ 63)
    (hh : (fhash (leNat b) fun x => Nat.beq x (leNat (beBytes 32 n))) = true) (hne : beBytes 32 n ≠ (decoded b).prevBlock)
    (hw : (match calcWork (decoded b).bits none with | .ok _ => true | _ => false) = true) :
    ∃ g s0, read b = .ok (g, []) ∧ hashed al g = beBytes 32 n ∧ Chain.initGenesis P (hashed al) now g = .ok s0 ∧ Booted P (hashed al) g s0 := by
  have e := hash_decoded al hh
  have hs : ∃ s0, Chain.initGenesis P (hashed al) now (decoded b) = .ok s0 := by
    unfold Chain.initGenesis
    cases h : calcWork (decoded b).bits none with
    | ok w => exact ⟨_, rfl⟩
    | err e => rw [h] at hw; cases hw
    | ub => rw [h] at hw; cases hw
  obtain ⟨s0, hs⟩ := hs
  exact ⟨_, s0, read_decoded hl, e, hs, hP, fun h => (cache_ok al al h).2, ht, by rw [e]; exact hne, now, hs⟩

theorem _root_.Verif.Store.Chained.hash {H : Hdr → Bytes} {p : Prev} {h : Nat} {es : List Entry} (hc : Chained H p h es) : ∀ x ∈ es, x.hash = H x.hdr := by
  induction hc with
  | nil => simp
  | cons c1 c2 c3 c4 c5 c6 c7 ih =>
    intro x hx
    rcases List.mem_cons.1 hx with rfl | hx
    · exact c2
    · exact ih x hx

theorem _root_.Verif.Store.Chained.link {H : Hdr → Bytes} {p : Prev} {h : Nat} {es : List Entry} (hc : Chained H p h es) :
    ∀ j a b, es[j]? = some a → es[j + 1]? = some b → b.hdr.prevBlock = a.hash := by
  induction hc with
  | nil => intro j a b h; simp at h
  | cons c1 c2 c3 c4 c5 c6 c7 ih =>
    intro j a b ha hb
    cases j with
    | zero =>
      cases Option.some.inj ha
      cases c7 with
      | nil => simp at hb
      | cons d1 d2 d3 d4 d5 d6 d7 =>
        simp at hb
        subst hb
        exact (d5 _ rfl).symm
    | succ j => exact ih j a b (by simpa using ha) (by simpa using hb)

theorem entries_get (al : Bool × Bool) : ∀ (Xs : List Nat) (w h i X : Nat), Xs[i]? = some X → ∃ e, (entries al w h Xs)[i]? = some e ∧ e.hdr = hdrOf X
  | [], _, _, _, _, hx => by simp at hx
  | _ :: _, _, _, 0, _, hx => by
    cases Option.some.inj hx
    exact ⟨_, rfl, rfl⟩
  | _ :: Xs, _, _, i + 1, X, hx => entries_get al Xs _ _ i X (by simpa using hx)

/-! ## The checkpoint of the main network -/

/-- Its headers. -/
def window (al : Bool × Bool) : List Entry := entries al workBelow 136000 Network.checkpointHeaders

attribute [local irreducible] injectLoop Network.checkpointHeaders Checkpoint.hashes

variable {al : Bool × Bool}

theorem window_length : (window al).length = 150 := by rw [window, entries_length, Checkpoint.headers_length]

theorem window_hashes : (window al).map (fun e => leNat e.hash) = Checkpoint.hashes :=
  entries_hashes al _ _ _ _ hashOk_all (by rw [Checkpoint.headers_length, hashes_length])

theorem window_spec :
    Chained (hashed al) ⟨some below, beBytes 32 workBelow⟩ 136000 (window al) ∧
    (∀ e ∈ window al, e.hdr.time < 2 ^ 63 ∧ leNat e.hash ∉ apart ∧ workBelow ≤ beNat e.work) ∧
    (∀ a ∈ window al, ∀ b ∈ window al, a.hash = b.hash → a = b) ∧
    (∀ e ∈ window al, ∀ l, (window al).getLast? = some l → beNat e.work ≤ beNat l.work) := by
  have := good_spec al _ _ _ _ 136000 good_all (by decide)
  rwa [show leBytes 32 (leNat below) = below from leBytes_leNat below] at this

theorem window_apart {e : Entry} (he : e ∈ window al) : e.hash ≠ below ∧ e.hash ≠ List.replicate 32 0 ∧ e.hash ≠ genesisHash ∧ e.hash ≠ evilHash := by
  have := (window_spec.2.1 e he).2.1
  unfold apart at this
  simp only [List.mem_cons, List.not_mem_nil, or_false, not_or] at this
  refine ⟨?_, ?_, ?_, ?_⟩ <;> intro h <;> rw [h] at this
  · exact this.1 rfl
  · exact this.2.1 (by decide)
  · exact this.2.2.1 rfl
  · exact this.2.2.2 rfl

theorem inject_append (P : Params) (H : Hdr → Bytes) (now : Int) (s : State) {h : Nat} (hh : h < 2 ^ 32) {w d : Bytes} (hw : w.length = 32)
    (h0 : s.initHeight < h) : inject P H now s (beBytes 4 h ++ (w ++ d)) = injectLoop P H now 150 h ⟨none, w⟩ { s with initHeight := h } d := by
  unfold inject
  rw [readU32be_append hh]
  dsimp only [Out.bind]
  rw [if_neg (by omega), readBytes_append' hw]

theorem inject_eq (now : Int) {s0 : State} (h0 : s0.initHeight = 0) :
    inject Network.main (hashed al) now s0 Network.mainCheckpoint = .ok ((window al).foldl (save Network.main now) { s0 with initHeight := 136000 }) := by
  have := injectLoop_eq (P := Network.main) now (window al) window_spec.1.weaken { s0 with initHeight := 136000 } (List.replicate 5 0)
  rw [window_length, window, entries_bytes] at this
  rw [← window] at this
  rw [← this]
  unfold Network.mainCheckpoint
  rw [List.append_assoc, List.append_assoc]
  exact inject_append _ _ _ _ (by decide) (by rw [beBytes_length]) (by omega)

theorem window_at {now : Int} {s0 s1 : State} (hload : inject Network.main (hashed al) now s0 Network.mainCheckpoint = .ok s1) (h0 : s0.initHeight = 0)
    {i : Nat} {e : Entry} (he : (window al)[i]? = some e) : getByHeight s1 (136000 + i) = some e := by
  rw [inject_eq now h0] at hload
  rw [← Out.ok.inj hload]
  have c1 := (window_spec (al := al)).1
  unfold getByHeight
  rw [(foldl_save (P := Network.main) now (window al) { s0 with initHeight := 136000 }).2.1, get_foldl_key (fun e => e.height) _ _ _ c1.inj]
  have hh := c1.heights i e he
  cases hf : (window al).find? (fun x => x.height = 136000 + i) with
  | none =>
    rw [List.find?_eq_none] at hf
    exact absurd (by simpa using hh) (hf e (List.mem_iff_getElem?.2 ⟨i, he⟩))
  | some x =>
    have h2 := List.find?_some hf
    simp only [decide_eq_true_eq] at h2
    rw [c1.inj x (List.mem_of_find?_eq_some hf) e (List.mem_iff_getElem?.2 ⟨i, he⟩) (by omega)]
    rfl

/-- A started main network node. -/
structure Started (al : Bool × Bool) (g : Hdr) (s0 : State) : Prop where
  booted : Booted Network.main (hashed al) g s0
  hash : hashed al g = genesisHash
  prev : g.prevBlock = List.replicate 32 0
  work : beNat s0.tip.work ≤ workBelow

theorem Started.of {g : Hdr} {s0 : State} {now : Int} (hg : read Network.mainGenesis = .ok (g, []))
    (hs : initGenesis Network.main (hashed al) now g = .ok s0) : Started al g s0 := by
  have hl : Network.mainGenesis.length = 236 := by decide +kernel
  have hd : g = decoded Network.mainGenesis := by
    rw [read_decoded hl] at hg
    exact (Prod.mk.inj (Out.ok.inj hg)).1.symm
  obtain ⟨g', s', b1, b2, b3, b4⟩ := boot (P := Network.main) al now ⟨by decide +kernel, by decide +kernel⟩ hl (by decide +kernel) main_hash (by decide +kernel) (by decide +kernel)
  rw [hg] at b1
  cases (Prod.mk.inj (Out.ok.inj b1)).1
  rw [hs] at b3
  cases Out.ok.inj b3
  refine ⟨b4, b2, ?_, ?_⟩
  · rw [hd]; decide +kernel
  · obtain ⟨_, w, i1, i2, _⟩ := initGenesis_facts hs
    rw [i2]
    dsimp only
    have : (match calcWork (decoded Network.mainGenesis).bits none with | .ok w => Nat.ble (beNat w) workBelow | _ => false) = true := by decide +kernel
    rw [← hd, i1] at this
    exact Nat.le_of_ble_eq_true this

theorem first_entry : ∃ e es, window al = e :: es ∧ e.hdr.prevBlock = below ∧ e.height = 136000 ∧ e.hdr.time = 1662181193 ∧
    e.hash = beBytes 32 0x0000000000000001f37bd1c9ec229977db99ce47b5b69b4e5afd5f145ec32987 := by
  cases hw : window al with
  | nil => have := window_length (al := al); rw [hw] at this; cases this
  | cons e es =>
    have hc := (window_spec (al := al)).1
    have hh := window_hashes (al := al)
    rw [hw] at hc hh
    cases hc with
    | cons c1 c2 c3 c4 c5 c6 c7 =>
      refine ⟨e, es, rfl, (c5 _ rfl).symm, c1, ?_, ?_⟩
      · have hx : Network.checkpointHeaders.head?.map (fun X => (hdrOf X).time) = some 1662181193 := by decide +kernel
        have hb : (window al).head?.map (fun e => e.hdr.time) = Network.checkpointHeaders.head?.map (fun X => (hdrOf X).time) := by
          unfold window
          cases Network.checkpointHeaders <;> rfl
        rw [hx, hw] at hb
        exact Option.some.inj hb
      · have hx : Checkpoint.hashes.head? = some (leNat (beBytes 32 0x0000000000000001f37bd1c9ec229977db99ce47b5b69b4e5afd5f145ec32987)) := by decide +kernel
        rw [← hh] at hx
        refine leNat_inj ?_ (Option.some.inj hx)
        rw [c2, beBytes_length]
        exact (cache_ok al al _).2

theorem last_entry : ∃ e, (window al).getLast? = some e ∧ e.height = 136149 ∧
    e.hash = beBytes 32 0x0000000000000000909f1e5016c697a6e447353c96e5049b34e3989f6fdc8e47 := by
  have hl := window_length (al := al)
  cases hw : (window al).getLast? with
  | none => rw [List.getLast?_eq_none_iff.1 hw] at hl; cases hl
  | some e =>
    have hi : (window al)[149]? = some e := by rw [← hw, List.getLast?_eq_getElem?, hl]
    refine ⟨e, rfl, by have := window_spec.1.heights 149 e hi; omega, ?_⟩
    have hx : Checkpoint.hashes[149]? = some (leNat (beBytes 32 0x0000000000000000909f1e5016c697a6e447353c96e5049b34e3989f6fdc8e47)) := by decide +kernel
    rw [← window_hashes (al := al), List.getElem?_map, hi] at hx
    refine leNat_inj ?_ (Option.some.inj hx)
    rw [beBytes_length]
    rw [window_spec.1.hash e (List.mem_of_getLast? hw)]
    exact (cache_ok al al _).2

theorem Started.inv {g : Hdr} {s0 : State} (hs : Started al g s0) (now : Int) :
    Inv Network.main (hashed al) (fun b => b = blk s0.tip ∨ ∃ e ∈ window al, b = blk e) [g.prevBlock, below]
      (fun n => if n = 0 then some s0.tip else none) ((window al).foldl (save Network.main now) { s0 with initHeight := 136000 }) := by
  obtain ⟨e0, es, hw, hp, _⟩ := first_entry (al := al)
  obtain ⟨c1, c2, c3, c4⟩ := window_spec (al := al)
  obtain ⟨_, hs1⟩ := hs.booted.start
  obtain ⟨i0, w, i1, i2, i3, i4⟩ := initGenesis_facts hs1
  obtain ⟨g1, g2, g3, g4, g5, g6, g7⟩ := hs.booted.inv
  have hkey := g7.key _ _ g7.tip
  have hgp : AMap.get s0.hashes s0.tip.hdr.prevBlock = none := by
    cases hx : AMap.get s0.hashes s0.tip.hdr.prevBlock with
    | none => rfl
    | some x => exact absurd (i3 _ _ hx).symm (by rw [g1]; exact hs.booted.noLoop)
  have hne : window al ≠ [] := by rw [hw]; exact List.cons_ne_nil _ _
  have := window_inv (P := Network.main) (H := hashed al) now (p := ⟨some below, beBytes 32 workBelow⟩) (es := window al) (h := 136000) (g := s0.tip)
    (r := { s0 with initHeight := 136000 }) (by omega) hne c1 g3 g7.tip
    (by rw [g2, g1]) hkey.2.2.1 hkey.2.2.2 hgp (fun k x hx => initGenesis_only hs1 k x hx) i4
    (fun k x hx => by rw [i3 k x hx, g2]) g4 g5 c3 (fun e he => (c2 e he).1) ?_ ?_ ?_
  · have hh : ((window al).head?.map (·.hdr.prevBlock)).toList = [below] := by rw [hw]; simp [hp]
    rw [g1, hh] at this
    exact this
  · intro e he
    rw [hw] at he
    cases Option.some.inj he
    rw [hp, g2, hs.hash]
    exact ⟨by decide, fun x hx => (window_apart hx).1⟩
  · intro x hx
    rw [g1, hs.prev]
    exact (window_apart hx).2.1
  · intro e he l hl
    refine ⟨c4 e he l hl, ?_⟩
    have := (c2 l (List.mem_of_getLast? hl)).2.2
    have := hs.work
    omega

end Verif.Networks
