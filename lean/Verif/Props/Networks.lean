import Verif.Lemmas.Networks
import Verif.Lemmas.Eval
/-
The networks hnsd can be built for: the genesis blocks, and the checkpoint built in for the main network.
-/
namespace Verif.Props.Networks
open Verif Verif.Header Verif.HeaderHash Verif.Chain Verif.Store Verif.Spec Verif.Spec.Chain Verif.Networks Verif.Checkpoint Verif.Props.Chain Verif.Props.Store

attribute [local irreducible] HeaderHash.hashed Network.checkpointHeaders

/-! ## The genesis blocks -/

/-- A network: the constants, the genesis block, and its hash as published. The hash's first four bytes are the
network's magic number (src/constants.h:51, 95, 150, 194). -/
structure Net where
  params : Params
  genesis : Bytes
  hash : Nat

/-- The four networks. -/
def networks : List Net :=
  [⟨Network.main, Network.mainGenesis, 0x5b6ef2d3c1f3cdcadfd9a030ba1811efdd17740f14e166489760741d075992e0⟩,
   ⟨Network.testnet, Network.testnetGenesis, 0xb1520dd24372f82ec94ebf8cf9d9b037d419c4aa3575d05dec70aedd1b427901⟩,
   ⟨Network.regtest, Network.regtestGenesis, 0xae3895cf597eff05b19e02a70ceeeecb9dc72dbfe6504a50e9343a72f06a87c5⟩,
   ⟨Network.simnet, Network.simnetGenesis, 0x0e648edc9cddb179014658061ea3f666a45cf44881877ae506e6babefbef6992⟩]

/-- C71. On each network hnsd starts: the genesis block built in decodes and has the published hash, no
assertion fails, and the state is one from which the properties of the chain (C05-C13, C52) hold. -/
theorem C71_start (al : Bool × Bool) (now : Int) : ∀ n ∈ networks, ∃ g s0, read n.genesis = .ok (g, []) ∧
    hashed al g = beBytes 32 n.hash ∧ initGenesis n.params (hashed al) now g = .ok s0 ∧ Booted n.params (hashed al) g s0 := by
  intro n hn
  simp only [networks, List.mem_cons, List.not_mem_nil, or_false] at hn
  rcases hn with rfl | rfl | rfl | rfl
  · exact boot al now ⟨by decide +kernel, by decide +kernel⟩ (by decide +kernel) (by decide +kernel) main_hash (by decide +kernel) (by decide +kernel)
  · exact boot al now ⟨by decide +kernel, by decide +kernel⟩ (by decide +kernel) (by decide +kernel) testnet_hash (by decide +kernel) (by decide +kernel)
  · exact boot al now ⟨by decide +kernel, by decide +kernel⟩ (by decide +kernel) (by decide +kernel) regtest_hash (by decide +kernel) (by decide +kernel)
  · exact boot al now ⟨by decide +kernel, by decide +kernel⟩ (by decide +kernel) (by decide +kernel) simnet_hash (by decide +kernel) (by decide +kernel)

/-- C71. The least difficulty of each network is that of its genesis block, and the limit on targets is the target it
stands for. -/
theorem C71_limit : ∀ n ∈ networks, ∃ g, read n.genesis = .ok (g, []) ∧ g.bits = n.params.bits ∧
    Spec.Difficulty.expand n.params.bits = some (beNat n.params.limit) ∧ n.params.limit.length = 32 := by
  intro n hn
  have h : ∀ n ∈ networks, okWith (fun x => x.2.isEmpty && x.1.bits == n.params.bits) (read n.genesis) = true := by decide +kernel
  have h' : ∀ n ∈ networks, Spec.Difficulty.expand n.params.bits = some (beNat n.params.limit) ∧ n.params.limit.length = 32 := by decide +kernel
  obtain ⟨⟨g, r⟩, h1, h2⟩ := okWith_spec (h n hn)
  simp only [Bool.and_eq_true, List.isEmpty_iff, beq_iff_eq] at h2
  exact ⟨g, by rw [h1, h2.1], h2.2, h' n hn⟩

/-- So the properties of the chain apply to the networks hnsd is built for: a main network node accepts any history
of plausible headers without a failed assertion. -/
example (al : Bool × Bool) (now : Int) : ∃ g s0, initGenesis Network.main (hashed al) now g = .ok s0 ∧
    ∀ ops, Plausible (hashed al) g ops → ∃ s, run Network.main (hashed al) s0 ops = .ok s := by
  obtain ⟨g, s0, _, _, h3, h4⟩ := C71_start al now _ (show (⟨Network.main, Network.mainGenesis, _⟩ : Net) ∈ networks from List.mem_cons_self)
  exact ⟨g, s0, h3, fun ops hops => ⟨_, (h4.run hops).choose_spec.1⟩⟩

/-! ## The checkpoint of the main network -/

variable {al : Bool × Bool} {g : Hdr} {s0 : State} {now0 : Int}

/-- C72. A main network node started with the checkpoint option has the 150 headers built in as its main chain, at
the heights 136000 to 136149: each one decodes, has the header before it as its parent, and is stored under its own
hash. Nothing else but the genesis block is stored. No assertion fails. -/
theorem C72_checkpoint (hg : read Network.mainGenesis = .ok (g, [])) (hs : initGenesis Network.main (hashed al) now0 g = .ok s0) (now : Int) :
    ∃ s1, inject Network.main (hashed al) now s0 Network.mainCheckpoint = .ok s1 ∧
      s1.initHeight = 136000 ∧ s1.height = 136149 ∧ getByHeight s1 136149 = some s1.tip ∧
      s1.tip.hash = beBytes 32 0x0000000000000000909f1e5016c697a6e447353c96e5049b34e3989f6fdc8e47 ∧
      (∀ i X, Network.checkpointHeaders[i]? = some X → ∃ e, getByHeight s1 (136000 + i) = some e ∧ e.height = 136000 + i ∧
        write e.hdr = leBytes 236 X ∧ e.hash = hashed al e.hdr ∧ AMap.get s1.hashes e.hash = some e ∧
        (i ≠ 0 → ∃ p, getByHeight s1 (136000 + i - 1) = some p ∧ e.hdr.prevBlock = p.hash)) ∧
      ∀ k e, AMap.get s1.hashes k = some e → e = s0.tip ∨ 136000 ≤ e.height ∧ e.height < 136150 := by
  have hst := Started.of hg hs
  obtain ⟨i0, w, i1, i2, i3, i4⟩ := initGenesis_facts hs
  obtain ⟨c1, c2, c3, c4⟩ := window_spec (al := al)
  obtain ⟨l, l1, l2, l3⟩ := last_entry (al := al)
  obtain ⟨w1, w2, w3⟩ := getByHash_window (P := Network.main) (r := { s0 with initHeight := 136000 }) (g := s0.tip) now
    (fun k x hx => initGenesis_only hs k x hx) c3
  obtain ⟨f1, f2, f3, f4, f5, f6, f7⟩ := foldl_save (P := Network.main) now (window al) { s0 with initHeight := 136000 }
  have hlen := window_length (al := al)
  have hget : ∀ i e, (window al)[i]? = some e →
      getByHeight ((window al).foldl (save Network.main now) { s0 with initHeight := 136000 }) (136000 + i) = some e :=
    fun i e he => window_at (inject_eq now i0) i0 he
  refine ⟨_, inject_eq now i0, f5, ?_, ?_, ?_, ?_, ?_⟩
  · rw [f7, l1]; exact l2
  · rw [f6, l1]
    exact hget 149 l (by rw [← l1, List.getLast?_eq_getElem?, hlen])
  · rw [f6, l1]; exact l3
  · intro i X hX
    obtain ⟨e, he, hb⟩ : ∃ e, (window al)[i]? = some e ∧ e.hdr = Fast.hdrOf X := entries_get al _ _ _ i X hX
    have hm : e ∈ window al := List.mem_iff_getElem?.2 ⟨i, he⟩
    refine ⟨e, hget i e he, c1.heights i e he, by rw [hb, Fast.write_hdrOf], c1.hash e hm, w1 e hm, fun hi => ?_⟩
    obtain ⟨j, rfl⟩ : ∃ j, i = j + 1 := ⟨i - 1, by omega⟩
    obtain ⟨p, hp⟩ : ∃ p, (window al)[j]? = some p := by
      have := (List.getElem?_eq_some_iff.1 he).1
      exact ⟨_, List.getElem?_eq_getElem (by omega)⟩
    exact ⟨p, hget j p hp, c1.link j p e hp he⟩
  · intro k e he
    rcases w2 k e he with ⟨m, _⟩ | ⟨m, _⟩
    · obtain ⟨i, hi⟩ := List.mem_iff_getElem?.1 m
      have := c1.heights i e hi
      have := (List.getElem?_eq_some_iff.1 hi).1
      exact .inr ⟨by omega, by omega⟩
    · exact .inl m

/-- Such a node. -/
theorem exStarted (al : Bool × Bool) (now0 now : Int) : ∃ g s0 s1, read Network.mainGenesis = .ok (g, []) ∧
    initGenesis Network.main (hashed al) now0 g = .ok s0 ∧ inject Network.main (hashed al) now s0 Network.mainCheckpoint = .ok s1 := by
  obtain ⟨g, s0, h1, _, h3, _⟩ := C71_start al now0 _ (show (⟨Network.main, Network.mainGenesis, _⟩ : Net) ∈ networks from List.mem_cons_self)
  obtain ⟨s1, h, _⟩ := C72_checkpoint (al := al) h1 h3 now
  exact ⟨g, s0, s1, h1, h3, h⟩

example : ∃ g s0 s1, read Network.mainGenesis = .ok (g, []) ∧ initGenesis Network.main (hashed (true, true)) 0 g = .ok s0 ∧
    inject Network.main (hashed (true, true)) 0 s0 Network.mainCheckpoint = .ok s1 ∧ s1.height = 136149 := by
  obtain ⟨g, s0, _, h1, h2, _⟩ := exStarted (true, true) 0 0
  obtain ⟨s1, h4, _, h5, _⟩ := C72_checkpoint h1 h2 0
  exact ⟨g, s0, s1, h1, h2, h4, h5⟩

/-- C72, further on. Whatever history such a node survives, no header is lost, every stored header is stored under
its own hash, and it and its stored ancestors form a chain in which every header is the genesis block, one of the 150
or obeys the rules on top of the ones below; the tip has the most work. (Partial: survival is not guaranteed, see
`C72_abort`, and the history may not contain the header right below the checkpoint.) -/
theorem C72_rules_partial (hg : read Network.mainGenesis = .ok (g, [])) (hs : initGenesis Network.main (hashed al) now0 g = .ok s0) {now : Int}
    {s1 s2 : State} (hload : inject Network.main (hashed al) now s0 Network.mainCheckpoint = .ok s1)
    {ops : List (Int × Hdr)} (hplaus : Plausible (hashed al) g ops) (hbelow : ∀ op ∈ ops, hashed al op.2 ≠ below)
    (hrun : run Network.main (hashed al) s1 ops = .ok s2) :
    (∀ k e, AMap.get s1.hashes k = some e → AMap.get s2.hashes k = some e) ∧
    ∀ k e, AMap.get s2.hashes k = some e → e.hash = k ∧ k = hashed al e.hdr ∧ beNat e.work ≤ beNat s2.tip.work ∧
      ∃ l : List Entry, Path s2.hashes e l ∧ (∀ x ∈ l, AMap.get s2.hashes x.hash = some x) ∧
        ValidChain (rules Network.main) (fun b => b = blk s0.tip ∨ ∃ n x, getByHeight s1 n = some x ∧ 136000 ≤ n ∧ n < 136150 ∧ b = blk x) (l.map blk) := by
  have hst := Started.of hg hs
  obtain ⟨s1', g1, _, _, _, _, g6, _⟩ := C72_checkpoint hg hs now
  rw [hload] at g1
  cases Out.ok.inj g1
  have i0 := (initGenesis_facts hs).1
  have hinv := hst.inv now
  have hload' := hload
  rw [inject_eq now i0] at hload'
  rw [Out.ok.inj hload'] at hinv
  have hops : OpsOK (hashed al) [g.prevBlock, below] ops := by
    intro op hop
    refine ⟨(hplaus op hop).1, ?_⟩
    simp only [List.mem_cons, List.not_mem_nil, or_false, not_or]
    exact ⟨(hplaus op hop).2, hbelow op hop⟩
  rcases run_spec hst.booted.params hst.booted.hash ops hops hinv with ⟨s', q1, q2, q3, q4⟩ | ⟨q1, _⟩
  swap
  · rw [hrun] at q1; cases q1
  rw [hrun] at q1
  cases Out.ok.inj q1
  refine ⟨q4, fun k e he => ?_⟩
  obtain ⟨k1, k2, _⟩ := q2.key k e he
  obtain ⟨l, l1, l2⟩ := q2.path k e he
  refine ⟨k1, k2.symm, q2.best k e he, l, l1, q2.path_mem he l1, ?_⟩
  refine validChain_mono (fun b hb => ?_) l2
  rcases hb with rfl | ⟨e, e1, rfl⟩
  · exact .inl rfl
  · obtain ⟨i, hi⟩ := List.mem_iff_getElem?.1 e1
    have hlt := (List.getElem?_eq_some_iff.1 hi).1
    rw [window_length] at hlt
    have hx := window_at hload i0 hi
    exact .inr ⟨136000 + i, e, hx, by omega, by omega, rfl⟩

/-- The hypotheses are met by the history that consists of the 151st header, if it comes. -/
example (op : Int × Hdr) (h1 : 0 ≤ op.1 + 7200 ∧ op.1 + 7200 < 2 ^ 63) (h2 : hashed al op.2 ≠ below)
    (hg : read Network.mainGenesis = .ok (g, [])) (h3 : hashed al op.2 ≠ g.prevBlock)
    (hs : initGenesis Network.main (hashed al) now0 g = .ok s0) {now : Int} {s1 s2 : State}
    (hload : inject Network.main (hashed al) now s0 Network.mainCheckpoint = .ok s1)
    (hrun : run Network.main (hashed al) s1 [op] = .ok s2) : beNat s1.tip.work ≤ beNat s2.tip.work := by
  have hq := C72_rules_partial hg hs hload (ops := [op]) (by intro o ho; cases List.mem_singleton.1 ho; exact ⟨h1, h3⟩)
    (by intro o ho; cases List.mem_singleton.1 ho; exact h2) hrun
  have ht : AMap.get s1.hashes s1.tip.hash = some s1.tip := by
    have hinv := (Started.of hg hs).inv now
    have i0 := (initGenesis_facts hs).1
    rw [inject_eq now i0] at hload
    rw [Out.ok.inj hload] at hinv
    exact hinv.tip
  exact (hq.2 _ _ (hq.1 _ _ ht)).2.2.1

/-- C72 is false of the code beyond that: one header, which took no work to make, ends a main network node started
with the checkpoint option. The header is 236 bytes that decode; it names the first header of the checkpoint as its
parent and claims the least difficulty; any peer can send it, at any time since September 2022. -/
theorem C72_abort (hg : read Network.mainGenesis = .ok (g, [])) (hs : initGenesis Network.main (hashed al) now0 g = .ok s0) {now : Int}
    {s1 : State} (hload : inject Network.main (hashed al) now s0 Network.mainCheckpoint = .ok s1) :
    ∃ (bytes : Bytes) (h : Hdr), bytes.length = 236 ∧ read bytes = .ok (h, []) ∧
      ∀ now' : Int, 1662181194 ≤ now' → now' < 2 ^ 62 → add Network.main (hashed al) s1 now' h = .ub := by
  have hst := Started.of hg hs
  have i0 := (initGenesis_facts hs).1
  have i3 := initGenesis_facts hs
  obtain ⟨_, _, _, i4, i5, _⟩ := i3
  obtain ⟨c1, c2, c3, c4⟩ := window_spec (al := al)
  obtain ⟨w1, w2, w3⟩ := getByHash_window (P := Network.main) (r := { s0 with initHeight := 136000 }) (g := s0.tip) now
    (fun k x hx => initGenesis_only hs k x hx) c3
  obtain ⟨f1, f2, f3, f4, f5, f6, f7⟩ := foldl_save (P := Network.main) now (window al) { s0 with initHeight := 136000 }
  obtain ⟨e, es, e1, e2, e3, e4, e5⟩ := first_entry (al := al)
  have hm : e ∈ window al := by rw [e1]; exact List.mem_cons_self
  rw [inject_eq now i0] at hload
  cases Out.ok.inj hload
  refine ⟨leBytes 236 evil, Fast.hdrOf evil, by simp, by have := Fast.read_hdrOf evil []; rwa [List.append_nil] at this, fun now' h1 h2 => ?_⟩
  have hnew : ∀ k, (∀ x ∈ window al, x.hash ≠ k) → k ≠ genesisHash →
      AMap.get ((window al).foldl (save Network.main now) { s0 with initHeight := 136000 }).hashes k = none := by
    intro k hk hk'
    rw [w3 k hk]
    cases hx : AMap.get s0.hashes k with
    | none => rfl
    | some x => exact absurd ((i5 _ _ hx).trans hst.hash) hk'
  refine add_on_root (first := e) (w1 e hm) ?_ ?_ (c2 e hm).1 (by omega) ?_ ?_ rfl (.inl rfl) ?_ now' (by omega) ?_
  · rw [e2]
    exact hnew _ (fun x hx => (window_apart hx).1) (by decide)
  · rw [f3]; exact hst.booted.inv.2.2.2.1
  · rw [e5]; decide +kernel
  · rw [evil_hash]
    exact hnew _ (fun x hx => (window_apart hx).2.2.2) (by decide)
  · rw [evil_hash]; decide +kernel
  · rw [e4, show (Fast.hdrOf evil).time = 1662181194 by decide +kernel]
    omega

example (now0 now : Int) : ∃ g s0 s1 h, read Network.mainGenesis = .ok (g, []) ∧ initGenesis Network.main (hashed al) now0 g = .ok s0 ∧
    inject Network.main (hashed al) now s0 Network.mainCheckpoint = .ok s1 ∧ add Network.main (hashed al) s1 1800000000 h = .ub := by
  obtain ⟨g, s0, s1, h1, h2, h3⟩ := exStarted al now0 now
  obtain ⟨_, h, _, _, h4⟩ := C72_abort h1 h2 h3
  exact ⟨g, s0, s1, h, h1, h2, h3, h4 _ (by decide) (by decide)⟩

end Verif.Props.Networks
