import Verif.Lemmas.StorePath
/-
C102: the names of the checkpoint file.
-/
namespace Verif.Props.StorePath
open Verif Verif.StorePath Verif.Spec.StorePath

/-- The name of the file: in the directory, "checkpoint_", the network, ".dat". -/
def file (net : Net) (sep : UInt8) (dir : Bytes) : Bytes := dir ++ [sep] ++ base ++ [0x5f] ++ net.text ++ ext

theorem file_length (net : Net) (sep : UInt8) (dir : Bytes) : (file net sep dir).length = dir.length + net.text.length + 16 := by
  have : base.length = 10 ∧ ext.length = 4 := by decide
  simp only [file, List.length_append, List.length_singleton, this]
  omega

theorem file_nul (net : Net) (sep : UInt8) (dir : Bytes) (hs : sep ≠ 0) (hd : 0 ∉ dir) : 0 ∉ file net sep dir := by
  have h1 : (0 : UInt8) ∉ base ∧ (0 : UInt8) ∉ ext := by decide
  have h2 := (net_small net).2
  simp only [file, List.mem_append, List.mem_singleton]
  rintro (((((h | h) | h) | h) | h) | h)
  · exact hd h
  · exact hs h.symm
  · exact h1.1 h
  · exact absurd h (by decide)
  · exact h2 h
  · exact h1.2 h

theorem accepted (dir : Bytes) (h : accepts true dir = true) : dir.length ≤ 991 := by
  unfold accepts reserved pathMax at h
  simp at h
  omega

/-- What a kind library makes of a height. -/
theorem kind_eq {overlap : Bytes → Bytes → Out Unit Bytes} (hk : Kind overlap) (net : Net) (sep : UInt8) (dir mem : Bytes) (height : Nat) (hs : sep ≠ 0) (hd : 0 ∉ dir)
    (ha : dir.length ≤ 991) (hm : mem.length = 1024) (h0 : 0 < height) :
    (dir.length + net.text.length + 18 + (Addr.decimal 10 height).length ≤ 1024 →
      ∃ r, filename overlap net sep dir mem height = .ok (file net sep dir ++ 0x7e :: Addr.decimal 10 height ++ 0 :: r)) ∧
    (1024 < dir.length + net.text.length + 18 + (Addr.decimal 10 height).length → filename overlap net sep dir mem height = .ub) := by
  have hn := (net_small net).1
  have hl := file_length net sep dir
  obtain ⟨r, e1, e2⟩ := sprintf_spec mem (file net sep dir) (by omega)
  have e3 : filename overlap net sep dir mem height = overlap (file net sep dir ++ 0 :: r) (0x7e :: Addr.decimal 10 height) := by
    unfold filename
    rw [show dir ++ [sep] ++ base ++ [0x5f] ++ net.text ++ ext = file net sep dir from rfl, e1, Out.bind, if_pos h0]
  have e4 : (file net sep dir ++ 0x7e :: Addr.decimal 10 height).length = dir.length + net.text.length + 17 + (Addr.decimal 10 height).length := by
    rw [List.length_append, hl, List.length_cons]; omega
  rw [e3, hk _ _ _ (file_nul net sep dir hs hd), e2, hm, e4]
  constructor
  · intro h
    rw [if_pos (by omega)]
    exact ⟨_, rfl⟩
  · intro h
    rw [if_neg (by omega)]

/-- **C102**, what holds. Missing: see the `_false` theorems. For every directory the daemon accepts, on every network,
whatever was in the array, the name of the checkpoint file is made within the array of 1024 bytes. If the C library
is kind to a call whose argument is its own destination, and the height is below 100000000, the temporary name is
too; it is the lasting one with "~" and the height behind, so that it is in the same directory, is never the lasting
name, and differs from one height to another. -/
theorem C102_names_partial (net : Net) (sep : UInt8) (dir mem : Bytes) (hs : sep ≠ 0) (hd : 0 ∉ dir) (ha : accepts true dir = true) (hm : mem.length = 1024) :
    (∀ overlap, ∃ out, filename overlap net sep dir mem 0 = .ok out ∧ Holds out (file net sep dir) ∧ out.length = 1024) ∧
    (∀ overlap, Kind overlap → ∀ height, 0 < height → height < 100000000 →
      ∃ out ds, filename overlap net sep dir mem height = .ok out ∧ Holds out (file net sep dir ++ 0x7e :: ds) ∧ Digits ds ∧ amount ds = height) := by
  have h1 := accepted dir ha
  have hn := (net_small net).1
  have hl := file_length net sep dir
  have hz := file_nul net sep dir hs hd
  refine ⟨fun overlap => ?_, fun overlap hk height h0 h8 => ?_⟩
  · obtain ⟨r, e1, e2⟩ := sprintf_spec mem (file net sep dir) (by omega)
    refine ⟨_, ?_, ⟨⟨r, rfl⟩, hz⟩, e2.trans hm⟩
    unfold filename
    rw [show dir ++ [sep] ++ base ++ [0x5f] ++ net.text ++ ext = file net sep dir from rfl, e1, Out.bind, if_neg (by decide)]
  · obtain ⟨d1, d2, d3⟩ := decimal_spec 10 height (by omega) (by decide)
    have d4 := (d3 8 (by decide)).2 (by omega)
    obtain ⟨r, e⟩ := (kind_eq hk net sep dir mem height hs hd h1 hm h0).1 (by omega)
    refine ⟨_, Addr.decimal 10 height, e, ⟨⟨r, rfl⟩, ?_⟩, d1, d2⟩
    rw [List.mem_append, List.mem_cons]
    rintro (h | h | h)
    · exact hz h
    · exact absurd h (by decide)
    · exact absurd (d1.2 0 h).1 (by decide)

/-- On the main network there is room for every height there is. -/
theorem C102_main_room {overlap : Bytes → Bytes → Out Unit Bytes} (hk : Kind overlap) (sep : UInt8) (dir mem : Bytes) (hs : sep ≠ 0) (hd : 0 ∉ dir)
    (ha : accepts true dir = true) (hm : mem.length = 1024) (height : Nat) (h0 : 0 < height) (h32 : height < 2 ^ 32) :
    ∃ out ds, filename overlap .main sep dir mem height = .ok out ∧ (∃ r, out = file .main sep dir ++ 0x7e :: ds ++ 0 :: r) ∧ amount ds = height := by
  obtain ⟨-, d2, d3⟩ := decimal_spec 10 height (by omega) (by decide)
  have d4 := (d3 10 (by decide)).2 (by omega)
  obtain ⟨r, e⟩ := (kind_eq hk .main sep dir mem height hs hd (accepted dir ha) hm h0).1 (by
    have := accepted dir ha
    have : Net.main.text.length = 4 := rfl
    omega)
  exact ⟨_, _, e, ⟨r, rfl⟩, d2⟩

/-- **C102** is false as the language is defined: the temporary name is made by a `sprintf` into the array it reads
from, so that to store any checkpoint is undefined. -/
theorem C102_overlap_false (net : Net) (sep : UInt8) (dir tmp path : Bytes) (ha : accepts true dir = true) (hm : tmp.length = 1024) (height : Nat) (h0 : 0 < height) :
    names standard net sep dir tmp path height = .ub := by
  have h1 := accepted dir ha
  have hn := (net_small net).1
  have hl := file_length net sep dir
  obtain ⟨r, e1, -⟩ := sprintf_spec tmp (file net sep dir) (by omega)
  unfold names filename
  rw [show dir ++ [sep] ++ base ++ [0x5f] ++ net.text ++ ext = file net sep dir from rfl, e1, Out.bind, if_pos h0]
  rfl

/-- **C102** is false of a directory the check lets just pass, on the test networks with names of seven letters, at a
height of nine digits: 32 bytes are kept for what may need 35. -/
theorem C102_reserved_false {overlap : Bytes → Bytes → Out Unit Bytes} (hk : Kind overlap) (net : Net) (hnet : net = .testnet ∨ net = .regtest) (sep : UInt8) (dir mem : Bytes)
    (hs : sep ≠ 0) (hd : 0 ∉ dir) (hl : dir.length = 991) (hm : mem.length = 1024) (height : Nat) (h9 : 100000000 ≤ height) (h32 : height < 2 ^ 32) :
    accepts true dir = true ∧ filename overlap net sep dir mem height = .ub := by
  refine ⟨by unfold accepts reserved pathMax; simp; omega, ?_⟩
  obtain ⟨-, -, d3⟩ := decimal_spec 10 height (by omega) (by decide)
  have d4 : ¬(Addr.decimal 10 height).length ≤ 8 := fun h => absurd ((d3 8 (by decide)).1 h) (by omega)
  have hn : net.text.length = 7 := by rcases hnet with rfl | rfl <;> rfl
  exact (kind_eq hk net sep dir mem height hs hd (by omega) hm (by omega)).2 (by omega)

/-- The two names always differ, and so do temporary names of different heights. -/
theorem C102_distinct (f ds es : Bytes) (h : amount ds ≠ amount es) : f ++ 0x7e :: ds ≠ f ∧ f ++ 0x7e :: ds ≠ f ++ 0x7e :: es := by
  constructor
  · intro e
    have := congrArg List.length e
    simp at this
  · intro e
    have := List.append_cancel_left e
    rw [List.cons.injEq] at this
    exact h (by rw [this.2])

/-! Non-vacuity. -/

/-- A kind library, which scans for the NUL first. -/
def kind (mem tail : Bytes) : Out Unit Bytes :=
  let text := mem.takeWhile (· ≠ 0)
  if (text ++ tail).length + 1 ≤ mem.length then .ok (text ++ tail ++ 0 :: mem.drop ((text ++ tail).length + 1)) else .ub

theorem kind_kind : Kind kind := by
  intro text r tail h
  have : (text ++ 0 :: r).takeWhile (· ≠ 0) = text := by
    rw [List.takeWhile_append_of_pos (fun c hc => by
      have : c ≠ 0 := fun e => h (e ▸ hc)
      simpa using this)]
    simp
  unfold kind
  rw [this]

example : accepts true [0x2f, 0x74, 0x6d, 0x70] = true ∧ accepts true (List.replicate 992 0x61) = false ∧ accepts true (List.replicate 991 0x61) = true ∧
    accepts false [0x2f, 0x74, 0x6d, 0x70] = false := by
  unfold accepts
  rw [List.length_replicate, List.length_replicate]
  decide

/-- "d/checkpoint_main.dat~2000", in an array of 30. -/
example : filename kind .main 0x2f [0x64] (List.replicate 30 0xAA) 2000 =
    .ok ([0x64, 0x2f, 0x63, 0x68, 0x65, 0x63, 0x6b, 0x70, 0x6f, 0x69, 0x6e, 0x74, 0x5f, 0x6d, 0x61, 0x69, 0x6e, 0x2e, 0x64, 0x61, 0x74, 0x7e, 0x32, 0x30, 0x30, 0x30, 0,
      0xAA, 0xAA, 0xAA]) := by decide +kernel

example : Digits [0x32, 0x30] ∧ amount [0x32, 0x30] = 20 := by unfold Digits; decide

end Verif.Props.StorePath
