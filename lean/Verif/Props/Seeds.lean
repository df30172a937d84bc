import Verif.Lemmas.Seeds
import Mathlib.Data.List.Forall2
/-
C83: seeds and the name of the program given by the user.
-/
namespace Verif.Props.Seeds
open Verif.Seeds Verif.Spec.Seeds
open Verif.Addr (Inet Addr)
open Verif.Addrman (Man keyOf)

/-- C83: the seeds are taken in order, up to the first that is refused; nothing is accessed out of bounds, and
the address manager stays in order. -/
theorem C83_seeds_partial (e : Env) (hI : NoCommas e.I) (m : Man) (hm : Addrman.Inv m) (text : Bytes) (h0 : 0 ∉ text)
    (hl : text.length < 2 ^ 31 - 1) : ∃ m', setSeeds e m (some text) = .ok m' ∧ Addrman.Inv m' ∧ Fed e 0 m (pieces text) m' := by
  obtain ⟨m', h1, h2, h3⟩ := go_fed e hI text [] 0 m hm (by simp)
  refine ⟨m', ?_, h2, by simpa using h3⟩
  show seedsLoop e text (text.length + 1) 0 0 0 m = .ok m'
  rw [loop_go e text h0 hl text 0 0 0 m (Nat.le_refl 0) (Nat.zero_le _) rfl]
  simpa using h1

theorem addAddr_new (e : Env) (k : Nat) (m : Man) (hm : Addrman.Inv m) (a : Addr) (hn : ∀ x ∈ m.addrs, keyOf x.addr ≠ keyOf a)
    (hr : m.addrs.length < 2000) : ∃ m' x, addAddr e k m a = .ok (m', true) ∧ m'.addrs = m.addrs ++ [x] ∧ x.addr = a ∧ x.removed = false := by
  have hg : m.map.get (keyOf a) = none := by
    cases h : m.map.get (keyOf a) with
    | none => rfl
    | some i =>
      obtain ⟨x, hx, hk⟩ := hm.entry h
      exact absurd hk (hn x (List.mem_of_getElem? hx))
  refine ⟨?_, ?_, ?_, ?_, ?_, ?_⟩
  · exact { m with addrs := Addrman.put m.addrs m.addrs.length (Addrman.fresh { time := Addrman.u64 (e.now k), services := 1, addr := a }),
                   map := m.map.set (keyOf a) m.addrs.length }
  · exact Addrman.fresh { time := Addrman.u64 (e.now k), services := 1, addr := a }
  · have h1 : ¬ m.addrs.length = Addrman.maxAddrs := by simp only [Addrman.maxAddrs]; omega
    have h2 : m.addrs.length < Addrman.maxAddrs := hr
    simp only [addAddr, Addrman.addEntry, hg, Addrman.allocEntry, if_neg h1, if_pos h2, Out.bind]
  · simp only [Addrman.put, Nat.lt_irrefl, if_false]
  · rfl
  · rfl

theorem fed_all (e : Env) (ps : List Bytes) : ∀ (as : List Addr) (k : Nat) (m m' : Man), Addrman.Inv m → Fed e k m ps m' →
    List.Forall₂ (Reads e.I) (ps.filter (· ≠ [])) as → (∀ a ∈ as, ∀ x ∈ m.addrs, keyOf x.addr ≠ keyOf a) → (as.map keyOf).Nodup →
    m.addrs.length + as.length ≤ 2000 → ∃ new, m'.addrs = m.addrs ++ new ∧ new.map (·.addr) = as ∧ ∀ x ∈ new, x.removed = false := by
  induction ps with
  | nil =>
    intro as k m m' hm hf hr hn hd hl
    cases hr
    cases hf
    exact ⟨[], by simp⟩
  | cons p ps ih =>
    intro as k m m' hm hf hr hn hd hl
    have key : ∀ {a : Addr}, Reads e.I p a → ∃ as', as = a :: as' ∧ List.Forall₂ (Reads e.I) (ps.filter (· ≠ [])) as' := by
      intro a hra
      rw [List.filter_cons_of_pos (by simp [hra.1])] at hr
      cases hr with
      | cons h1 h2 =>
        have := h1.2.2
        rw [hra.2.2] at this
        cases this
        exact ⟨_, rfl, h2⟩
    cases hf with
    | empty h => exact ih as k m m' hm h (by simpa using hr) hn hd hl
    | bad h =>
      rw [List.filter_cons_of_pos (by simp [h.1])] at hr
      cases hr with
      | cons h1 h2 =>
        rcases h.2 with h3 | h3
        · exact absurd h1.2.1 (by omega)
        · exact absurd h1.2.2 (h3 _)
    | @known _ _ _ _ _ a hra ha =>
      obtain ⟨as', rfl, _⟩ := key hra
      obtain ⟨m1, x, h1, _⟩ := addAddr_new e k m hm a (hn a (by simp)) (by simp at hl; omega)
      rw [ha] at h1; cases h1
    | @added _ _ m2 _ _ _ a hra ha h =>
      obtain ⟨as', rfl, hr'⟩ := key hra
      obtain ⟨m1, x, h1, h2, h3, h4⟩ := addAddr_new e k m hm a (hn a (by simp)) (by simp at hl; omega)
      rw [ha] at h1
      simp only [Out.ok.injEq, Prod.mk.injEq, and_true] at h1
      subst h1
      rename' m2 => m1
      have hm1 : Addrman.Inv m1 := by
        obtain ⟨m2, b, h5, h6, _⟩ := hm.add _ false (e.now k) (e.rnd k)
        rw [show Addrman.addEntry m _ false (e.now k) (e.rnd k) = .ok (_, true) from ha] at h5
        cases h5; exact h6
      simp only [List.map_cons, List.nodup_cons] at hd
      obtain ⟨new, n1, n2, n3⟩ := ih as' (k + 1) _ m' hm1 h hr' (by
        intro a ha' y hy
        rw [h2, List.mem_append, List.mem_singleton] at hy
        rcases hy with hy | rfl
        · exact hn a (by simp [ha']) y hy
        · rw [h3]
          intro hk
          exact hd.1 (hk ▸ List.mem_map_of_mem ha')) hd.2 (by rw [h2]; simp at hl ⊢; omega)
      refine ⟨x :: new, by rw [n1, h2]; simp, by simp [n2, h3], ?_⟩
      intro y hy
      rcases List.mem_cons.1 hy with rfl | hy
      · exact h4
      · exact n3 y hy

/-- C83: if all seeds are addresses, none of them known or given twice, and there is room for them, then they are added, in order, and
nothing else changes. -/
theorem C83_all_partial (e : Env) (hI : NoCommas e.I) (m : Man) (hm : Addrman.Inv m) (text : Bytes) (h0 : 0 ∉ text)
    (hl : text.length < 2 ^ 31 - 1) (as : List Addr) (hr : List.Forall₂ (Reads e.I) ((pieces text).filter (· ≠ [])) as)
    (hn : ∀ a ∈ as, ∀ x ∈ m.addrs, keyOf x.addr ≠ keyOf a) (hd : (as.map keyOf).Nodup) (hroom : m.addrs.length + as.length ≤ 2000) :
    ∃ m' new, setSeeds e m (some text) = .ok m' ∧ m'.addrs = m.addrs ++ new ∧ new.map (·.addr) = as ∧ ∀ x ∈ new, x.removed = false := by
  obtain ⟨m', h1, _, h3⟩ := C83_seeds_partial e hI m hm text h0 hl
  obtain ⟨new, n1, n2, n3⟩ := fed_all e _ as 0 m m' hm h3 hr hn hd hroom
  exact ⟨m', new, h1, n1, n2, n3⟩

/-- C83: after a seed that is not an address all others are ignored, whatever they are. -/
theorem C83_bad_false (e : Env) (hI : NoCommas e.I) (m : Man) (hm : Addrman.Inv m) (p rest : Bytes) (hp : Bad e.I p) (hc : 0x2c ∉ p)
    (h0 : 0 ∉ p ++ 0x2c :: rest) (hl : (p ++ 0x2c :: rest).length < 2 ^ 31 - 1) : setSeeds e m (some (p ++ 0x2c :: rest)) = .ok m := by
  obtain ⟨m', h1, _, h3⟩ := C83_seeds_partial e hI m hm _ h0 hl
  rw [pieces_append p rest hc] at h3
  rw [h1]
  cases h3 with
  | empty h => exact absurd rfl hp.1
  | bad _ => rfl
  | known hr _ =>
    rcases hp.2 with h | h
    · exact absurd hr.2.1 (by omega)
    · exact absurd hr.2.2 (h _)
  | added hr _ _ =>
    rcases hp.2 with h | h
    · exact absurd hr.2.1 (by omega)
    · exact absurd hr.2.2 (h _)

/-- C83: after a seed the manager has had at the same time or later all others are ignored: no address gets
known. -/
theorem C83_known_false (e : Env) (hI : NoCommas e.I) (m : Man) (hm : Addrman.Inv m) (p rest : Bytes) (a : Addr) (hr : Reads e.I p a)
    (hc : 0x2c ∉ p) (i : Nat) (x : Addrman.Entry) (hx : m.addrs[i]? = some x) (hk : keyOf x.addr = keyOf a) (ht : x.time ≠ 0)
    (hz : Addrman.u64 (e.now 0) ≠ 0) (hu : Addrman.u64 (e.now 0) ≤ x.time)
    (h0 : 0 ∉ p ++ 0x2c :: rest) (hl : (p ++ 0x2c :: rest).length < 2 ^ 31 - 1) :
    ∃ m', setSeeds e m (some (p ++ 0x2c :: rest)) = .ok m' ∧ m'.map = m.map ∧ m'.addrs.map (·.addr) = m.addrs.map (·.addr) := by
  obtain ⟨m', h1, _, h3⟩ := C83_seeds_partial e hI m hm _ h0 hl
  refine ⟨m', h1, ?_⟩
  rw [pieces_append p rest hc] at h3
  have hg : m.map.get (keyOf a) = some i := (hm.idx (keyOf a) i).2 ⟨x, hx, hk⟩
  have hrt : ∀ na : Addr.Netaddr, na.time = Addrman.u64 (e.now 0) → (Addrman.refresh x na false (e.now 0)).time ≠ 0 ∧
      na.time ≤ (Addrman.refresh x na false (e.now 0)).time := by
    intro na hna
    simp only [Addrman.refresh]
    generalize Addrman.u64 (_ - _ - _) = t
    split
    · rw [hna]; exact ⟨hz, Nat.le_refl _⟩
    · rw [hna]; exact ⟨ht, hu⟩
  have hadd : ∃ m1, addAddr e 0 m a = .ok (m1, false) ∧ m1.map = m.map ∧ m1.addrs.map (·.addr) = m.addrs.map (·.addr) := by
    refine ⟨?_, ?_, ?_, ?_⟩
    · exact { m with addrs := m.addrs.set i (Addrman.refresh x { time := Addrman.u64 (e.now 0), services := 1, addr := a } false (e.now 0)) }
    · simp only [addAddr, Addrman.addEntry, hg, hx, Addrman.sawAgain]
      rw [if_pos (hrt _ rfl)]
      rfl
    · rfl
    · simp only
      apply List.ext_getElem?
      intro j
      rw [List.getElem?_map, List.getElem?_map, List.getElem?_set]
      by_cases hj : i = j
      · subst hj
        rw [hx]
        have : i < m.addrs.length := by
          rcases Nat.lt_or_ge i m.addrs.length with h | h
          · exact h
          · rw [List.getElem?_eq_none h] at hx; cases hx
        simp [this, Addrman.refresh]
      · simp [hj]
  obtain ⟨m1, h4, h5, h6⟩ := hadd
  have ra : ∀ {b}, Reads e.I p b → b = a := by
    intro b hb
    have := hb.2.2
    rw [hr.2.2] at this; cases this; rfl
  cases h3 with
  | empty h => exact absurd rfl hr.1
  | bad h =>
    rcases h.2 with h | h
    · exact absurd hr.2.1 (by omega)
    · exact absurd hr.2.2 (h _)
  | known hr' ha =>
    obtain rfl := ra hr'
    rw [h4] at ha; cases ha; exact ⟨h5, h6⟩
  | added hr' ha _ =>
    obtain rfl := ra hr'
    rw [h4] at ha; cases ha

theorem strchr_isSome (c : UInt8) (s : Bytes) : (Addr.strchr c s).isSome = true ↔ c ∈ s := by
  induction s with
  | nil => simp [Addr.strchr]
  | cons x s ih =>
    simp only [Addr.strchr, List.mem_cons]
    split
    · rename_i h; simp [h]
    · rename_i h; rw [Option.isSome_map, ih]; simp [Ne.symm h]

/-- C83: a name of the program is accepted just if it has no slash and fits the version message; it is put after the
program's own, and the buffer is not exceeded. -/
theorem C83_agent (base ua : Bytes) :
    (setAgent base none = .ok base) ∧
    ((0x2f ∉ ua ∧ base.length + ua.length + 1 ≤ 255) → setAgent base (some ua) = .ok (base ++ ua ++ [0x2f])) ∧
    (¬ (0x2f ∉ ua ∧ base.length + ua.length + 1 ≤ 255) → setAgent base (some ua) = .err ()) := by
  refine ⟨rfl, ?_, ?_⟩
  · rintro ⟨h1, h2⟩
    have h3 : ¬ (Addr.strchr 0x2f ua).isSome = true := by rw [strchr_isSome]; exact h1
    have h4 : ¬ base.length + ua.length + 1 > maxAgent := by simp only [maxAgent]; omega
    simp only [setAgent]
    rw [if_neg h3, if_neg h4, strcat, if_pos (by omega)]
    simp only [Out.bind]
    rw [strcat, if_pos (by simp only [List.length_append, List.length_singleton]; omega)]
  · intro h
    simp only [setAgent, strchr_isSome]
    by_cases h1 : 0x2f ∈ ua
    · rw [if_pos h1]
    · have h2 : base.length + ua.length + 1 > maxAgent := by
        simp only [maxAgent]
        rcases Nat.lt_or_ge 255 (base.length + ua.length + 1) with h3 | h3
        · exact h3
        · exact absurd ⟨h1, h3⟩ h
      rw [if_neg h1, if_pos h2]

/-- C83: the number of connections is from 1 to 1000. -/
theorem C83_size (n : Int) : (1 ≤ n ∧ n ≤ 1000 → setSize n = some n.toNat) ∧ (¬ (1 ≤ n ∧ n ≤ 1000) → setSize n = none) := by
  constructor
  · rintro ⟨h1, h2⟩
    rw [setSize, if_neg (by omega)]
  · intro h
    rw [setSize, if_pos (by omega)]

/-! ### Examples -/

/-- An `Inet` that knows "1" and "2". -/
def exInet : Inet where
  pton4 s := if s = [0x31] then some [10, 0, 0, 1] else if s = [0x32] then some [10, 0, 0, 2] else none
  pton6 _ := none
  ntop4 _ := [0x31]
  ntop6 _ := []

def exEnv : Env := ⟨exInet, fun _ => 1000, fun _ _ => 0⟩

example : NoCommas exInet := by
  intro s hs
  refine ⟨?_, rfl⟩
  simp only [exInet]
  split
  · rename_i h; rw [h] at hs; simp at hs
  · split
    · rename_i h; rw [h] at hs; simp at hs
    · rfl

example : Addrman.Inv Addrman.init := Addrman.Inv.init

/-- "1,,2" -/
example : pieces [0x31, 0x2c, 0x2c, 0x32] = [[0x31], [], [0x32]] := by decide

example : ((setSeeds exEnv Addrman.init (some [0x31, 0x2c, 0x2c, 0x32])).bind fun m => .ok (m.addrs.map fun x => x.addr.ip.take 16)) =
    Out.ok [[0, 0, 0, 0, 0, 0, 0, 0, 0, 0, 0xff, 0xff, 10, 0, 0, 1], [0, 0, 0, 0, 0, 0, 0, 0, 0, 0, 0xff, 0xff, 10, 0, 0, 2]] := by decide

/-- "3,2": the second is lost. -/
example : ((setSeeds exEnv Addrman.init (some [0x33, 0x2c, 0x32])).bind fun m => .ok (m.addrs.map fun x => x.addr.ip.take 16)) = Out.ok ([] : List Bytes) := by decide
example : Bad exInet [0x33] := ⟨by simp, Or.inr fun a => by
  have : Addr.fromString exInet [0x33] 0 = .err () := by decide
  rw [this]; simp⟩

/-- "1,1,2": the third is lost. -/
example : ((setSeeds exEnv Addrman.init (some [0x31, 0x2c, 0x31, 0x2c, 0x32])).bind fun m => .ok m.addrs.length) = Out.ok 1 := by decide

/-- "/hnsd:2/" and "x" -/
example : setAgent [0x2f, 0x68, 0x6e, 0x73, 0x64, 0x3a, 0x32, 0x2f] (some [0x78]) =
    .ok [0x2f, 0x68, 0x6e, 0x73, 0x64, 0x3a, 0x32, 0x2f, 0x78, 0x2f] := by decide

end Verif.Props.Seeds
