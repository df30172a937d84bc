import Verif.Lemmas.HMap
/-
The invariant of the hash table, and what each call does to it.
-/
namespace Verif.HMap
open Verif.Spec.HMap

section
variable {κ ν : Type} {F : Fns κ}

/-- No two pairs have equal keys. -/
def Distinct (F : Fns κ) (d : List (κ × ν)) : Prop := d.Pairwise fun a b => F.eq a.1 b.1 = false

/-- A table and the dictionary it stands for. -/
structure Inv (F : Fns κ) (m : Table κ ν) (d : List (κ × ν)) : Prop where
  n : m.n = 0 ∨ ∃ k, 2 ≤ k ∧ k ≤ 31 ∧ m.n = 2 ^ k
  upper : m.upper = upperOf m.n
  occ : m.occ = used m.flags m.n
  le : m.occ ≤ m.upper
  size : m.size = d.length
  cells : ∀ i, i < m.n → m.flags i = .live → ∃ k v, m.keys i = some k ∧ m.vals i = some v ∧ Path F m.flags m.n k i
  perm : (entries m.flags m.keys m.vals m.n).Perm d
  distinct : Distinct F d

theorem ne_symm (hF : Lawful F) {a b : κ} (h : F.eq a b = false) : F.eq b a = false := by
  cases hb : F.eq b a with
  | false => rfl
  | true => rw [hF.symm _ _ hb] at h; cases h

theorem Distinct.mem (hF : Lawful F) {d : List (κ × ν)} (hd : Distinct F d) {e e' : κ × ν} {k : κ} (h : e ∈ d) (h' : e' ∈ d)
    (hk : F.eq e.1 k = true) (hk' : F.eq e'.1 k = true) : e = e' := by
  induction d with
  | nil => cases h
  | cons a d ih =>
    have hee : F.eq e.1 e'.1 = true := hF.trans _ _ _ hk (hF.symm _ _ hk')
    obtain ⟨h1, h2⟩ := List.pairwise_cons.1 hd
    rcases List.mem_cons.1 h with ha | hm
    · rcases List.mem_cons.1 h' with ha' | hm'
      · rw [ha, ha']
      · rw [ha, h1 _ hm'] at hee; cases hee
    · rcases List.mem_cons.1 h' with ha' | hm'
      · rw [ha', ne_symm hF (h1 _ hm)] at hee; cases hee
      · exact ih h2 hm hm'

theorem find_mem (hF : Lawful F) {d : List (κ × ν)} (hd : Distinct F d) {e : κ × ν} {k : κ} (h : e ∈ d) (hk : F.eq e.1 k = true) :
    find F d k = some e.2 := by
  unfold find
  cases hf : d.find? fun e => F.eq e.1 k with
  | none => exact absurd hk (List.find?_eq_none.1 hf e h)
  | some e' =>
    have := List.find?_some hf
    rw [hd.mem hF h (List.mem_of_find?_eq_some hf) hk this]; rfl

theorem find_none {d : List (κ × ν)} {k : κ} (h : ∀ e ∈ d, F.eq e.1 k = false) : find F d k = none := by
  unfold find
  rw [List.find?_eq_none.2 fun e he => by rw [h e he]; decide]
  rfl

theorem without_none {d : List (κ × ν)} {k : κ} (h : ∀ e ∈ d, F.eq e.1 k = false) : without F d k = d :=
  List.filter_eq_self.2 fun e he => by rw [h e he]; rfl

theorem without_mem (hF : Lawful F) {d : List (κ × ν)} (hd : Distinct F d) {e : κ × ν} {k : κ} (h : e ∈ d) (hk : F.eq e.1 k = true) :
    d.Perm (e :: without F d k) := by
  induction d with
  | nil => cases h
  | cons a d ih =>
    obtain ⟨h1, h2⟩ := List.pairwise_cons.1 hd
    have hne : ∀ x ∈ d, F.eq x.1 a.1 = false := fun x hx => ne_symm hF (h1 x hx)
    unfold without
    rw [List.filter_cons]
    rcases List.mem_cons.1 h with rfl | h
    · rw [if_neg (by rw [hk]; decide)]
      have := without_none (F := F) (d := d) (k := k) fun x hx => by
        cases hc : F.eq x.1 k with
        | false => rfl
        | true => exact absurd (hne x hx) (by rw [hF.trans _ _ _ hc (hF.symm _ _ hk)]; decide)
      rw [show d.filter (fun e => !F.eq e.1 k) = d from this]
    · have ha : F.eq a.1 k = false := by
        cases hc : F.eq a.1 k with
        | false => rfl
        | true =>
          have h3 := h1 e h
          rw [hF.trans _ _ _ hc (hF.symm _ _ hk)] at h3; cases h3
      rw [if_pos (by rw [ha]; rfl)]
      exact ((ih h2 h).cons a).trans (List.Perm.swap ..)

theorem distinct_set (hF : Lawful F) {d : List (κ × ν)} (hd : Distinct F d) (k : κ) (v : ν) : Distinct F ((k, v) :: without F d k) := by
  refine List.pairwise_cons.2 ⟨fun e he => ?_, hd.filter _⟩
  have := (List.mem_filter.1 he).2
  apply ne_symm hF
  cases hc : F.eq e.1 k with
  | false => rfl
  | true => rw [hc] at this; cases this

theorem cell_live {fl : Nat → Flag} {keys : Nat → Option κ} {vals : Nat → Option ν} {i : Nat} {k : κ} {v : ν} (h : fl i = .live)
    (hk : keys i = some k) (hv : vals i = some v) : cell fl keys vals i = some (k, v) := by
  unfold cell
  rw [if_pos h, hk, hv]; rfl

theorem cell_dead {fl : Nat → Flag} {keys : Nat → Option κ} {vals : Nat → Option ν} {i : Nat} (h : fl i ≠ .live) : cell fl keys vals i = none :=
  if_neg h

/-- Changing one bucket changes the entries by what it held and holds. -/
theorem entries_upd {fl fl' : Nat → Flag} {keys keys' : Nat → Option κ} {vals vals' : Nat → Option ν} {n x : Nat} (hx : x < n)
    (h1 : ∀ y, y ≠ x → fl' y = fl y) (h2 : ∀ y, y ≠ x → keys' y = keys y) (h3 : ∀ y, y ≠ x → vals' y = vals y) :
    ((cell fl keys vals x).toList ++ entries fl' keys' vals' n).Perm ((cell fl' keys' vals' x).toList ++ entries fl keys vals n) :=
  filterMap_upd List.nodup_range (List.mem_range.2 hx) fun y hy => by unfold cell; rw [h1 y hy, h2 y hy, h3 y hy]

theorem entries_same {fl fl' : Nat → Flag} {keys keys' : Nat → Option κ} {vals vals' : Nat → Option ν} {n x : Nat} (hx : ¬ x < n)
    (h1 : ∀ y, y ≠ x → fl' y = fl y) (h2 : ∀ y, y ≠ x → keys' y = keys y) (h3 : ∀ y, y ≠ x → vals' y = vals y) :
    entries fl' keys' vals' n = entries fl keys vals n :=
  List.filterMap_congr fun y hy => by
    have : y ≠ x := fun e => hx (e ▸ List.mem_range.1 hy)
    unfold cell; rw [h1 y this, h2 y this, h3 y this]

/-- The state while rehashing `n` buckets into `2^k`; `hand` is what is being placed. -/
structure RInv (F : Fns κ) (n k : Nat) (s : Re κ ν) (hand d : List (κ × ν)) : Prop where
  two : ∀ i, s.newFlags i ≠ .del
  old : ∀ i, i < n → s.flags i = .live → ∃ k v, s.keys i = some k ∧ s.vals i = some v
  sep : ∀ i, i < n → s.flags i = .live → s.newFlags i = .empty
  new : ∀ i, i < 2 ^ k → s.newFlags i = .live →
    ∃ k' v, s.keys i = some k' ∧ s.vals i = some v ∧ Path F s.newFlags (2 ^ k) k' i
  perm : (entries s.flags s.keys s.vals n ++ (entries s.newFlags s.keys s.vals (2 ^ k) ++ hand)).Perm d

theorem Path.mono {fl fl' : Nat → Flag} {n : Nat} {k : κ} {i : Nat} (h : Path F fl n k i) (hm : ∀ j, fl j ≠ .empty → fl' j ≠ .empty) :
    Path F fl' n k i := by
  obtain ⟨s, h1, h2⟩ := h
  exact ⟨s, h1, fun t ht => hm _ (h2 t ht)⟩

theorem RInv.used {n k : Nat} {s : Re κ ν} {hand d : List (κ × ν)} (h : RInv F n k s hand d) :
    used s.newFlags (2 ^ k) ≤ (entries s.newFlags s.keys s.vals (2 ^ k)).length :=
  used_le_entries fun i hi he => by
    have hl : s.newFlags i = .live := by
      cases hc : s.newFlags i with
      | empty => exact absurd hc he
      | del => exact absurd hc (h.two i)
      | live => rfl
    obtain ⟨k', v, h1, h2, _⟩ := h.new i hi hl
    rw [cell_live hl h1 h2]; rfl

/-- Placing one pair; what is kicked out is in hand next. -/
theorem kick_ok {n k : Nat} (hk : k ≤ 32) {d : List (κ × ν)} (hd : d.length < 2 ^ k) :
    ∀ {fuel : Nat} {s : Re κ ν} {e : κ × ν}, RInv F n k s [e] d → (entries s.flags s.keys s.vals n).length < fuel →
    ∃ s', kick F n (2 ^ k) fuel s e = .ok s' ∧ RInv F n k s' [] d ∧ (∀ i, s.flags i ≠ .live → s'.flags i ≠ .live)
  | 0, s, e, h, hf => by omega
  | fuel + 1, s, e, h, hf => by
    have hlen := h.perm.length_eq
    simp only [List.length_append, List.length_cons, List.length_nil] at hlen
    have hu := h.used
    obtain ⟨f, hf1, hf2⟩ := used_lt (show used s.newFlags (2 ^ k) < 2 ^ k by omega)
    obtain ⟨t, ht, he, hfst⟩ := first_pos (F.h e.1).toNat (p := fun i => s.newFlags i = .empty) hf1 hf2
    have hp := place_eq (nf := s.newFlags) (fuel := 2 * 2 ^ k) hk ht he hfst (Nat.zero_le t) (by omega)
    rw [kick, pos_zero, hp]
    simp only [Out.bind]
    generalize hi : pos (2 ^ k) (F.h e.1).toNat t = i at *
    have hik : i < 2 ^ k := hi ▸ pos_lt
    have hmono : ∀ j, s.newFlags j ≠ .empty → upd s.newFlags i .live j ≠ .empty := fun j hj => by
      by_cases hji : j = i
      · rw [hji, upd_same]; decide
      · rw [upd_other _ _ hji]; exact hj
    have hpath : Path F (upd s.newFlags i .live) (2 ^ k) e.1 i := ⟨t, hi.symm, fun u hu => hmono _ (hfst u hu)⟩
    -- the new entries
    have hnew := entries_upd (fl := s.newFlags) (fl' := upd s.newFlags i .live) (keys := s.keys) (keys' := upd s.keys i (some e.1))
      (vals := s.vals) (vals' := upd s.vals i (some e.2)) hik (fun y hy => upd_other _ _ hy) (fun y hy => upd_other _ _ hy) (fun y hy => upd_other _ _ hy)
    rw [cell_dead (by rw [he]; decide), cell_live (upd_same ..) (upd_same ..) (upd_same ..)] at hnew
    simp only [Option.toList, List.nil_append, List.cons_append] at hnew
    have two' : ∀ j, upd s.newFlags i .live j ≠ .del := fun j => by
      by_cases hji : j = i
      · rw [hji, upd_same]; decide
      · rw [upd_other _ _ hji]; exact h.two j
    have new' : ∀ j, j < 2 ^ k → upd s.newFlags i .live j = .live →
        ∃ k' v, upd s.keys i (some e.1) j = some k' ∧ upd s.vals i (some e.2) j = some v ∧ Path F (upd s.newFlags i .live) (2 ^ k) k' j := by
      intro j hj hl
      by_cases hji : j = i
      · subst hji
        exact ⟨e.1, e.2, upd_same .., upd_same .., hpath⟩
      · rw [upd_other _ _ hji] at hl
        obtain ⟨k', v, h1, h2, h3⟩ := h.new j hj hl
        exact ⟨k', v, by rw [upd_other _ _ hji, h1], by rw [upd_other _ _ hji, h2], h3.mono hmono⟩
    by_cases hold : i < n ∧ s.flags i = .live
    · rw [if_pos hold]
      obtain ⟨k0, v0, hk0, hv0⟩ := h.old i hold.1 hold.2
      rw [hk0, hv0]
      dsimp only
      have hol := entries_upd (fl := s.flags) (fl' := upd s.flags i .del) (keys := s.keys) (keys' := upd s.keys i (some e.1))
        (vals := s.vals) (vals' := upd s.vals i (some e.2)) hold.1 (fun y hy => upd_other _ _ hy) (fun y hy => upd_other _ _ hy) (fun y hy => upd_other _ _ hy)
      rw [cell_live hold.2 hk0 hv0, cell_dead (fl := upd s.flags i .del) (by rw [upd_same]; decide)] at hol
      simp only [Option.toList, List.nil_append, List.cons_append] at hol
      have hl2 := hol.length_eq
      simp only [List.length_cons] at hl2
      obtain ⟨s', h1, h2, h3⟩ := kick_ok (n := n) hk hd (fuel := fuel) (e := (k0, v0))
        (s := ⟨upd s.flags i .del, upd s.newFlags i .live, upd s.keys i (some e.1), upd s.vals i (some e.2)⟩)
        ⟨two', by
          intro j hj hl
          have hji : j ≠ i := fun hc => by subst hc; dsimp only at hl; rw [upd_same] at hl; cases hl
          dsimp only at hl ⊢
          rw [upd_other _ _ hji] at hl
          obtain ⟨k', v, h1, h2⟩ := h.old j hj hl
          exact ⟨k', v, by rw [upd_other _ _ hji, h1], by rw [upd_other _ _ hji, h2]⟩, by
          intro j hj hl
          have hji : j ≠ i := fun hc => by subst hc; dsimp only at hl; rw [upd_same] at hl; cases hl
          dsimp only at hl ⊢
          rw [upd_other _ _ hji] at hl ⊢
          exact h.sep j hj hl, new', by
          dsimp only
          refine List.Perm.trans ?_ h.perm
          refine ((hnew.append_right _).append_left _).trans ?_
          refine List.Perm.trans ?_ ((hol.append_right _))
          simp only [List.cons_append]
          -- O' ++ e :: (N ++ [o]) ~ o :: (O' ++ (N ++ [e]))
          refine List.perm_middle.trans ?_
          refine List.Perm.trans ?_ (List.perm_middle (a := (k0, v0)) (l₁ := ([] : List (κ × ν)))).symm
          simp only [List.nil_append]
          rw [← List.append_assoc, ← List.append_assoc]
          exact ((List.perm_append_comm (l₁ := _) (l₂ := [(k0, v0)])).cons e).trans
            ((List.Perm.swap ..).trans ((List.perm_append_comm (l₁ := [e])).cons _))⟩
        (by dsimp only; omega)
      refine ⟨s', h1, h2, fun j hj => h3 j ?_⟩
      dsimp only
      by_cases hji : j = i
      · rw [hji, upd_same]; decide
      · rw [upd_other _ _ hji]; exact hj
    · rw [if_neg hold]
      refine ⟨_, rfl, ⟨two', ?_, ?_, new', ?_⟩, fun j hj => hj⟩
      · intro j hj hl
        dsimp only at hl ⊢
        have hji : j ≠ i := fun hc => hold ⟨hc ▸ hj, hc ▸ hl⟩
        obtain ⟨k', v, h1, h2⟩ := h.old j hj hl
        exact ⟨k', v, by rw [upd_other _ _ hji, h1], by rw [upd_other _ _ hji, h2]⟩
      · intro j hj hl
        dsimp only at hl ⊢
        have hji : j ≠ i := fun hc => hold ⟨hc ▸ hj, hc ▸ hl⟩
        rw [upd_other _ _ hji]
        exact h.sep j hj hl
      · dsimp only
        have hol : (entries s.flags (upd s.keys i (some e.1)) (upd s.vals i (some e.2)) n).Perm (entries s.flags s.keys s.vals n) := by
          by_cases hin : i < n
          · have hol := entries_upd (fl := s.flags) (fl' := s.flags) (keys := s.keys) (keys' := upd s.keys i (some e.1))
              (vals := s.vals) (vals' := upd s.vals i (some e.2)) hin (fun y _ => rfl) (fun y hy => upd_other _ _ hy) (fun y hy => upd_other _ _ hy)
            have hdead : s.flags i ≠ .live := fun hc => hold ⟨hin, hc⟩
            rw [cell_dead hdead, cell_dead hdead] at hol
            exact hol
          · rw [entries_same hin (fun y _ => rfl) (fun y hy => upd_other _ _ hy) (fun y hy => upd_other _ _ hy)]
        refine List.Perm.trans ?_ h.perm
        refine hol.append ?_
        rw [List.append_nil]
        exact hnew.trans (List.perm_append_comm (l₁ := [e]))

theorem rehash_ok {n k : Nat} (hk : k ≤ 32) {d : List (κ × ν)} (hd : d.length < 2 ^ k) :
    ∀ {left : Nat} {s : Re κ ν}, left ≤ n → RInv F n k s [] d → (∀ i, i < n - left → s.flags i ≠ .live) →
    ∃ s', rehash F n (2 ^ k) left s = .ok s' ∧ RInv F n k s' [] d ∧ ∀ i, i < n → s'.flags i ≠ .live
  | 0, s, _, h, hf => ⟨s, rfl, h, fun i hi => hf i (by omega)⟩
  | left + 1, s, hl, h, hf => by
    rw [rehash]
    generalize hj : n - (left + 1) = j at *
    by_cases hlv : s.flags j = .live
    · obtain ⟨k0, v0, hk0, hv0⟩ := h.old j (by omega) hlv
      rw [if_pos hlv, hk0, hv0]
      dsimp only
      have hol := entries_upd (fl := s.flags) (fl' := upd s.flags j .del) (keys := s.keys) (keys' := s.keys)
        (vals := s.vals) (vals' := s.vals) (show j < n by omega) (fun y hy => upd_other _ _ hy) (fun y _ => rfl) (fun y _ => rfl)
      rw [cell_live hlv hk0 hv0, cell_dead (fl := upd s.flags j .del) (by rw [upd_same]; decide)] at hol
      simp only [Option.toList, List.nil_append, List.cons_append] at hol
      have hne : ∀ i, upd s.flags j .del i = .live → i ≠ j := fun i hi hc => by rw [hc, upd_same] at hi; cases hi
      have h' : RInv F n k { s with flags := upd s.flags j .del } [(k0, v0)] d := by
        refine ⟨h.two, fun i hi hl => ?_, fun i hi hl => ?_, h.new, ?_⟩
        · dsimp only at hl
          rw [upd_other _ _ (hne i hl)] at hl
          exact h.old i hi hl
        · dsimp only at hl
          rw [upd_other _ _ (hne i hl)] at hl
          exact h.sep i hi hl
        · dsimp only
          refine List.Perm.trans ?_ h.perm
          rw [List.append_nil]
          refine List.Perm.trans ?_ (hol.append_right _)
          rw [← List.append_assoc]
          exact List.perm_append_comm
      have hlen : (entries (upd s.flags j .del) s.keys s.vals n).length < n + 1 := by
        have := List.length_filterMap_le (cell (upd s.flags j .del) s.keys s.vals) (List.range n)
        rw [List.length_range] at this
        exact Nat.lt_succ_of_le this
      obtain ⟨s1, e1, i1, k1⟩ := kick_ok hk hd h' hlen
      rw [e1]
      simp only [Out.bind]
      refine rehash_ok hk hd (by omega) i1 fun i hi => k1 i ?_
      dsimp only
      by_cases hij : i = j
      · rw [hij, upd_same]; decide
      · rw [upd_other _ _ hij]
        exact hf i (by omega)
    · rw [if_neg hlv]
      refine rehash_ok hk hd (by omega) h fun i hi => ?_
      by_cases hij : i = j
      · rw [hij]; exact hlv
      · exact hf i (by omega)

theorem entries_dead {fl : Nat → Flag} {keys : Nat → Option κ} {vals : Nat → Option ν} {n : Nat} (h : ∀ i, i < n → fl i ≠ .live) :
    entries fl keys vals n = [] :=
  List.filterMap_eq_nil_iff.2 fun i hi => cell_dead (h i (List.mem_range.1 hi))

theorem resize_ok {m : Table κ ν} {d : List (κ × ν)} (h : Inv F m d) {want k : Nat} (h2 : 2 ≤ k) (hk : k ≤ 31)
    (hw : roundup want = 2 ^ k ∨ (roundup want < 4 ∧ k = 2)) (hs : m.size < upperOf (2 ^ k)) (mem : Bool) :
    (mem = false ∧ resize F m want mem = .ok none) ∨
    ∃ m', resize F m want mem = .ok (some m') ∧ Inv F m' d ∧ m'.occ < m'.upper := by
  have h4 : 2 ^ 2 ≤ 2 ^ k := Nat.pow_le_pow_right (by decide) h2
  have hnew : (if roundup want < 4 then 4 else roundup want) = 2 ^ k := by
    rcases hw with hw | ⟨hw, rfl⟩
    · rw [if_neg (by omega), hw]
    · rw [if_pos hw]; rfl
  unfold resize
  dsimp only
  rw [hnew, if_neg (by omega)]
  cases mem with
  | false => exact Or.inl ⟨rfl, rfl⟩
  | true =>
    have hd : d.length < 2 ^ k := by
      have := upperOf_lt h2
      have := h.size
      omega
    have hi : RInv F m.n k ⟨m.flags, fun _ => .empty, m.keys, m.vals⟩ [] d := by
      refine ⟨fun i => (by intro hc; cases hc), fun i hi hl => ?_, fun i _ _ => rfl, fun i _ hl => (by cases hl), ?_⟩
      · obtain ⟨k', v, h1, h2, _⟩ := h.cells i hi hl
        exact ⟨k', v, h1, h2⟩
      · dsimp only
        rw [entries_dead (fl := fun _ => Flag.empty) fun i _ => by decide, List.append_nil, List.append_nil]
        exact h.perm
    obtain ⟨s, e1, i1, f1⟩ := rehash_ok (by omega) hd (Nat.le_refl m.n) hi (fun i hi => by omega)
    right
    refine ⟨⟨2 ^ k, m.size, m.size, upperOf (2 ^ k), s.newFlags, s.keys, s.vals⟩, ?_, ?_, hs⟩
    · rw [if_neg (by decide), e1]; rfl
    · have hp := i1.perm
      rw [entries_dead f1, List.nil_append, List.append_nil] at hp
      refine ⟨Or.inr ⟨k, h2, hk, rfl⟩, rfl, ?_, Nat.le_of_lt hs, h.size, i1.new, hp, h.distinct⟩
      have u1 := i1.used
      have u2 := entries_le_used s.newFlags s.keys s.vals (2 ^ k)
      have := hp.length_eq
      have := h.size
      dsimp only
      omega

theorem grow_ok {m : Table κ ν} {d : List (κ × ν)} (h : Inv F m d) (hd : d.length < 2 ^ 30) (mem : Bool) :
    (mem = false ∧ grow F m mem = .ok none) ∨
    ∃ m', grow F m mem = .ok (some m') ∧ Inv F m' d ∧ m'.occ < m'.upper := by
  unfold grow
  by_cases ho : m.occ ≥ m.upper
  · rw [if_pos ho]
    have hsz := h.size
    have hso : m.size ≤ m.occ := by
      have := entries_le_used m.flags m.keys m.vals m.n
      have := h.perm.length_eq
      have := h.occ
      omega
    have hle := h.le
    have hup := h.upper
    rcases h.n with hn | ⟨k, h2, hk, hn⟩
    · have hs0 : m.size = 0 := by
        rw [hup, hn] at hle
        have : upperOf 0 = 0 := rfl
        omega
      rw [if_neg (by omega), hn]
      exact resize_ok h (Nat.le_refl 2) (by decide) (Or.inr ⟨by decide, rfl⟩) (by rw [hs0]; decide) mem
    · have h4 : 2 ^ 2 ≤ 2 ^ k := Nat.pow_le_pow_right (by decide) h2
      by_cases hc : m.n > m.size * 2
      · rw [if_pos hc, hn]
        refine resize_ok h h2 hk (Or.inl (roundup_down k h2 hk)) ?_ mem
        unfold upperOf
        omega
      · rw [if_neg hc, hn]
        have hk30 : k ≤ 30 := by
          apply Classical.byContradiction
          intro hc'
          have : 2 ^ 31 ≤ 2 ^ k := Nat.pow_le_pow_right (by decide) (by omega)
          omega
        refine resize_ok h (by omega) (by omega) (Or.inl (roundup_up k h2 hk30)) ?_ mem
        rw [hup, hn] at hle
        rw [Nat.pow_succ]
        unfold upperOf at hle ⊢
        omega
  · rw [if_neg ho]
    exact Or.inr ⟨m, rfl, h, by omega⟩

theorem Inv.keyed {m : Table κ ν} {d : List (κ × ν)} (h : Inv F m d) : Keyed m := fun i hi hl => by
  obtain ⟨k, v, h1, _⟩ := h.cells i hi hl
  rw [h1]; rfl

/-- The step at which probing for a key stops, and what that says of the dictionary. -/
theorem Inv.stop (hF : Lawful F) {m : Table κ ν} {d : List (κ × ν)} (h : Inv F m d) {k : Nat} (h2 : 2 ≤ k) (hn : m.n = 2 ^ k) (key : κ) :
    ∃ t, t < 2 ^ k ∧ Stop F m key (pos (2 ^ k) (F.h key).toNat t) ∧ (∀ u, u < t → ¬ Stop F m key (pos (2 ^ k) (F.h key).toNat u)) ∧
      (m.flags (pos (2 ^ k) (F.h key).toNat t) = .empty → ∀ e ∈ d, F.eq e.1 key = false) := by
  have hlt : used m.flags m.n < m.n := by
    have h1 := upperOf_lt h2
    have h3 := h.occ
    have h4 := h.le
    have h5 := h.upper
    rw [hn] at h3 h5 ⊢
    omega
  obtain ⟨e, he, hfe⟩ := used_lt hlt
  rw [hn] at he
  obtain ⟨t, h1, h3, h4⟩ := first_pos (F.h key).toNat (p := Stop F m key) he (Or.inl hfe)
  refine ⟨t, h1, h3, h4, fun hem e hed => ?_⟩
  cases hc : F.eq e.1 key with
  | false => rfl
  | true =>
    have hm : e ∈ entries m.flags m.keys m.vals m.n := h.perm.mem_iff.2 hed
    obtain ⟨i, hi, hce⟩ := List.mem_filterMap.1 hm
    have hi := List.mem_range.1 hi
    have hl : m.flags i = .live := Classical.byContradiction fun hl => by rw [cell_dead hl] at hce; cases hce
    obtain ⟨k0, v0, hk0, hv0, s, hs1, hs2⟩ := h.cells i hi hl
    rw [cell_live hl hk0 hv0] at hce
    cases Option.some.inj hce
    dsimp only at hc
    rw [hn, hF.hash _ _ hc] at hs1 hs2
    exfalso
    rcases Nat.lt_trichotomy s t with hst | hst | hst
    · exact h4 s hst (hs1 ▸ Or.inr ⟨hl, k0, hk0, hc⟩)
    · subst hst
      rw [← hs1, hl] at hem
      cases hem
    · exact hs2 t hst hem

/-- What a lookup gives. -/
theorem lookup_ok (hF : Lawful F) {m : Table κ ν} {d : List (κ × ν)} (h : Inv F m d) (key : κ) :
    (lookup F m key = .ok m.n ∧ ∀ e ∈ d, F.eq e.1 key = false) ∨
    ∃ i k v, lookup F m key = .ok i ∧ i < m.n ∧ m.flags i = .live ∧ m.keys i = some k ∧ m.vals i = some v ∧ F.eq k key = true ∧ (k, v) ∈ d := by
  unfold lookup
  rcases h.n with hn | ⟨k, h2, hk, hn⟩
  · left
    rw [if_pos hn, hn]
    refine ⟨rfl, fun e he => ?_⟩
    have := h.perm.mem_iff.2 he
    rw [hn] at this
    cases this
  · obtain ⟨t, ht, hs, hf, hem⟩ := h.stop hF h2 hn key
    have hpos := Nat.two_pow_pos k
    rw [if_neg (by omega), hn, pos_zero, lookup_eq (by omega) hn h.keyed ht hs hf (Nat.zero_le t) (by omega)]
    by_cases he : m.flags (pos (2 ^ k) (F.h key).toNat t) = .empty
    · rw [if_pos he]
      exact Or.inl ⟨rfl, hem he⟩
    · rw [if_neg he]
      right
      rcases hs with hs | ⟨hl, k', hk', heq⟩
      · exact absurd hs he
      · have hin : pos (2 ^ k) (F.h key).toNat t < m.n := by rw [hn]; exact pos_lt
        obtain ⟨k0, v0, hk0, hv0, _⟩ := h.cells _ hin hl
        have : k0 = k' := by rw [hk'] at hk0; exact (Option.some.inj hk0).symm
        subst this
        refine ⟨_, k0, v0, rfl, pos_lt, hl, hk0, hv0, heq, h.perm.mem_iff.1 ?_⟩
        exact List.mem_filterMap.2 ⟨_, List.mem_range.2 hin, cell_live hl hk0 hv0⟩

/-- The bucket hsk_map_put settles on: the one with the key, or one that is free. -/
theorem site_ok (hF : Lawful F) {m : Table κ ν} {d : List (κ × ν)} (h : Inv F m d) (hlt : m.occ < m.upper) (key : κ) :
    ∃ x, site F m key = .ok x ∧ x < m.n ∧ Path F m.flags m.n key x ∧
      ((m.flags x ≠ .live ∧ ∀ e ∈ d, F.eq e.1 key = false) ∨
        ∃ k v, m.flags x = .live ∧ m.keys x = some k ∧ m.vals x = some v ∧ F.eq k key = true ∧ (k, v) ∈ d) := by
  unfold site
  rcases h.n with hn | ⟨k, h2, hk, hn⟩
  · have := h.upper
    rw [hn, show upperOf 0 = 0 from rfl] at this
    omega
  · obtain ⟨t, ht, hs, hf, hem⟩ := h.stop hF h2 hn key
    have hpos := Nat.two_pow_pos k
    obtain ⟨u, hut, e1, h3, h4⟩ := put_eq (by omega) hn h.keyed ht hs hf (fuel := 2 * 2 ^ k) (st := 2 ^ k) (Nat.zero_le t) (by omega) (Or.inl rfl)
    rw [hn, pos_zero, e1]
    have hin : pos (2 ^ k) (F.h key).toNat u < m.n := by rw [hn]; exact pos_lt
    refine ⟨_, rfl, pos_lt, ⟨u, rfl, fun v hv hc => hf v (by omega) (Or.inl hc)⟩, ?_⟩
    by_cases he : m.flags (pos (2 ^ k) (F.h key).toNat t) = .empty
    · refine Or.inl ⟨?_, hem he⟩
      rcases h3 he with rfl | hd
      · rw [he]; decide
      · rw [hd]; decide
    · right
      have := h4 he
      subst this
      rcases hs with hs | ⟨hl, k', hk', heq⟩
      · exact absurd hs he
      · obtain ⟨k0, v0, hk0, hv0, _⟩ := h.cells _ hin hl
        have : k0 = k' := by rw [hk'] at hk0; exact (Option.some.inj hk0).symm
        subst this
        exact ⟨k0, v0, hl, hk0, hv0, heq, h.perm.mem_iff.1 (List.mem_filterMap.2 ⟨_, List.mem_range.2 hin, cell_live hl hk0 hv0⟩)⟩

/-- Buckets written stay reachable. -/
theorem cells_upd {m : Table κ ν} {d : List (κ × ν)} (h : Inv F m d) {x : Nat} {key : κ} {v : ν} (hp : Path F m.flags m.n key x) :
    ∀ i, i < m.n → upd m.flags x .live i = .live → ∃ k w, upd m.keys x (some key) i = some k ∧ upd m.vals x (some v) i = some w ∧
      Path F (upd m.flags x .live) m.n k i := by
  have hmono : ∀ j, m.flags j ≠ .empty → upd m.flags x .live j ≠ .empty := fun j hj => by
    by_cases hji : j = x
    · rw [hji, upd_same]; decide
    · rw [upd_other _ _ hji]; exact hj
  intro i hi hl
  by_cases hix : i = x
  · subst hix
    exact ⟨key, v, upd_same .., upd_same .., hp.mono hmono⟩
  · rw [upd_other _ _ hix] at hl
    obtain ⟨k, w, h1, h2, h3⟩ := h.cells i hi hl
    exact ⟨k, w, by rw [upd_other _ _ hix, h1], by rw [upd_other _ _ hix, h2], h3.mono hmono⟩

theorem upd_self {α : Type} {f : Nat → α} {i : Nat} {x : α} (h : f i = x) : upd f i x = f := by
  funext j
  by_cases hj : j = i
  · rw [hj, upd_same, h]
  · rw [upd_other _ _ hj]

theorem set_ok (hF : Lawful F) {m : Table κ ν} {d : List (κ × ν)} (h : Inv F m d) (hd : d.length < 2 ^ 30) (key : κ) (v : ν) (mem : Bool) :
    (mem = false ∧ set F m key v mem = .ok (false, m)) ∨
    ∃ m', set F m key v mem = .ok (true, m') ∧ Inv F m' ((key, v) :: without F d key) := by
  unfold set
  rcases grow_ok h hd mem with ⟨hm, e⟩ | ⟨m1, e, h1, hlt⟩
  · left
    rw [e]
    exact ⟨hm, rfl⟩
  · right
    rw [e]
    simp only [Out.bind]
    obtain ⟨x, e2, hx, hp, hcase⟩ := site_ok hF h1 hlt key
    rw [e2]
    simp only [Out.bind]
    have hcells := cells_upd (v := v) h1 hp
    have hent := entries_upd (fl := m1.flags) (fl' := upd m1.flags x .live) (keys := m1.keys) (keys' := upd m1.keys x (some key))
      (vals := m1.vals) (vals' := upd m1.vals x (some v)) hx (fun y hy => upd_other _ _ hy) (fun y hy => upd_other _ _ hy) (fun y hy => upd_other _ _ hy)
    rw [cell_live (upd_same ..) (upd_same ..) (upd_same ..)] at hent
    unfold store
    rw [if_neg (by omega)]
    have hle := h1.le
    rcases hcase with ⟨hnl, hnone⟩ | ⟨k0, v0, hl, hk0, hv0, heq, hin⟩
    · rw [cell_dead hnl] at hent
      simp only [Option.toList, List.nil_append, List.cons_append] at hent
      have hperm : (entries (upd m1.flags x .live) (upd m1.keys x (some key)) (upd m1.vals x (some v)) m1.n).Perm ((key, v) :: without F d key) := by
        rw [without_none hnone]
        exact hent.trans (h1.perm.cons _)
      have hlen : m1.size + 1 = ((key, v) :: without F d key).length := by
        rw [without_none hnone, List.length_cons, h1.size]
      cases hfl : m1.flags x with
      | live => exact absurd hfl hnl
      | empty =>
        refine ⟨_, rfl, h1.n, h1.upper, ?_, ?_, hlen, hcells, hperm, distinct_set hF h.distinct key v⟩
        · dsimp only
          rw [used_upd_new hx hfl, h1.occ]
        · dsimp only; omega
      | del =>
        refine ⟨_, rfl, h1.n, h1.upper, ?_, hle, hlen, hcells, hperm, distinct_set hF h.distinct key v⟩
        dsimp only
        rw [used_upd_same (by rw [hfl]; decide) (by decide), h1.occ]
    · rw [cell_live hl hk0 hv0] at hent
      simp only [Option.toList, List.nil_append, List.cons_append] at hent
      have hw := without_mem hF h.distinct hin heq
      have hperm : (entries (upd m1.flags x .live) (upd m1.keys x (some key)) (upd m1.vals x (some v)) m1.n).Perm ((key, v) :: without F d key) :=
        ((hent.trans ((h1.perm.trans hw).cons _)).trans (List.Perm.swap ..)).cons_inv
      rw [hl]
      rw [upd_self hl] at hperm hcells
      refine ⟨_, rfl, h1.n, h1.upper, h1.occ, hle, ?_, hcells, hperm, distinct_set hF h.distinct key v⟩
      dsimp only
      rw [h1.size, hw.length_eq]
      rfl

theorem get_ok (hF : Lawful F) {m : Table κ ν} {d : List (κ × ν)} (h : Inv F m d) (key : κ) : get F m key = .ok (find F d key) := by
  unfold get
  rcases lookup_ok hF h key with ⟨e, hn⟩ | ⟨i, k, v, e, hi, hl, _, hv, heq, hin⟩
  · rw [e, find_none hn]
    simp only [Out.bind, if_true]
  · rw [e, find_mem hF h.distinct hin heq]
    simp only [Out.bind]
    rw [if_neg (by omega), if_neg (by omega), if_pos hl, hv]

theorem has_ok (hF : Lawful F) {m : Table κ ν} {d : List (κ × ν)} (h : Inv F m d) (key : κ) : has F m key = .ok (find F d key).isSome := by
  unfold has
  rcases lookup_ok hF h key with ⟨e, hn⟩ | ⟨i, k, v, e, hi, hl, _, hv, heq, hin⟩
  · rw [e, find_none hn]
    simp only [Out.bind, if_true]
    rfl
  · rw [e, find_mem hF h.distinct hin heq]
    simp only [Out.bind]
    rw [if_neg (by omega), if_neg (by omega), hl]
    rfl

theorem del_ok (hF : Lawful F) {m : Table κ ν} {d : List (κ × ν)} (h : Inv F m d) (key : κ) :
    ∃ m', del F m key = .ok ((find F d key).isSome, m') ∧ Inv F m' (without F d key) := by
  unfold del
  rcases lookup_ok hF h key with ⟨e, hn⟩ | ⟨i, k, v, e, hi, hl, hk, hv, heq, hin⟩
  · refine ⟨m, ?_, ?_⟩
    · rw [e, find_none hn]
      simp only [Out.bind, if_true]
      rfl
    · rw [without_none hn]; exact h
  · have hw := without_mem hF h.distinct hin heq
    refine ⟨{ m with flags := upd m.flags i .del, size := m.size - 1 }, ?_, ?_⟩
    · rw [e, find_mem hF h.distinct hin heq]
      simp only [Out.bind]
      rw [if_neg (by omega), if_neg (by omega), if_pos hl]
      rfl
    · have hent := entries_upd (fl := m.flags) (fl' := upd m.flags i .del) (keys := m.keys) (keys' := m.keys)
        (vals := m.vals) (vals' := m.vals) hi (fun y hy => upd_other _ _ hy) (fun y _ => rfl) (fun y _ => rfl)
      rw [cell_live hl hk hv, cell_dead (fl := upd m.flags i .del) (by rw [upd_same]; decide)] at hent
      simp only [Option.toList, List.nil_append, List.cons_append] at hent
      refine ⟨h.n, h.upper, ?_, h.le, ?_, ?_, (hent.trans (h.perm.trans hw)).cons_inv, h.distinct.filter _⟩
      · dsimp only
        rw [used_upd_same (by rw [hl]; decide) (by decide), h.occ]
      · dsimp only
        rw [h.size, hw.length_eq]
        rfl
      · intro j hj hlj
        dsimp only at hj hlj ⊢
        have hji : j ≠ i := fun hc => by rw [hc, upd_same] at hlj; cases hlj
        rw [upd_other _ _ hji] at hlj
        obtain ⟨k', w, h1, h2, h3⟩ := h.cells j hj hlj
        refine ⟨k', w, h1, h2, h3.mono fun y hy => ?_⟩
        by_cases hyi : y = i
        · rw [hyi, upd_same]; decide
        · rw [upd_other _ _ hyi]; exact hy

theorem values_ok {m : Table κ ν} {d : List (κ × ν)} (h : Inv F m d) : ∃ l, values m = .ok l ∧ l.Perm (d.map (·.2)) := by
  have hall : ∀ i ∈ (List.range m.n).filter (fun i => decide (m.flags i = .live)), (m.vals i).isSome = true := fun i hi => by
    obtain ⟨h1, h2⟩ := List.mem_filter.1 hi
    obtain ⟨k, v, _, hv, _⟩ := h.cells i (List.mem_range.1 h1) (of_decide_eq_true h2)
    rw [hv]; rfl
  refine ⟨_, if_pos (List.all_eq_true.2 hall), ?_⟩
  refine List.Perm.trans (l₂ := (entries m.flags m.keys m.vals m.n).map (·.2)) (List.Perm.of_eq ?_) (h.perm.map _)
  unfold entries
  rw [List.map_filterMap]
  have hc : ∀ i ∈ List.range m.n, m.flags i = .live → ∃ k v, m.keys i = some k ∧ m.vals i = some v := fun i hi hl => by
    obtain ⟨k, v, h1, h2, _⟩ := h.cells i (List.mem_range.1 hi) hl
    exact ⟨k, v, h1, h2⟩
  revert hc
  induction List.range m.n with
  | nil => intro _; rfl
  | cons a l ih =>
    intro hc
    have ih := ih fun i hi => hc i (List.mem_cons_of_mem _ hi)
    rw [List.filter_cons, List.filterMap_cons]
    by_cases hl : m.flags a = .live
    · obtain ⟨k, v, h1, h2⟩ := hc a List.mem_cons_self hl
      rw [if_pos (decide_eq_true hl), cell_live hl h1 h2, List.filterMap_cons, h2, ih]
      rfl
    · rw [if_neg (by rw [decide_eq_true_eq]; exact hl), cell_dead hl, ih]
      rfl

theorem clear_ok {m : Table κ ν} {d : List (κ × ν)} (h : Inv F m d) :
    ∃ l m', clear m = .ok (l, m') ∧ l.Perm (d.map (·.2)) ∧ Inv F m' [] := by
  obtain ⟨l, e, hp⟩ := values_ok h
  unfold clear
  rw [e]
  refine ⟨l, _, rfl, hp, ?_⟩
  by_cases hn : m.n = 0
  · rw [if_pos hn]
    have hd : d = [] := by
      have := h.perm
      rw [hn] at this
      exact this.nil_eq.symm
    exact hd ▸ h
  · rw [if_neg hn]
    have hd : ∀ i, i < m.n → (fun _ => Flag.empty) i ≠ Flag.live := fun i _ hc => by cases hc
    refine ⟨h.n, h.upper, ?_, Nat.zero_le _, rfl, fun i _ hc => (by cases hc), ?_, List.Pairwise.nil⟩
    · unfold used
      dsimp only
      rw [List.filter_eq_nil_iff.2 (fun i _ hc => absurd (of_decide_eq_true hc) (by decide))]
      rfl
    · dsimp only
      rw [entries_dead hd]

theorem inv_init : Inv F (init : Table κ ν) [] :=
  ⟨Or.inl rfl, (by decide : 0 = upperOf 0), rfl, Nat.le_refl _, rfl, fun i hi => absurd hi (Nat.not_lt_zero i), List.Perm.nil, List.Pairwise.nil⟩

theorem step_ok (hF : Lawful F) {m : Table κ ν} {d : List (κ × ν)} (h : Inv F m d) (hd : d.length < 2 ^ 30) (o : Op κ ν) :
    ∃ r m' d', step F m o = .ok (r, m') ∧ Call F d o r d' ∧ Inv F m' d' := by
  cases o with
  | set k v mem =>
    unfold step
    dsimp only
    rcases set_ok hF h hd k v mem with ⟨hm, e⟩ | ⟨m', e, h'⟩
    · rw [e, hm]
      exact ⟨_, _, _, rfl, .refused .., h⟩
    · rw [e]
      exact ⟨_, _, _, rfl, .set .., h'⟩
  | get k =>
    unfold step
    dsimp only
    rw [get_ok hF h]
    exact ⟨_, _, _, rfl, .get .., h⟩
  | has k =>
    unfold step
    dsimp only
    rw [has_ok hF h]
    exact ⟨_, _, _, rfl, .has .., h⟩
  | del k =>
    obtain ⟨m', e, h'⟩ := del_ok hF h k
    unfold step
    dsimp only
    rw [e]
    exact ⟨_, _, _, rfl, .del .., h'⟩
  | size => exact ⟨_, _, _, rfl, h.size ▸ .size .., h⟩
  | values =>
    obtain ⟨l, e, hp⟩ := values_ok h
    unfold step
    dsimp only
    rw [e]
    exact ⟨_, _, _, rfl, .values _ _ hp, h⟩
  | clear =>
    obtain ⟨l, m', e, hp, h'⟩ := clear_ok h
    unfold step
    dsimp only
    rw [e]
    exact ⟨_, _, _, rfl, .clear _ _ hp, h'⟩

theorem run_ok (hF : Lawful F) : ∀ {ops : List (Op κ ν)} {m : Table κ ν} {d : List (κ × ν)}, Inv F m d →
    (∀ pre post rs d', ops = pre ++ post → History F d pre rs d' → d'.length < 2 ^ 30) →
    ∃ rs m' d', run F m ops = .ok (rs, m') ∧ History F d ops rs d' ∧ Inv F m' d'
  | [], m, d, h, _ => ⟨[], m, d, rfl, .nil d, h⟩
  | o :: os, m, d, h, hb => by
    obtain ⟨r, m1, d1, e1, c1, i1⟩ := step_ok hF h (hb [] (o :: os) [] d rfl (.nil d)) o
    obtain ⟨rs, m2, d2, e2, c2, i2⟩ := run_ok hF (ops := os) i1 fun pre post rs d' he hh => hb (o :: pre) post (r :: rs) d' (by rw [he]; rfl) (.cons c1 hh)
    refine ⟨r :: rs, m2, d2, ?_, .cons c1 c2, i2⟩
    rw [run, e1]
    simp only [Out.bind]
    rw [e2]

end

end Verif.HMap
