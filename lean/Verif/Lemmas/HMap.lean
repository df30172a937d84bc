import Verif.Spec.HMap
import Mathlib.Tactic.Ring
import Mathlib.Data.Fintype.EquivFin
/-
Lemmas on the hash table: triangular probing meets every bucket, the loops end, and an invariant
relates the buckets to a dictionary.
-/
namespace Verif.HMap
open Verif.Spec.HMap

/-- The sum of the first steps. -/
def tri : Nat → Nat
  | 0 => 0
  | s + 1 => tri s + (s + 1)

/-- Where the probing of a hash is after some steps. -/
def pos (n h s : Nat) : Nat := (h + tri s) % n

theorem two_tri (s : Nat) : 2 * tri s = s * (s + 1) := by
  induction s with
  | zero => rfl
  | succ s ih => rw [tri, Nat.mul_add, ih]; ring

theorem tri_mono {a b : Nat} (h : a ≤ b) : tri a ≤ tri b := by
  induction b with
  | zero => simp_all
  | succ b ih =>
    by_cases hb : a ≤ b
    · exact Nat.le_trans (ih hb) (by rw [tri]; omega)
    · rw [show a = b + 1 by omega]

theorem tri_diff {a b : Nat} (h : a ≤ b) : 2 * (tri b - tri a) = (b - a) * (a + b + 1) := by
  have h1 := two_tri a
  have h2 := two_tri b
  obtain ⟨d, rfl⟩ := Nat.exists_eq_add_of_le h
  have : tri a ≤ tri (a + d) := tri_mono h
  rw [Nat.mul_sub, h1, h2, Nat.add_sub_cancel_left]
  have : (a + d) * (a + d + 1) = a * (a + 1) + d * (a + (a + d) + 1) := by ring
  rw [this, Nat.add_sub_cancel_left]

theorem pos_inj_lt {k h a b : Nat} (hab : a < b) (hb : b < 2 ^ k) : pos (2 ^ k) h a ≠ pos (2 ^ k) h b := by
  intro he
  have hm := tri_mono (Nat.le_of_lt hab)
  have hd : 2 ^ k ∣ tri b - tri a := by
    have := Nat.dvd_of_mod_eq_zero (Nat.sub_mod_eq_zero_of_mod_eq (show (h + tri b) % 2 ^ k = (h + tri a) % 2 ^ k from he.symm))
    rwa [show h + tri b - (h + tri a) = tri b - tri a by omega] at this
  have h2 : 2 ^ (k + 1) ∣ (b - a) * (a + b + 1) := by
    rw [← tri_diff (Nat.le_of_lt hab), Nat.pow_succ, Nat.mul_comm]
    exact Nat.mul_dvd_mul_left 2 hd
  have hk : 2 ^ (k + 1) = 2 * 2 ^ k := by rw [Nat.pow_succ, Nat.mul_comm]
  by_cases hodd : (b - a) % 2 = 1
  · have hc : Nat.Coprime (2 ^ (k + 1)) (b - a) := by
      apply Nat.Coprime.pow_left
      rw [Nat.Coprime, Nat.gcd_rec, hodd, Nat.gcd_one_left]
    have := Nat.le_of_dvd (by omega) (hc.dvd_of_dvd_mul_left h2)
    omega
  · have hc : Nat.Coprime (2 ^ (k + 1)) (a + b + 1) := by
      apply Nat.Coprime.pow_left
      rw [Nat.Coprime, Nat.gcd_rec, show (a + b + 1) % 2 = 1 by omega, Nat.gcd_one_left]
    have := Nat.le_of_dvd (by omega) (hc.dvd_of_dvd_mul_right h2)
    omega

theorem pos_inj {k h a b : Nat} (ha : a < 2 ^ k) (hb : b < 2 ^ k) (he : pos (2 ^ k) h a = pos (2 ^ k) h b) : a = b := by
  rcases Nat.lt_trichotomy a b with hl | hl | hl
  · exact absurd he (pos_inj_lt hl hb)
  · exact hl
  · exact absurd he.symm (pos_inj_lt hl ha)

theorem pos_lt {k h s : Nat} : pos (2 ^ k) h s < 2 ^ k := Nat.mod_lt _ (Nat.two_pow_pos k)

theorem pos_surj {k : Nat} (h : Nat) {i : Nat} (hi : i < 2 ^ k) : ∃ s, s < 2 ^ k ∧ pos (2 ^ k) h s = i := by
  let f : Fin (2 ^ k) → Fin (2 ^ k) := fun s => ⟨pos (2 ^ k) h s.1, pos_lt⟩
  have hinj : Function.Injective f := fun a b he => Fin.ext (pos_inj a.2 b.2 (Fin.mk.inj he))
  obtain ⟨s, hs⟩ := Finite.injective_iff_surjective.1 hinj ⟨i, hi⟩
  exact ⟨s.1, s.2, Fin.mk.inj hs⟩

theorem pos_zero {k h : Nat} : h &&& (2 ^ k - 1) = pos (2 ^ k) h 0 := Nat.and_two_pow_sub_one_eq_mod ..

theorem next_pos {k h s : Nat} (hk : k ≤ 32) : next (2 ^ k - 1) (pos (2 ^ k) h s) (s + 1) = pos (2 ^ k) h (s + 1) := by
  unfold next
  rw [Nat.and_two_pow_sub_one_eq_mod, show 4294967296 = 2 ^ 32 from rfl, Nat.mod_mod_of_dvd _ (Nat.pow_dvd_pow 2 hk)]
  unfold pos
  rw [Nat.mod_add_mod, tri, Nat.add_assoc]

/-- The first step at which something holds. -/
theorem first {p : Nat → Prop} {s : Nat} (hs : p s) : ∃ t, t ≤ s ∧ p t ∧ ∀ u, u < t → ¬ p u := by
  induction s using Nat.strongRecOn with
  | _ s ih =>
    by_cases he : ∃ u, u < s ∧ p u
    · obtain ⟨u, hu, hp⟩ := he
      obtain ⟨t, h1, h2⟩ := ih u hu hp
      exact ⟨t, by omega, h2⟩
    · exact ⟨s, Nat.le_refl _, hs, fun u hu hp => he ⟨u, hu, hp⟩⟩

theorem upperOf_lt {k : Nat} (hk : 2 ≤ k) : upperOf (2 ^ k) < 2 ^ k := by
  have : 2 ^ 2 ≤ 2 ^ k := Nat.pow_le_pow_right (by decide) hk
  unfold upperOf
  omega

theorem roundup_down : ∀ k, 2 ≤ k → k ≤ 31 → roundup (2 ^ k - 1) = 2 ^ k := by decide +kernel

theorem roundup_up : ∀ k, 2 ≤ k → k ≤ 30 → roundup (2 ^ k + 1) = 2 ^ (k + 1) := by decide +kernel

section
variable {κ ν : Type} {F : Fns κ}

/-- What a bucket holds. -/
def cell (fl : Nat → Flag) (keys : Nat → Option κ) (vals : Nat → Option ν) (i : Nat) : Option (κ × ν) :=
  if fl i = .live then (keys i).bind fun k => (vals i).map fun v => (k, v) else none

/-- What the first `n` buckets hold. -/
def entries (fl : Nat → Flag) (keys : Nat → Option κ) (vals : Nat → Option ν) (n : Nat) : List (κ × ν) :=
  (List.range n).filterMap (cell fl keys vals)

/-- A key in bucket `i` is found by probing: no bucket before it is empty. -/
def Path (F : Fns κ) (fl : Nat → Flag) (n : Nat) (k : κ) (i : Nat) : Prop :=
  ∃ s, i = pos n (F.h k).toNat s ∧ ∀ t, t < s → fl (pos n (F.h k).toNat t) ≠ .empty

theorem filterMap_upd {α β : Type} {g g' : α → Option β} {x : α} : ∀ {l : List α}, l.Nodup → x ∈ l →
    (∀ y, y ≠ x → g' y = g y) → ((g x).toList ++ l.filterMap g').Perm ((g' x).toList ++ l.filterMap g)
  | [], _, hx, _ => by cases hx
  | y :: l, hn, hx, hg => by
    rw [List.nodup_cons] at hn
    by_cases hy : y = x
    · subst hy
      have hl : l.filterMap g' = l.filterMap g := List.filterMap_congr fun z hz => hg z (fun e => hn.1 (e ▸ hz))
      have e1 : (y :: l).filterMap g' = (g' y).toList ++ l.filterMap g' := by
        rw [List.filterMap_cons]; cases g' y <;> rfl
      have e2 : (y :: l).filterMap g = (g y).toList ++ l.filterMap g := by
        rw [List.filterMap_cons]; cases g y <;> rfl
      rw [e1, e2, hl, ← List.append_assoc, ← List.append_assoc]
      exact (List.perm_append_comm).append_right _
    · have hx' : x ∈ l := by
        rcases List.mem_cons.1 hx with h | h
        · exact absurd h.symm hy
        · exact h
      have ih := filterMap_upd hn.2 hx' hg
      have e1 : (y :: l).filterMap g' = (g y).toList ++ l.filterMap g' := by
        rw [List.filterMap_cons, hg y hy]; cases g y <;> rfl
      have e2 : (y :: l).filterMap g = (g y).toList ++ l.filterMap g := by
        rw [List.filterMap_cons]; cases g y <;> rfl
      rw [e1, e2]
      have h1 : ((g x).toList ++ ((g y).toList ++ l.filterMap g')).Perm ((g y).toList ++ ((g x).toList ++ l.filterMap g')) := by
        rw [← List.append_assoc, ← List.append_assoc]
        exact (List.perm_append_comm).append_right _
      have h2 : ((g y).toList ++ ((g' x).toList ++ l.filterMap g)).Perm ((g' x).toList ++ ((g y).toList ++ l.filterMap g)) := by
        rw [← List.append_assoc, ← List.append_assoc]
        exact (List.perm_append_comm).append_right _
      exact h1.trans ((ih.append_left _).trans h2)

theorem upd_same {α : Type} (f : Nat → α) (i : Nat) (x : α) : upd f i x i = x := if_pos rfl

theorem upd_other {α : Type} (f : Nat → α) {i j : Nat} (x : α) (h : j ≠ i) : upd f i x j = f j := if_neg h

/-- The number of buckets that are not empty. -/
def used (fl : Nat → Flag) (n : Nat) : Nat := ((List.range n).filter fun i => decide (fl i ≠ .empty)).length

/-- A bucket that is not empty. -/
def mark (fl : Nat → Flag) (i : Nat) : Option Nat := if fl i = .empty then none else some i

theorem used_filterMap (fl : Nat → Flag) (n : Nat) : used fl n = ((List.range n).filterMap (mark fl)).length := by
  unfold used
  induction List.range n with
  | nil => rfl
  | cons a l ih =>
    rw [List.filter_cons, List.filterMap_cons, mark]
    by_cases h : fl a = .empty
    · rw [if_pos h, if_neg (by rw [h]; decide)]; exact ih
    · rw [if_neg h, if_pos (decide_eq_true h)]; simp only [List.length_cons, ih]

theorem used_upd_new {fl : Nat → Flag} {n x : Nat} (hx : x < n) (he : fl x = .empty) : used (upd fl x .live) n = used fl n + 1 := by
  rw [used_filterMap, used_filterMap]
  have h := (filterMap_upd (g := mark fl) (g' := mark (upd fl x .live)) (List.nodup_range (n := n)) (List.mem_range.2 hx)
    (fun y hy => by unfold mark; rw [upd_other _ _ hy])).length_eq
  rw [show mark fl x = none from if_pos he, show mark (upd fl x .live) x = some x by unfold mark; rw [upd_same]; rfl,
    List.length_append, List.length_append] at h
  simp only [Option.toList, List.length_nil, List.length_cons] at h
  omega

theorem used_upd_same {fl : Nat → Flag} {n x : Nat} {f : Flag} (he : fl x ≠ .empty) (hf : f ≠ .empty) : used (upd fl x f) n = used fl n := by
  unfold used
  congr 1
  apply List.filter_congr
  intro i _
  by_cases hi : i = x
  · subst hi; rw [upd_same, decide_eq_true hf, decide_eq_true he]
  · rw [upd_other _ _ hi]

theorem used_lt {fl : Nat → Flag} {n : Nat} (h : used fl n < n) : ∃ e, e < n ∧ fl e = .empty := by
  apply Classical.byContradiction
  intro hc
  have : used fl n = n := by
    unfold used
    rw [List.filter_eq_self.2, List.length_range]
    intro i hi
    exact decide_eq_true fun he => hc ⟨i, List.mem_range.1 hi, he⟩
  omega

theorem entries_le_used (fl : Nat → Flag) (keys : Nat → Option κ) (vals : Nat → Option ν) (n : Nat) :
    (entries fl keys vals n).length ≤ used fl n := by
  unfold entries used
  induction List.range n with
  | nil => exact Nat.le_refl _
  | cons a l ih =>
    rw [List.filterMap_cons, List.filter_cons]
    by_cases h : fl a = .live
    · rw [if_pos (by rw [h]; decide)]
      cases cell fl keys vals a with
      | none => simp only [List.length_cons]; omega
      | some e => simp only [List.length_cons]; omega
    · rw [show cell fl keys vals a = none from if_neg h]
      dsimp only
      split
      · simp only [List.length_cons]; omega
      · exact ih

theorem used_le_entries {fl : Nat → Flag} {keys : Nat → Option κ} {vals : Nat → Option ν} {n : Nat}
    (h : ∀ i, i < n → fl i ≠ .empty → (cell fl keys vals i).isSome = true) : used fl n ≤ (entries fl keys vals n).length := by
  unfold entries used
  have h' : ∀ i ∈ List.range n, fl i ≠ .empty → (cell fl keys vals i).isSome = true := fun i hi => h i (List.mem_range.1 hi)
  revert h'
  induction List.range n with
  | nil => intro _; exact Nat.le_refl _
  | cons a l ih =>
    intro h'
    have := ih fun i hi => h' i (List.mem_cons_of_mem _ hi)
    rw [List.filterMap_cons, List.filter_cons]
    by_cases he : fl a ≠ .empty
    · rw [if_pos (decide_eq_true he)]
      obtain ⟨e, hc⟩ := Option.isSome_iff_exists.1 (h' a List.mem_cons_self he)
      rw [hc]
      simp only [List.length_cons]; omega
    · rw [if_neg (by simp only [decide_eq_true_eq]; exact he)]
      cases cell fl keys vals a with
      | none => exact this
      | some e => simp only [List.length_cons]; omega

/-- The first bucket, while probing, where a condition holds that holds of some bucket. -/
theorem first_pos {k : Nat} (h : Nat) {p : Nat → Prop} {e : Nat} (he : e < 2 ^ k) (hp : p e) :
    ∃ t, t < 2 ^ k ∧ p (pos (2 ^ k) h t) ∧ ∀ u, u < t → ¬ p (pos (2 ^ k) h u) := by
  obtain ⟨s, hs, rfl⟩ := pos_surj h he
  obtain ⟨t, h1, h2, h3⟩ := first (p := fun s => p (pos (2 ^ k) h s)) hp
  exact ⟨t, by omega, h2, h3⟩

theorem place_eq {nf : Nat → Flag} {k h t : Nat} (hk : k ≤ 32) (ht : t < 2 ^ k) (he : nf (pos (2 ^ k) h t) = .empty)
    (hf : ∀ u, u < t → nf (pos (2 ^ k) h u) ≠ .empty) : ∀ {fuel s}, s ≤ t → t < s + fuel →
    place nf (2 ^ k) fuel (pos (2 ^ k) h s) s = .ok (pos (2 ^ k) h t)
  | 0, s, h1, h2 => by omega
  | fuel + 1, s, h1, h2 => by
    rw [place, if_neg (Nat.not_le.2 pos_lt)]
    by_cases hs : s = t
    · subst hs; rw [if_pos he]
    · rw [if_neg (hf s (by omega)), next_pos hk]
      exact place_eq hk ht he hf (by omega) (by omega)

/-- The condition that ends a probe for a key. -/
def Stop (F : Fns κ) (m : Table κ ν) (key : κ) (i : Nat) : Prop :=
  m.flags i = .empty ∨ (m.flags i = .live ∧ ∃ k, m.keys i = some k ∧ F.eq k key = true)

/-- The keys of the buckets in use are there. -/
def Keyed (m : Table κ ν) : Prop := ∀ i, i < m.n → m.flags i = .live → (m.keys i).isSome = true

theorem lookup_eq {m : Table κ ν} {key : κ} {k t : Nat} (hk : k ≤ 32) (hn : m.n = 2 ^ k) (hm : Keyed m) (ht : t < 2 ^ k)
    (hs : Stop F m key (pos (2 ^ k) (F.h key).toNat t)) (hf : ∀ u, u < t → ¬ Stop F m key (pos (2 ^ k) (F.h key).toNat u)) :
    ∀ {fuel s}, s ≤ t → t < s + fuel →
    lookupLoop F m key (pos (2 ^ k) (F.h key).toNat 0) fuel (pos (2 ^ k) (F.h key).toNat s) s =
      .ok (if m.flags (pos (2 ^ k) (F.h key).toNat t) = .empty then 2 ^ k else pos (2 ^ k) (F.h key).toNat t)
  | 0, s, h1, h2 => by omega
  | fuel + 1, s, h1, h2 => by
    have hgo (h3 : s ≠ t) : (if next (m.n - 1) (pos (2 ^ k) (F.h key).toNat s) (s + 1) = pos (2 ^ k) (F.h key).toNat 0 then Out.ok m.n
        else lookupLoop F m key (pos (2 ^ k) (F.h key).toNat 0) fuel (next (m.n - 1) (pos (2 ^ k) (F.h key).toNat s) (s + 1)) (s + 1)) =
        (.ok (if m.flags (pos (2 ^ k) (F.h key).toNat t) = .empty then 2 ^ k else pos (2 ^ k) (F.h key).toNat t) : Out Unit Nat) := by
      rw [hn, next_pos hk, if_neg (fun he => by have := pos_inj (by omega) (Nat.two_pow_pos k) he; omega)]
      exact lookup_eq hk hn hm ht hs hf (by omega) (by omega)
    rw [lookupLoop, if_neg (by rw [hn]; exact Nat.not_le.2 pos_lt)]
    by_cases h3 : s = t
    · subst h3
      rcases hs with he | ⟨hl, k', hk', he⟩
      · rw [he, if_pos rfl, hn]
      · rw [hl, hk']
        dsimp only
        rw [if_pos he, if_neg (by decide)]
    · have hns := hf s (by omega)
      cases hfl : m.flags (pos (2 ^ k) (F.h key).toNat s) with
      | empty => exact absurd (Or.inl hfl) hns
      | del => exact hgo h3
      | live =>
        obtain ⟨k', hk'⟩ := Option.isSome_iff_exists.1 (hm _ (by rw [hn]; exact pos_lt) hfl)
        rw [hk']
        dsimp only
        rw [if_neg (fun he => hns (Or.inr ⟨hfl, k', hk', he⟩))]
        exact hgo h3

/-- What hsk_map_put's loop settles on. -/
theorem put_eq {m : Table κ ν} {key : κ} {k t : Nat} (hk : k ≤ 32) (hn : m.n = 2 ^ k) (hm : Keyed m) (ht : t < 2 ^ k)
    (hs : Stop F m key (pos (2 ^ k) (F.h key).toNat t)) (hf : ∀ u, u < t → ¬ Stop F m key (pos (2 ^ k) (F.h key).toNat u)) :
    ∀ {fuel s st}, s ≤ t → t < s + fuel →
    (st = 2 ^ k ∨ ∃ u, u < s ∧ st = pos (2 ^ k) (F.h key).toNat u ∧ m.flags st = .del) →
    ∃ u, u ≤ t ∧ putLoop F m key (pos (2 ^ k) (F.h key).toNat 0) fuel (pos (2 ^ k) (F.h key).toNat s) s st = .ok (pos (2 ^ k) (F.h key).toNat u) ∧
      (m.flags (pos (2 ^ k) (F.h key).toNat t) = .empty → u = t ∨ m.flags (pos (2 ^ k) (F.h key).toNat u) = .del) ∧
      (m.flags (pos (2 ^ k) (F.h key).toNat t) ≠ .empty → u = t)
  | 0, s, st, h1, h2, h3 => by omega
  | fuel + 1, s, st, h1, h2, h3 => by
    have hgo (st' : Nat) (h3 : s ≠ t) (h4 : st' = 2 ^ k ∨ ∃ u, u < s + 1 ∧ st' = pos (2 ^ k) (F.h key).toNat u ∧ m.flags st' = .del) :
        ∃ u, u ≤ t ∧ (if next (m.n - 1) (pos (2 ^ k) (F.h key).toNat s) (s + 1) = pos (2 ^ k) (F.h key).toNat 0 then
            Out.ok (if st' = m.n then pos (2 ^ k) (F.h key).toNat 0 else st')
          else putLoop F m key (pos (2 ^ k) (F.h key).toNat 0) fuel (next (m.n - 1) (pos (2 ^ k) (F.h key).toNat s) (s + 1)) (s + 1) st') =
          (.ok (pos (2 ^ k) (F.h key).toNat u) : Out Unit Nat) ∧
          (m.flags (pos (2 ^ k) (F.h key).toNat t) = .empty → u = t ∨ m.flags (pos (2 ^ k) (F.h key).toNat u) = .del) ∧
          (m.flags (pos (2 ^ k) (F.h key).toNat t) ≠ .empty → u = t) := by
      have e : m.n - 1 = 2 ^ k - 1 := by rw [hn]
      rw [e, next_pos hk, if_neg (fun he => by have := pos_inj (by omega) (Nat.two_pow_pos k) he; omega)]
      exact put_eq hk hn hm ht hs hf (by omega) (by omega) h4
    have h3' : st = 2 ^ k ∨ ∃ u, u < s + 1 ∧ st = pos (2 ^ k) (F.h key).toNat u ∧ m.flags st = .del := by
      rcases h3 with h | ⟨u, h, h'⟩
      · exact Or.inl h
      · exact Or.inr ⟨u, by omega, h'⟩
    rw [putLoop, if_neg (by rw [hn]; exact Nat.not_le.2 pos_lt)]
    by_cases h4 : s = t
    · subst h4
      rcases hs with he | ⟨hl, k', hk', he⟩
      · rw [he]
        dsimp only
        rcases h3 with h | ⟨u, hu, h, hd⟩
        · exact ⟨s, Nat.le_refl _, by rw [hn, if_pos h], fun _ => Or.inl rfl, fun _ => rfl⟩
        · refine ⟨u, by omega, ?_, fun _ => Or.inr (h ▸ hd), fun hc => absurd rfl hc⟩
          rw [if_neg (by rw [hn, h]; exact Nat.ne_of_lt pos_lt), h]
      · rw [hl, hk']
        dsimp only
        rw [if_pos he]
        exact ⟨s, Nat.le_refl _, rfl, (fun hc => by cases hc), fun _ => rfl⟩
    · have hns := hf s (by omega)
      cases hfl : m.flags (pos (2 ^ k) (F.h key).toNat s) with
      | empty => exact absurd (Or.inl hfl) hns
      | del => exact hgo _ h4 (Or.inr ⟨s, by omega, rfl, hfl⟩)
      | live =>
        obtain ⟨k', hk'⟩ := Option.isSome_iff_exists.1 (hm _ (by rw [hn]; exact pos_lt) hfl)
        rw [hk']
        dsimp only
        rw [if_neg (fun he => hns (Or.inr ⟨hfl, k', hk', he⟩))]
        exact hgo _ h4 h3'

end

end Verif.HMap
