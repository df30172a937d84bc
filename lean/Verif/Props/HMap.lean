import Verif.Lemmas.HMapInv
import Verif.Lemmas.Eval
import Verif.Model.HFns
/-
C33: the hash table is a dictionary.
-/
namespace Verif.Props.HMap
open Verif.HMap Verif.Spec.HMap

/-- C33. Whatever the hash function, any history of calls on a new table runs to its end, and every
call returns what it would of a dictionary, as long as that never holds 2^30 keys. -/
theorem C33_history {κ ν : Type} {F : Fns κ} (hF : Lawful F) (ops : List (Op κ ν)) (fits : Fits F (2 ^ 30) ops) :
    ∃ rs m d, run F init ops = .ok (rs, m) ∧ History F [] ops rs d := by
  obtain ⟨rs, m, d, h1, h2, _⟩ := run_ok hF inv_init fits
  exact ⟨rs, m, d, h1, h2⟩

/-- C33 (the answers are unique). Two histories of the same calls in which no insertion is refused
agree on every result but the order of the values. -/
theorem C33_unique {κ ν : Type} {F : Fns κ} {ops : List (Op κ ν)} : ∀ {d d₁ d₂ : List (κ × ν)} {rs₁ rs₂ : List (Ret ν)},
    (∀ k v mem, Op.set k v mem ∈ ops → mem = true) → History F d ops rs₁ d₁ → History F d ops rs₂ d₂ →
    d₁ = d₂ ∧ ∀ (i : Nat) (r : Ret ν), rs₁[i]? = some r → (∀ l, r ≠ .list l) → rs₂[i]? = some r := by
  induction ops with
  | nil =>
    intro d d₁ d₂ rs₁ rs₂ _ h1 h2
    cases h1; cases h2
    exact ⟨rfl, fun i r hr => by cases hr⟩
  | cons o os ih =>
    intro d d₁ d₂ rs₁ rs₂ hm h1 h2
    cases h1 with
    | cons c1 t1 =>
      cases h2 with
      | cons c2 t2 =>
        rename_i r1 e1 s1 r2 e2 s2
        have key : e1 = e2 ∧ ((∀ l, r1 ≠ .list l) → r1 = r2) := by
          cases c1 <;> cases c2 <;> first
            | exact ⟨rfl, fun _ => rfl⟩
            | exact ⟨rfl, fun h => absurd rfl (h _)⟩
            | exact absurd (hm _ _ _ List.mem_cons_self) (by decide)
        obtain ⟨hd, hr⟩ := key
        subst hd
        obtain ⟨k1, k2⟩ := ih (fun k v mem h => hm k v mem (List.mem_cons_of_mem _ h)) t1 t2
        refine ⟨k1, fun i r hi hl => ?_⟩
        cases i with
        | zero =>
          rw [List.getElem?_cons_zero] at hi ⊢
          cases hi
          rw [hr hl]
        | succ i =>
          rw [List.getElem?_cons_succ] at hi ⊢
          exact k2 i r hi hl

theorem lawful_of {κ α : Type} [DecidableEq α] (F : Fns κ) (f : κ → α) (he : ∀ a b, F.eq a b = true ↔ f a = f b)
    (hh : ∀ a b, f a = f b → F.h a = F.h b) : Lawful F :=
  ⟨fun a => (he a a).2 rfl, fun a b h => (he b a).2 ((he a b).1 h).symm,
   fun a b c h1 h2 => (he a c).2 (((he a b).1 h1).trans ((he b c).1 h2)), fun a b h => hh a b ((he a b).1 h)⟩

/-- C33 (the tables of the program). The hashes of equal keys are equal for every pair of functions
that a table is made with: block and name hashes, heights, names in a message, addresses of peers,
and cache keys. -/
theorem C33_tables : Lawful hashFns ∧ Lawful intFns ∧ Lawful strFns ∧ Lawful addrFns ∧ Lawful cacheFns := by
  refine ⟨lawful_of _ (fun k => k.take 32) (fun a b => by simp [hashFns]) (fun a b h => by simp only [hashFns, h]),
    lawful_of _ id (fun a b => by simp [intFns]) (fun a b h => by rw [show a = b from h]),
    lawful_of _ cstr (fun a b => by simp [strFns]) (fun a b h => by simp only [strFns, h]),
    lawful_of _ (fun a : Addr.Addr => (a.type, a.ip, a.port)) (fun a b => ?_) (fun a b h => ?_),
    lawful_of _ (fun k : CacheKey => (k.ref, (if k.ref then 0 else k.type), k.name)) (fun a b => ?_) (fun a b h => ?_)⟩
  · simp only [addrFns, Addr.equal, Prod.mk.injEq]
    by_cases h1 : a.type = b.type
    · by_cases h2 : a.ip = b.ip
      · by_cases h3 : a.port = b.port
        · simp [h1, h2, h3]
        · simp [h1, h2, h3]
      · simp [h1, h2]
    · simp [h1]
  · simp only [Prod.mk.injEq] at h
    simp only [addrFns, h.1, h.2.1, h.2.2]
  · obtain ⟨n, t, r⟩ := a
    obtain ⟨n', t', r'⟩ := b
    simp only [cacheFns, Prod.mk.injEq]
    by_cases h3 : n = n'
    · subst h3
      cases r <;> cases r' <;> simp
    · cases r <;> cases r' <;> simp [h3]
  · obtain ⟨n, t, r⟩ := a
    obtain ⟨n', t', r'⟩ := b
    simp only [Prod.mk.injEq] at h
    obtain ⟨h1, h2, h3⟩ := h
    subst h1; subst h3
    cases r with
    | true => simp only [cacheFns, if_true]
    | false =>
      rw [if_neg (by decide), if_neg (by decide)] at h2
      rw [show t = t' from h2]

/-- A hash that puts every key in the same place. -/
def same : Fns Nat := ⟨fun _ => 3, fun a b => a == b⟩

/-- Six insertions, of which one replaces and the table grows twice; a deletion; a reused bucket. -/
def calls : List (Op Nat Nat) :=
  [.set 1 10 true, .set 2 20 true, .set 3 30 true, .set 2 21 true, .set 4 40 true, .del 3, .set 5 50 true, .get 2, .get 3, .has 5,
   .size, .set 6 60 true, .set 7 70 true, .values, .del 9, .clear, .get 2, .size]

example : ∃ x, run same init calls = .ok x ∧ decide (x.1 = [.done true, .done true, .done true, .done true, .done true, .done true, .done true,
    .found (some 21), .found none, .done true, .num 4, .done true, .done true, .list [40, 70, 21, 10, 60, 50], .done false,
    .list [40, 70, 21, 10, 60, 50], .found none, .num 0] ∧ x.2.n = 8) = true :=
  okWith_spec (p := fun x : List (Ret Nat) × Table Nat Nat => decide (x.1 = _ ∧ x.2.n = 8)) (by decide +kernel)

example : Lawful same := lawful_of same id (fun a b => by simp [same]) (fun _ _ _ => rfl)

/-- Insertion without memory is refused, and changes nothing. -/
example : ∃ x, run same init [.set 1 10 true, .set 2 20 true, .set 3 30 true, .set 4 40 false, .get 4, .get 1, .size] = .ok x ∧
    decide (x.1 = [.done true, .done true, .done true, .done false, .found none, .found (some 10), .num 3]) = true :=
  okWith_spec (p := fun x : List (Ret Nat) × Table Nat Nat => decide (x.1 = _)) (by decide +kernel)

/-- Every history of fewer than 2^30 insertions fits. -/
theorem short_fits {κ ν : Type} (F : Fns κ) (ops : List (Op κ ν)) (h : ops.length < 2 ^ 30) : Fits F (2 ^ 30) ops := by
  have aux : ∀ {d : List (κ × ν)} {ops rs e}, History F d ops rs e → e.length ≤ d.length + ops.length := by
    intro d ops rs e hh
    induction hh with
    | nil => exact Nat.le_refl _
    | cons c _ ih =>
      rename_i d0 o r d1 os rs e _
      have : d1.length ≤ d0.length + 1 := by
        cases c with
        | set k v mem =>
          have := List.length_filter_le (fun e => !F.eq e.1 k) d0
          simp only [List.length_cons, without]
          omega
        | del k =>
          have := List.length_filter_le (fun e => !F.eq e.1 k) d0
          simp only [without]
          omega
        | clear l _ => simp only [List.length_nil]; omega
        | _ => omega
      rw [List.length_cons]
      omega
  intro pre post rs d he hh
  have := aux hh
  have hl : ops.length = pre.length + post.length := by rw [he, List.length_append]
  simp only [List.length_nil] at this
  omega

example : Fits same (2 ^ 30) calls := short_fits _ _ (by decide)

end Verif.Props.HMap
