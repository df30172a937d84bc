import Verif.Lemmas.DnsMsg
/-
More room changes nothing.
-/
namespace Verif.Dns
open Verif.Bio Verif.DnsName Verif.Spec.DnsName Verif.Spec.Dns

/-- The same, unless the first is undefined. -/
def Ref {α : Type} (x y : Out Unit α) : Prop := x = .ub ∨ x = y

theorem Ref.refl {α : Type} (x : Out Unit α) : Ref x x := .inr rfl

theorem Ref.bind {α β : Type} {x y : Out Unit α} {f g : α → Out Unit β} (h : Ref x y) (hf : ∀ a, Ref (f a) (g a)) : Ref (x.bind f) (y.bind g) := by
  rcases h with rfl | rfl
  · exact .inl rfl
  · cases x with
    | ok a => exact hf a
    | err e => exact .inr rfl
    | ub => exact .inl rfl

theorem ref_store {base c c' : Nat} (h : c ≤ c') (cmp : Bool) (i n : Nat) : Ref (store ⟨base, c, cmp⟩ i n) (store ⟨base, c', cmp⟩ i n) := by
  unfold store
  dsimp only
  by_cases h1 : base + i + n ≤ c
  · rw [if_pos h1, if_pos (by omega)]; exact .refl _
  · rw [if_neg h1]; exact .inl rfl

theorem ref_serLoop {base c c' : Nat} (h : c ≤ c') (cmp : Bool) (s : Bytes) : ∀ (i : Nat) (cur : Bytes) (dot : Bool) (off : Nat) (out : Bytes) (t : Table),
    Ref (serLoop (some ⟨base, c, cmp⟩) s i cur dot off out t) (serLoop (some ⟨base, c', cmp⟩) s i cur dot off out t) := by
  induction s with
  | nil =>
    intro i cur dot off out t
    simp only [serLoop, finish]
    split; · exact .refl _
    split; · exact .refl _
    split; · exact .refl _
    split; · exact .refl _
    exact (ref_store h _ _ _).bind fun _ => .refl _
  | cons x s ih =>
    intro i cur dot off out t
    by_cases hx : x = 0x2e
    · subst hx
      cases dot with
      | true => simp only [serLoop]; exact .refl _
      | false =>
        by_cases hl : cur.length ≤ 63
        · rw [serLoop_dot_some _ _ _ _ _ _ hl, serLoop_dot_some _ _ _ _ _ _ hl]
          split; · exact .refl _
          refine (ref_store h _ _ _).bind fun _ => ?_
          have hf : find (some ⟨base, c, cmp⟩) t (cur ++ 0x2e :: s) = find (some ⟨base, c', cmp⟩) t (cur ++ 0x2e :: s) := rfl
          rw [hf]
          split
          · unfold finishPtr
            split; · exact .refl _
            split; · exact .refl _
            split; · exact .refl _
            exact (ref_store h _ _ _).bind fun _ => .refl _
          · refine (ref_store h _ _ _).bind fun _ => ?_
            exact ih _ _ _ _ _ _
        · have e : ∀ d, serLoop d (0x2e :: s) i cur false off out t = .ok ⟨false, off, out, t⟩ := by
            intro d
            cases d <;> rw [serLoop, if_neg (by simp), if_neg (by simp), if_pos (by omega)]
          rw [e, e]; exact .refl _
    · rw [serLoop_char _ hx, serLoop_char _ hx]
      exact ih _ _ _ _ _ _

/-- A writer to which more room makes no difference. -/
def Roomy (g : Option Sink → Wr) : Prop := ∀ c c' cmp off t, c ≤ c' → Ref (g (some ⟨c, cmp⟩) off t) (g (some ⟨c', cmp⟩) off t)

theorem roomy_bytes (b : Bytes) : Roomy (fun d => wBytes d b) := by
  intro c c' cmp off t h
  simp only [wBytes]
  by_cases h1 : off + b.length ≤ c
  · rw [if_pos h1, if_pos (by omega)]; exact .refl _
  · rw [if_neg h1]; exact .inl rfl

theorem roomy_name (s : Bytes) : Roomy (fun d => wName d s) := by
  intro c c' cmp off t h
  exact (ref_serLoop h cmp s _ _ _ _ _ _).bind fun _ => .refl _

theorem Roomy.seq {f g : Option Sink → Wr} (hf : Roomy f) (hg : Roomy g) : Roomy (fun d => wSeq (f d) (g d)) := by
  intro c c' cmp off t h
  exact (hf _ _ _ _ _ h).bind fun a => (hg _ _ _ _ _ h).bind fun b => .refl _

theorem roomy_all {α : Type} {f : Option Sink → α → Wr} (hf : ∀ a, Roomy (fun d => f d a)) (l : List α) : Roomy (fun d => wAll (l.map (f d))) := by
  induction l with
  | nil => intro c c' cmp off t h; exact .refl _
  | cons a l ih => exact (hf a).seq ih

theorem roomy_field (f : Field) (v : Val) : Roomy (fun d => wField d f v) := by
  cases f <;> cases v <;> first
    | exact roomy_bytes _
    | exact roomy_name _
    | exact (roomy_bytes _).seq (roomy_bytes _)
    | exact roomy_all (f := fun d b => wSeq (wBytes d (writeU8 b.length)) (wBytes d b)) (fun b => (roomy_bytes _).seq (roomy_bytes _)) _
    | exact fun _ _ _ _ _ _ => .refl _

theorem roomy_fields (fs : List Field) (vs : List Val) : Roomy (fun d => wFields d fs vs) := by
  induction fs generalizing vs with
  | nil => cases vs <;> exact fun _ _ _ _ _ _ => .refl _
  | cons f fs ih =>
    cases vs with
    | nil => exact fun _ _ _ _ _ _ => .refl _
    | cons v vs => exact (roomy_field f v).seq (ih vs)

theorem roomy_rr (r : Rr) : Roomy (fun d => wRr d r) := by
  refine (roomy_name _).seq ((roomy_bytes _).seq ((roomy_bytes _).seq ((roomy_bytes _).seq ?_)))
  cases r.rd with
  | none => exact roomy_bytes _
  | some vs =>
    intro c c' cmp off t h
    exact (roomy_fields _ _ _ _ _ _ _ h).bind fun a => (roomy_bytes _ _ _ _ _ _ h).bind fun l => .refl _

theorem roomy_item (i : Item) : Roomy (fun d => wItem d i) := by
  cases i with
  | inl q => exact (roomy_name _).seq ((roomy_bytes _).seq (roomy_bytes _))
  | inr r => exact roomy_rr r

theorem roomy_items (l : List Item) {c c' : Nat} (h : c ≤ c') {r : Nat × Bytes × Table} (hr : wAll (l.map (wItem (some ⟨c, true⟩))) 12 [] = .ok r) :
    wAll (l.map (wItem (some ⟨c', true⟩))) 12 [] = .ok r := by
  rcases roomy_all roomy_item l c c' true 12 [] h with e | e
  · dsimp only at e; rw [hr] at e; cases e
  · dsimp only at e; rw [← e, hr]

end Verif.Dns
