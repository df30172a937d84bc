import Verif.Lemmas.PeerList
import Verif.Lemmas.Eval
/-
C51, at the level of pointers.
-/
namespace Verif.Props.PeerList
open Verif.PeerList
open Verif.Spec.PeerList

variable {κ : Type} [DecidableEq κ]

/-- C51. After any history of refills, destructions, releases of memory and timer runs the
linked list, tail, counter and index describe one list of peers without duplicates, of at
most the configured length and held in live memory; on the way no pointer to released
memory was followed and no assertion failed. -/
theorem C51_history (max : Nat) (es : List (Ev κ)) : ∃ s l, run (init max) es = .ok s ∧ Consistent s l ∧ s.max = max := by
  obtain ⟨s, l, h1, h2, h3⟩ := run_ok (init_ok max) es
  exact ⟨s, l, h1, h2.cons, h3⟩

/-- C51. What the list becomes with each further event. -/
theorem C51_step (max : Nat) (es : List (Ev κ)) (e : Ev κ) :
    ∃ s l s', run (init max) es = .ok s ∧ Consistent s l ∧ run (init max) (es ++ [e]) = .ok s' ∧
      Consistent s' (after max s.fresh l e) := by
  have key : ∀ (es : List (Ev κ)) (s0 : State κ), run s0 (es ++ [e]) = (run s0 es).bind fun s => step s e := by
    intro es
    induction es with
    | nil =>
      intro s0
      show ((step s0 e).bind fun s => run s []) = step s0 e
      cases step s0 e <;> rfl
    | cons x es ih =>
      intro s0
      show ((step s0 x).bind fun s => run s (es ++ [e])) = ((step s0 x).bind fun s => run s es).bind fun s => step s e
      cases step s0 x with
      | ok s1 => exact ih s1
      | err e => rfl
      | ub => rfl
  obtain ⟨s, l, h1, h2, h3⟩ := run_ok (init_ok max) es
  obtain ⟨s', k1, k2, _, _⟩ := step_ok h2 e
  refine ⟨s, l, s', h1, h2.cons, ?_, ?_⟩
  · rw [key, h1]; exact k1
  · have hm : s.max = max := h3
    rw [hm] at k2; exact k2.cons

/-- C51. The timer visits each peer of the list exactly once, whichever it destroys. -/
theorem C51_sweep (max : Nat) (es : List (Ev κ)) (kill : Nat → Bool) :
    ∃ s l s', run (init max) es = .ok s ∧ Consistent s l ∧
      sweep kill (s.size + 1) s s.head = .ok (s', l.map (·.1)) ∧ Consistent s' (l.filter fun x => !kill x.1) := by
  obtain ⟨s, l, h1, h2, _⟩ := run_ok (init_ok max) es
  obtain ⟨s', k1, k2, _, _⟩ := sweep_ok kill l [] s (s.size + 1) h2 (by rw [h2.cons.size]; omega)
  refine ⟨s, l, s', h1, h2.cons, ?_, k2.cons⟩
  rw [linked_head h2.cons.linked]; exact k1

/-! ### A history -/

/-- Three peers come, the middle one fails and is released, a fourth cannot be opened, the
first is destroyed by the timer, and a peer with the address of the second comes again. -/
def sample : List (Ev Nat) :=
  [.refill 10 true, .refill 20 true, .refill 20 true, .refill 30 true, .destroy 1, .release 1, .refill 40 false, .destroy 1,
   .timer (fun i => i = 0), .release 0, .refill 20 true]

example : okWith (fun (s : State Nat) => s.head = some 2 ∧ s.tail = some 4 ∧ s.size = 2 ∧ s.index = [(20, 4), (30, 2)] ∧
    s.heap 2 = some ⟨30, some 4, false⟩ ∧ s.heap 4 = some ⟨20, none, false⟩ ∧ s.heap 1 = none ∧ s.heap 0 = none ∧
    s.heap 3 = some ⟨40, none, true⟩) (run (init 8) sample) = true := by decide +kernel

/-- The maximum is kept. -/
example : okWith (fun (s : State Nat) => s.size = 2 ∧ s.index = [(20, 1), (10, 0)])
    (run (init 2) [.refill 10 true, .refill 20 true, .refill 30 true]) = true := by decide +kernel

/-- Destroying the last peer moves the tail back; destroying the only peer clears it. -/
example : okWith (fun (s : State Nat) => s.head = some 0 ∧ s.tail = some 0 ∧ s.heap 0 = some ⟨10, none, false⟩)
    (run (init 2) [.refill 10 true, .refill 20 true, .destroy 1]) = true := by decide +kernel
example : okWith (fun (s : State Nat) => s.head = none ∧ s.tail = none ∧ s.size = 0)
    (run (init 2) [.refill 10 true, .destroy 0]) = true := by decide +kernel

end Verif.Props.PeerList
