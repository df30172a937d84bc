import Verif.Lemmas.Framing
import Verif.Lemmas.Eval
/-
C36. The handler of messages is any function on any state, so the theorems hold in
particular for the handler that records the messages it is given.
-/
namespace Verif.Props.Framing
open Verif.Framing
open Verif.Spec.Framing (cut meaning End)
open Verif.Msg (Msg)

/-- C36. However a stream is cut into reads, what happens is the meaning of the stream: the
same messages are handled in the same order, with the same effect, and the connection goes
on or is given up alike. -/
theorem C36_stream {σ : Type} (magic : Nat) (handle : σ → Msg → Out Unit (Bool × σ)) (chunks : List Bytes) (s : σ) :
    (readAll magic handle chunks fresh s).bind (fun r => .ok (r.1, r.2.2)) = meaning magic handle chunks.flatten s :=
  (readAll_spec magic handle chunks fresh s [] (rep_fresh magic) (by decide) (fun _ => rfl)).1

/-- C36. Two ways to cut one stream leave a connection that goes on in the same state,
the contents of its buffer included. -/
theorem C36_split {σ : Type} (magic : Nat) (handle : σ → Msg → Out Unit (Bool × σ)) {a b : List Bytes} (h : a.flatten = b.flatten)
    (s : σ) {f : Frame} {s' : σ} (hr : readAll magic handle a fresh s = .ok (true, f, s')) :
    readAll magic handle b fresh s = .ok (true, f, s') := by
  have ha := readAll_spec magic handle a fresh s [] (rep_fresh magic) (by decide) (fun _ => rfl)
  have hb := readAll_spec magic handle b fresh s [] (rep_fresh magic) (by decide) (fun _ => rfl)
  have hv : view (readAll magic handle b fresh s) = .ok (true, s') := by
    rw [hb.1, ← h, ← ha.1, hr]; rfl
  obtain ⟨⟨x, g, y⟩, hx, hy⟩ := Out.bind_eq_ok.1 hv
  have := Out.ok.inj hy
  simp only [Prod.mk.injEq] at this
  obtain ⟨rfl, rfl⟩ := this
  obtain ⟨r1, h1, h2, _, h4⟩ := ha.2 f y hr
  obtain ⟨r2, k1, k2, _, k4⟩ := hb.2 g y hx
  rw [h] at h1
  rw [h1] at k1
  have hrr := End.inside.inj k1
  subst hrr
  rw [hx, rep_unique h2 k2 h4 k4]

/-- C36. A header with another magic, or announcing more than 8000000 bytes, ends the
connection. -/
theorem C36_bad {σ : Type} (magic : Nat) (handle : σ → Msg → Out Unit (Bool × σ)) (chunks : List Bytes) (s : σ)
    (hbad : (cut magic chunks.flatten).2 = .bad) {go : Bool} {f : Frame} {s' : σ}
    (hr : readAll magic handle chunks fresh s = .ok (go, f, s')) : go = false := by
  have h := C36_stream magic handle chunks s
  unfold meaning at h
  rw [hr, hbad] at h
  cases hd : Spec.Framing.deliver handle (cut magic chunks.flatten).1 s with
  | ub => rw [hd] at h; cases h
  | err e => rw [hd] at h; cases h
  | ok r =>
    rw [hd] at h
    have := Out.ok.inj h
    simp only [Prod.mk.injEq] at this
    rw [this.1]; simp

/-- C36. Between reads the buffer holds less than the size it was allocated with, which is 9
before a header and the announced size, at most 8000000, after it. -/
theorem C36_buffer {σ : Type} (magic : Nat) (handle : σ → Msg → Out Unit (Bool × σ)) (chunks : List Bytes) (s : σ)
    {f : Frame} {s' : σ} (hr : readAll magic handle chunks fresh s = .ok (true, f, s')) :
    f.buf.length < f.need ∧ (f.hdr = false → f.need = 9) ∧ f.need ≤ 8000000 := by
  obtain ⟨r, _, h2, h3, _⟩ :=
    (readAll_spec magic handle chunks fresh s [] (rep_fresh magic) (by decide) (fun _ => rfl)).2 f s' hr
  refine ⟨h3, ?_, ?_⟩
  · rcases h2 with h2 | h2
    · exact fun _ => h2.2.2.1
    · intro hc; rw [h2.1] at hc; cases hc
  · rcases h2 with h2 | h2
    · rw [h2.2.2.1]; decide
    · exact h2.2.2.2.2.2.1

/-- C36. The reader itself never runs into undefined behaviour: if the handler does not and
no message is malformed so that decoding it does, neither do the reads. -/
theorem C36_defined {σ : Type} (magic : Nat) (handle : σ → Msg → Out Unit (Bool × σ)) (hh : ∀ s m, handle s m ≠ .ub)
    (chunks : List Bytes) (hd : ∀ x ∈ (cut magic chunks.flatten).1, Msg.decode x.1 x.2 ≠ .ub) (s : σ) :
    readAll magic handle chunks fresh s ≠ .ub := by
  intro hc
  have h := C36_stream magic handle chunks s
  rw [hc] at h
  have key : ∀ (l : List (Nat × Bytes)), (∀ x ∈ l, Msg.decode x.1 x.2 ≠ .ub) → ∀ s : σ, Spec.Framing.deliver handle l s ≠ .ub := by
    intro l
    induction l with
    | nil => intro _ s hx; cases hx
    | cons x l ih =>
      obtain ⟨c, p⟩ := x
      intro hl s
      rw [deliver_cons]
      by_cases hk : c ∈ [0, 1, 2, 3, 4, 5, 10, 11, 12, 26, 27]
      · rw [if_pos hk]
        have hnd := hl (c, p) (List.mem_cons_self ..)
        cases hdec : Msg.decode c p with
        | ub => exact absurd hdec hnd
        | err e => intro hx; cases hx
        | ok m =>
          dsimp only
          cases hhm : handle s m with
          | ub => exact absurd hhm (hh s m)
          | err e => intro hx; cases hx
          | ok r =>
            obtain ⟨b, s'⟩ := r
            cases b with
            | false => intro hx; cases hx
            | true => exact ih (fun x hx => hl x (List.mem_cons_of_mem _ hx)) s'
      · rw [if_neg hk]
        exact ih (fun x hx => hl x (List.mem_cons_of_mem _ hx)) s
  unfold meaning at h
  have := key _ hd s
  cases hdel : Spec.Framing.deliver handle (cut magic chunks.flatten).1 s with
  | ub => exact this hdel
  | err e => rw [hdel] at h; cases h
  | ok r => rw [hdel] at h; cases h

/-! ### Concrete streams -/

/-- Counts pings by their nonce. -/
def sumPings (s : Nat) : Msg → Out Unit (Bool × Nat)
  | .ping n => .ok (true, s + n)
  | _ => .ok (true, s)

/-- Two pings (nonces 5 and 7) with an unknown message between them, and half a header. -/
def sample : Bytes :=
  [0xd3, 0xf2, 0x6e, 0x5b, 2, 8, 0, 0, 0, 5, 0, 0, 0, 0, 0, 0, 0,
   0xd3, 0xf2, 0x6e, 0x5b, 99, 0, 0, 0, 0,
   0xd3, 0xf2, 0x6e, 0x5b, 2, 8, 0, 0, 0, 7, 0, 0, 0, 0, 0, 0, 0,
   0xd3, 0xf2, 0x6e]

example : okWith (fun (r : Bool × Frame × Nat) => r.1 = true ∧ r.2.2 = 12 ∧ r.2.1.buf = [0xd3, 0xf2, 0x6e])
    (readAll 0x5b6ef2d3 sumPings [sample] fresh 0) = true := by decide +kernel

/-- Byte by byte. -/
example : okWith (fun (r : Bool × Frame × Nat) => r.1 = true ∧ r.2.2 = 12 ∧ r.2.1.buf = [0xd3, 0xf2, 0x6e])
    (readAll 0x5b6ef2d3 sumPings (sample.map fun b => [b]) fresh 0) = true := by decide +kernel

/-- A foreign magic after the first message. -/
example : okWith (fun (r : Bool × Frame × Nat) => r.1 = false ∧ r.2.2 = 5)
    (readAll 0x5b6ef2d3 sumPings [sample.take 17 ++ [1, 2, 3, 4, 2, 0, 0], [0, 0], sample] fresh 0) = true := by decide +kernel

/-- A length of 8000001. -/
example : okWith (fun (r : Bool × Frame × Nat) => r.1 = false ∧ r.2.2 = 0)
    (readAll 0x5b6ef2d3 sumPings [[0xd3, 0xf2, 0x6e, 0x5b, 2, 1, 0x12, 0x7a, 0]] fresh 0) = true := by decide +kernel

end Verif.Props.Framing
