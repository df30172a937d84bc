import Verif.Lemmas.PoolTimer
import Verif.Lemmas.Header
/-
The checks of a batch of headers, and the end of the requests of a peer.
-/
namespace Verif.Pool
open Verif.Spec.Pool
open Verif.Header (Hdr verifyPowHash)

theorem powHash_iff {H : Hdr → Bytes} (hH : ∀ h, (H h).length = 32) (h : Hdr) :
    verifyPowHash h.bits (H h) = .ok () ↔ Worked H h := by
  unfold verifyPowHash Worked
  cases ht : Header.powToTarget h.bits with
  | none => simp
  | some t =>
    have hl : (H h).length = t.length := by rw [hH, Header.powToTarget_length ht]
    simp only [memcmp_pos hl]
    split
    · simp only [reduceCtorEq, Option.some.injEq, exists_eq_left', false_iff]; omega
    · simp only [Option.some.injEq, exists_eq_left', true_iff]; omega

/-- The list `l` continues a batch whose last header hashes to `last`. -/
def Follows (last : Option Bytes) (l : List Hdr) : Prop := ∀ x h t, last = some x → l = h :: t → h.prevBlock = x

theorem vetted_iff {H : Hdr → Bytes} (hH : ∀ h, (H h).length = 32) : ∀ (l : List Hdr) (last : Option Bytes),
    vetted H last l = true ↔ Follows last l ∧ Linked H l ∧ ∀ h ∈ l, Worked H h
  | [], last => by
    refine ⟨fun _ => ⟨(fun x h t _ hc => by cases hc), ?_, (fun h hm => by cases hm)⟩, fun _ => rfl⟩
    intro t1 a b t2 hc
    cases t1 <;> cases hc
  | h :: l, last => by
    have ih := vetted_iff hH l (some (H h))
    have hlast : (last.isSome ∧ last ≠ some h.prevBlock) ↔ ¬ Follows last (h :: l) := by
      cases last with
      | none =>
        refine ⟨(fun hc => by cases hc.1), fun hc => ?_⟩
        exact absurd (fun x h t hx _ => by cases hx) hc
      | some y =>
        constructor
        · rintro ⟨_, hne⟩ hf
          exact hne (by rw [hf y h l rfl rfl])
        · intro hn
          refine ⟨rfl, fun hc => hn ?_⟩
          intro x a t hx hl
          cases hl
          rw [← Option.some.inj hx, Option.some.inj hc]
    have hlink : Linked H (h :: l) ↔ Follows (some (H h)) l ∧ Linked H l := by
      constructor
      · intro hl
        refine ⟨fun x a t hx hlt => ?_, fun t1 a b t2 he => hl (h :: t1) a b t2 (by rw [he]; rfl)⟩
        rw [← Option.some.inj hx]
        exact hl [] h a t (by rw [hlt]; rfl)
      · rintro ⟨h1, h2⟩ t1 a b t2 he
        cases t1 with
        | nil =>
          injection he with e1 e2
          subst e1
          exact h1 _ b t2 rfl e2
        | cons c t1 =>
          injection he with e1 e2
          exact h2 t1 a b t2 e2
    unfold vetted
    by_cases hc : last.isSome ∧ last ≠ some h.prevBlock
    · rw [if_pos hc]
      exact ⟨(fun hf => by cases hf), fun hf => absurd hf.1 (hlast.1 hc)⟩
    · rw [if_neg hc]
      have hf : Follows last (h :: l) := Classical.byContradiction fun hn => hc (hlast.2 hn)
      cases hp : verifyPowHash h.bits (H h) with
      | error er =>
        refine ⟨(fun hf => by cases hf), fun hw => ?_⟩
        have := (powHash_iff hH h).2 (hw.2.2 h (List.mem_cons_self ..))
        rw [hp] at this; cases this
      | ok u =>
        show vetted H (some (H h)) l = true ↔ _
        rw [ih, hlink]
        constructor
        · rintro ⟨h1, h2, h3⟩
          refine ⟨hf, ⟨h1, h2⟩, fun x hx => ?_⟩
          rcases List.mem_cons.1 hx with rfl | hx
          · exact (powHash_iff hH _).1 hp
          · exact h3 x hx
        · rintro ⟨_, ⟨h1, h2⟩, h3⟩
          exact ⟨h1, h2, fun x hx => h3 x (List.mem_cons_of_mem _ hx)⟩

theorem vetted_none {H : Hdr → Bytes} (hH : ∀ h, (H h).length = 32) {l : List Hdr} (hl : l.length ≤ 2000) :
    vetted H none l = true ↔ Vetted H l := by
  rw [vetted_iff hH]
  exact ⟨fun h => ⟨hl, h.2⟩, fun h => ⟨fun x h t hx _ => (by cases hx), h.2⟩⟩

/-- Headers before the first that is not taken. -/
theorem addAll_ban {e : Env} {td : Timedata.State Addrman.Key} {h : Hdr} {l2 : List Hdr} {rc : Chain.Rc} {c2 : Chain.State}
    (hrc : rc = .timeTooOld ∨ rc = .badDiffBits) : ∀ (l1 : List Hdr) {o o' : Bool} {n n' t t' : Nat} {c c1 : Chain.State},
    addAll e td l1 o n t c = .ok (.all o', c1, n', t') →
    Chain.add e.P e.H c1 (Timedata.adjusted td (e.clock t')) h = .ok (rc, c2) →
    addAll e td (l1 ++ h :: l2) o n t c = .ok (.ban, c2, n', t' + 1)
  | [], o, o', n, n', t, t', c, c1, h1, h2 => by
    cases Out.ok.inj h1
    show (Chain.add _ _ _ _ _).bind _ = _
    rw [h2]
    rcases hrc with rfl | rfl <;> rfl
  | a :: l1, o, o', n, n', t, t', c, c1, h1, h2 => by
    unfold addAll at h1
    obtain ⟨y, hy, h1⟩ := Out.bind_eq_ok.1 h1
    rw [List.cons_append]
    unfold addAll
    rw [hy]
    show (match y.1 with
      | .timeTooOld => _ | .badDiffBits => _ | .timeTooNew => _ | .orphan => _ | .duplicateOrphan => _ | .duplicate => _
      | .success => _ | .negTarget => _ | .highHash => _) = _
    cases hr : y.1 <;> rw [hr] at h1 <;> first | exact addAll_ban hrc l1 h1 h2 | (have := Out.ok.inj h1; cases this)

/-- A held request that is not held afterwards has been called back. -/
theorem called_of_gone {e : Env} {p p' : Pool} (h : Inv e p) (h' : Inv e p') {a : Option Nat} {r : Req} (hr : Held p a r)
    (hn : ¬ Held p' a r) (hl : ∃ l, p'.log = p.log ++ l) : calls r.no p.log = 0 ∧ calls r.no p'.log = 1 := by
  have hm := live_sub ((h.held a r).2 hr)
  obtain ⟨l, hl⟩ := hl
  constructor
  · rcases (calls_of_sound h.sound).1 r a hm with k | k
    · exact k.2
    · exact absurd rfl (k.1 _ ((h.held a r).2 hr))
  · rcases (calls_of_sound h'.sound).1 r a (by rw [hl]; exact List.mem_append_left _ hm) with k | k
    · exact absurd ((h'.held a r).1 k.1) hn
    · exact k.2

end Verif.Pool
