import Verif.Lemmas.Ec52
import Verif.Lemmas.EcdsaSign
import Verif.Spec.Ec52
/-
The keys of Model/Ec52, on five words, and those of Model/Elligator agree.
-/
namespace Verif.Ec52
open Verif Verif.Spec.Secp Verif.Field52

theorem parse_spec (pub : Bytes) :
    (parse pub = none ∧ Elligator.parse pub = none) ∨ ∃ k e, parse pub = some k ∧ Elligator.parse pub = some e ∧ KeyS k e := by
  unfold parse Elligator.parse
  cases pub with
  | nil => exact .inl ⟨rfl, rfl⟩
  | cons tag rest =>
    dsimp only
    by_cases h : (tag :: rest).length = 33 ∧ (tag = 2 ∨ tag = 3)
    swap
    · rw [if_neg h, if_neg h]; exact .inl ⟨rfl, rfl⟩
    rw [if_pos h, if_pos h]
    have hl : rest.length = 32 := Nat.succ.inj h.1
    have e1 : Elligator.setB32 rest = (((beNat rest : Nat) : F), decide (beNat rest < p)) := rfl
    rw [e1]
    dsimp only
    rw [← set_ok hl]
    rcases ho : (setB32 rest).2 with _ | _
    · exact .inl ⟨rfl, rfl⟩
    rw [if_pos rfl, if_pos rfl]
    rcases setXo_spec (set_normal hl ho) (tag == 3) with ⟨h1, h2⟩ | ⟨g, e, h1, h2, hg⟩
    · rw [h1, h2]; exact .inl ⟨rfl, rfl⟩
    · rw [h1, h2]; exact .inr ⟨_, _, rfl, rfl, save_spec hg (by decide)⟩

theorem serialize_spec {k : Pubkey} {e : F × F} (h : KeyS k e) : serialize k = Elligator.serialize e := by
  unfold serialize Elligator.serialize
  rcases load_spec h with ⟨h1, h2⟩ | ⟨h1, h2⟩
  · rw [h1, h2]
  rw [h1, h2]
  dsimp only
  rw [if_neg (by decide), (h.1.stands.normalizeVar (by decide)).getB32, (h.2.stands.normalizeVar (by decide)).isOdd, Elligator.isOdd]
  have e2 : Elligator.getB32 e.1 = beBytes 32 e.1.val := rfl
  rw [e2]
  rcases Nat.mod_two_eq_zero_or_one e.2.val with h | h <;> rw [h] <;> rfl

theorem pubkeyFromHash_spec {s : Bytes} (hs : s.length = 64) :
    (pubkeyFromHash s = none ∧ Elligator.pubkeyFromHash s = none) ∨
    ∃ k e, pubkeyFromHash s = some k ∧ Elligator.pubkeyFromHash s = some e ∧ KeyS k e := by
  have l1 : (s.take 32).length = 32 := by rw [List.length_take, hs]; rfl
  have l2 : ((s.drop 32).take 32).length = 32 := by rw [List.length_take, List.length_drop, hs]; rfl
  have h1 := (set_stands l1).normalize (by decide)
  have h2 := (set_stands l2).normalize (by decide)
  have hg := geSetGej_spec (addGe_spec (gej_spec (svdw_spec h1) (by decide)) ((svdw_spec h2).mono (by decide)))
  have e1 : Elligator.pubkeyFromHash s =
      if (Elligator.geSetGej (Elligator.addGe (Elligator.gejSetGe (Elligator.svdw ((beNat (s.take 32) : Nat) : F)))
        (Elligator.svdw ((beNat ((s.drop 32).take 32) : Nat) : F)))).infinity then none
      else some ((Elligator.geSetGej (Elligator.addGe (Elligator.gejSetGe (Elligator.svdw ((beNat (s.take 32) : Nat) : F)))
        (Elligator.svdw ((beNat ((s.drop 32).take 32) : Nat) : F)))).x,
        (Elligator.geSetGej (Elligator.addGe (Elligator.gejSetGe (Elligator.svdw ((beNat (s.take 32) : Nat) : F)))
        (Elligator.svdw ((beNat ((s.drop 32).take 32) : Nat) : F)))).y) := by
    unfold Elligator.pubkeyFromHash Elligator.setB32
    rfl
  rw [e1]
  unfold pubkeyFromHash
  dsimp only
  generalize geSetGej (addGe (gejSetGe (svdw (Field52.normalize (setB32 (s.take 32)).1))) (svdw (Field52.normalize (setB32 ((s.drop 32).take 32)).1))) = g at *
  generalize Elligator.geSetGej _ = e at *
  rw [hg.2.2]
  cases e.infinity with
  | true => exact .inl ⟨rfl, rfl⟩
  | false => exact .inr ⟨_, _, rfl, rfl, save_spec hg (by decide)⟩

theorem end_spec {r : Option Pubkey} {q : Option (F × F)}
    (hs : (r = none ∧ q = none) ∨ ∃ k e, r = some k ∧ q = some e ∧ KeyS k e) :
    fromHashEnd r = match (generalizing := false) q with | none => .err () | some k => Elligator.serialize k := by
  have he := @serialize_spec
  unfold fromHashEnd
  generalize serialize = f at *
  generalize Elligator.serialize = g at *
  rcases hs with ⟨rfl, rfl⟩ | ⟨k, e, rfl, rfl, h⟩
  · rfl
  · exact he h

theorem fromHash_spec {s : Bytes} (hs : s.length = 64) : fromHash s = Elligator.fromHash s := by
  have e := pubkeyFromHash_spec hs
  unfold Elligator.fromHash
  unfold fromHash
  generalize pubkeyFromHash s = a at *
  generalize Elligator.pubkeyFromHash s = b at *
  exact end_spec e

/-! ### The encoder -/

open Verif.Ecdsa (Rng rngInit rngGenerate)

theorem Reached.trans {a b c : Rng} (h1 : Reached a b) (h2 : Reached b c) : Reached a c := by
  induction h2 with
  | start => exact h1
  | word _ ih => exact .word ih
  | byte _ ih => exact .byte ih

theorem generate_length (g : Rng) : (rngGenerate g 32).2.length = 32 := by
  rw [rngGenerate]
  dsimp only
  rw [Lemmas.EcdsaSign.rngLoop_32]
  exact Hash.hmac_length _ _

theorem feRandom_spec {f : Nat} {g h : Rng} {u : Fe} (e : feRandom f g = some (u, h)) :
    ∃ r, Reached g r ∧ Reached g h ∧ beNat (rngGenerate r 32).2 < p ∧ Normal u ((beNat (rngGenerate r 32).2 : Nat) : F) := by
  induction f generalizing g with
  | zero => cases e
  | succ f ih =>
    rw [feRandom] at e
    have hl := generate_length g
    rcases ho : (setB32 (rngGenerate g 32).2).2 with _ | _
    · rw [ho, if_neg (by decide)] at e
      obtain ⟨r, h1, h2, h3⟩ := ih e
      exact ⟨r, (Reached.word .start).trans h1, (Reached.word .start).trans h2, h3⟩
    · rw [ho, if_pos rfl] at e
      have hn := set_normal hl ho
      have hp : beNat (rngGenerate g 32).2 < p := by rw [set_ok hl] at ho; exact of_decide_eq_true ho
      obtain ⟨rfl, rfl⟩ := Prod.mk.inj (Option.some.inj e)
      exact ⟨g, .start, .word .start, hp, hn⟩

theorem round_aux {a : Fe × Nat} {b : F × Bool} {c d : Rng} (h : (a.2 ≠ 0 ↔ b.2 = true) ∧ Stands 2 a.1 b.1) (hc : c = d) {t : Fe × Nat × Rng}
    (ht : t = (a.1, a.2, c)) : (t.2.1 ≠ 0 ↔ b.2 = true) ∧ Stands 2 t.1 b.1 ∧ t.2.2 = d := by
  subst ht
  exact ⟨h.1, h.2, hc⟩

theorem round_spec {j : Gej} {e : Elligator.Gej} (hj : GejS 8 j e) {u : Fe} {x : F} (hu : Normal u x) (rng : Rng) :
    ((toHashRound j u rng).2.1 ≠ 0 ↔
      (Elligator.invert (Elligator.geSetGej (Elligator.addGe e (Elligator.geNeg (Elligator.svdw x)))) (randomInt rng).1).2 = true) ∧
    Stands 2 (toHashRound j u rng).1
      (Elligator.invert (Elligator.geSetGej (Elligator.addGe e (Elligator.geNeg (Elligator.svdw x)))) (randomInt rng).1).1 ∧
    (toHashRound j u rng).2.2 = (rngGenerate rng 1).1 := by
  have h := invert_spec (geSetGej_spec (addGe_spec hj (neg_spec (svdw_spec hu) (by decide)))) (by decide) (randomInt rng).1
  have hr : (randomInt rng).2 = (rngGenerate rng 1).1 := by
    unfold randomInt
    generalize rngGenerate rng 1 = c
    rfl
  have e1 : toHashRound j u rng = ((invert (geSetGej (addGe j (geNeg (svdw u)))) (randomInt rng).1).1,
      (invert (geSetGej (addGe j (geNeg (svdw u)))) (randomInt rng).1).2, (randomInt rng).2) := rfl
  exact round_aux h hr e1

theorem loop_spec {j : Gej} {e : Elligator.Gej} (hj : GejS 8 j e) {f : Nat} {g : Rng} {u1 u2 : Fe} (h : toHashLoop j f g = some (u1, u2)) :
    ∃ r h, Reached g r ∧ Reached g h ∧ beNat (rngGenerate r 32).2 < p ∧ Normal u1 ((beNat (rngGenerate r 32).2 : Nat) : F) ∧
      ∃ x2, Stands 2 u2 x2 ∧ Elligator.invert (Elligator.geSetGej (Elligator.addGe e (Elligator.geNeg (Elligator.svdw
        ((beNat (rngGenerate r 32).2 : Nat) : F))))) (randomInt h).1 = (x2, true) := by
  induction f generalizing g with
  | zero => cases h
  | succ f ih =>
    rw [toHashLoop] at h
    rcases hd : feRandom (f + 1) g with _ | ⟨v, r⟩
    · rw [hd] at h; cases h
    rw [hd] at h
    unfold toHashStep at h
    dsimp only at h
    obtain ⟨s, h1, h2, h3, h4⟩ := feRandom_spec hd
    obtain ⟨k1, k2, k3⟩ := round_spec hj h4 r
    generalize toHashRound j v r = q at *
    obtain ⟨q1, q2, q3⟩ := q
    dsimp only at *
    by_cases hq : q2 ≠ 0
    · rw [if_pos hq] at h
      obtain ⟨rfl, rfl⟩ := Prod.mk.inj (Option.some.inj h)
      exact ⟨s, r, h1, h2, h3, h4, _, k2, Prod.ext rfl (k1.1 hq)⟩
    · rw [if_neg hq] at h
      obtain ⟨s', r', t1, t2, t3⟩ := ih h
      have : Reached g q3 := by rw [k3]; exact .byte h2
      exact ⟨s', r', this.trans t1, this.trans t2, t3⟩

theorem ell_loop {e : Elligator.Gej} {u x : F} {hint : Nat}
    (h : Elligator.invert (Elligator.geSetGej (Elligator.addGe e (Elligator.geNeg (Elligator.svdw u)))) hint = (x, true)) :
    Elligator.toHashLoop (fun _ => (u, hint)) e 1 0 = some (u, x) := by
  rw [Elligator.toHashLoop]
  dsimp only
  generalize Elligator.invert _ _ = q at *
  subst h
  rfl

theorem ell_toHash {draw : Nat → F × Nat} {f : Nat} {pub : Bytes} {k : F × F} {q : Elligator.Ge} {u1 u2 : F}
    (h1 : Elligator.parse pub = some k) (h2 : Elligator.pubkeyLoad k = .ok q)
    (h3 : Elligator.toHashLoop draw (Elligator.gejSetGe q) f 0 = some (u1, u2)) :
    Elligator.toHash draw f pub = .ok (Elligator.getB32 u1 ++ Elligator.getB32 u2) := by
  unfold Elligator.toHash
  rw [h1]
  dsimp only
  rw [h2]
  dsimp only
  rw [h3]

theorem toHashEnd_spec {r : Option (Fe × Fe)} {out : Bytes} (h : toHashEnd r = .ok out) :
    ∃ u1 u2, r = some (u1, u2) ∧ out = getB32 (Field52.normalize u1) ++ getB32 (Field52.normalize u2) := by
  rcases r with _ | ⟨u1, u2⟩
  · cases h
  · unfold toHashEnd at h
    dsimp only at h
    refine ⟨u1, u2, rfl, ?_⟩
    generalize getB32 (Field52.normalize u1) = a at *
    generalize getB32 (Field52.normalize u2) = b at *
    cases h
    rfl

theorem pubkeyToHash_spec {f : Nat} {k : Pubkey} {e : F × F} (hk : KeyS k e) {ent out : Bytes} (h : pubkeyToHash f k ent = .ok out) :
    ∃ g, GejS 8 (gejSetGe g) (Elligator.gejSetGe ⟨e.1, e.2, false⟩) ∧ Elligator.pubkeyLoad e = .ok ⟨e.1, e.2, false⟩ ∧
      toHashEnd (toHashLoop (gejSetGe g) f (rngInit ent)) = .ok out := by
  have hl := load_spec hk
  have hg : GeS 1 ⟨fromStorage k.x, fromStorage k.y, false⟩ ⟨e.1, e.2, false⟩ := ⟨hk.1.stands, hk.2.stands, rfl⟩
  have hj := gej_spec hg (by decide)
  unfold pubkeyToHash at h
  generalize pubkeyLoad k = l at *
  rcases hl with ⟨rfl, -⟩ | ⟨rfl, h2⟩
  · cases h
  · exact ⟨_, hj, h2, h⟩

theorem toHash_spec {f : Nat} {pub ent out : Bytes} (h : toHash f pub ent = .ok out) :
    ∃ r g, Reached (rngInit ent) r ∧ Reached (rngInit ent) g ∧ out.take 32 = (rngGenerate r 32).2 ∧
      Elligator.toHash (fun _ => (((beNat (rngGenerate r 32).2 : Nat) : F), (randomInt g).1)) 1 pub = .ok out := by
  have hp := parse_spec pub
  unfold toHash at h
  generalize hpp : parse pub = a at *
  rcases hp with ⟨rfl, -⟩ | ⟨k, e, rfl, he, hk⟩
  · cases h
  dsimp only at h
  obtain ⟨g, hj, hl, hx⟩ := pubkeyToHash_spec hk h
  obtain ⟨u1, u2, hu, rfl⟩ := toHashEnd_spec hx
  obtain ⟨r, h', t1, t2, t3, t4, x2, t5, t6⟩ := loop_spec hj hu
  have := ell_toHash he hl (ell_loop t6)
  have g1 := (t4.stands.normalize (by decide)).getB32
  have g2 := (t5.normalize (by decide)).getB32
  have l := generate_length r
  have hv : (((beNat (rngGenerate r 32).2 : Nat) : F)).val = beNat (rngGenerate r 32).2 := ZMod.val_cast_of_lt t3
  have hb : beBytes 32 (beNat (rngGenerate r 32).2) = (rngGenerate r 32).2 := by
    have := beBytes_beNat (rngGenerate r 32).2
    rw [l] at this
    exact this
  refine ⟨r, h', t1, t2, ?_, ?_⟩
  · rw [g1, hv, hb, List.take_left' l]
  · rw [this, g1, g2]
    rfl

end Verif.Ec52
