import Verif.Lemmas.Ec52Points
import Verif.Lemmas.SecpNonceG
/-
An encoding of the base point, made with the random bytes 0, …, 0, 2: one HMAC at a time.
-/
namespace Verif.Lemmas.Ec52Vector
open Verif Verif.Spec.Secp Verif.Spec.Hmac Verif.Field52 Verif.Ec52 Verif.Ecdsa

theorem h1 : hmac (List.replicate 32 0) (List.replicate 32 1 ++ [0] ++ beBytes 32 2) = (beBytes 32 0x7701fd982d9e660cb2837b5ba478fadac4aab9f3b0360e8cfd77cdc1d74dd708) := by decide +kernel
theorem h2 : hmac (beBytes 32 0x7701fd982d9e660cb2837b5ba478fadac4aab9f3b0360e8cfd77cdc1d74dd708) (List.replicate 32 1) = (beBytes 32 0x592fabdbb181c4ed3a723d9d482c44546493b486c3a393f73ed203a2973d20c3) := by decide +kernel
theorem h3 : hmac (beBytes 32 0x7701fd982d9e660cb2837b5ba478fadac4aab9f3b0360e8cfd77cdc1d74dd708) ((beBytes 32 0x592fabdbb181c4ed3a723d9d482c44546493b486c3a393f73ed203a2973d20c3) ++ [1] ++ beBytes 32 2) = (beBytes 32 0x3b828608492761dde54ddee44c114116333822a4b662c946d6555b42c3b14b82) := by decide +kernel
theorem h4 : hmac (beBytes 32 0x3b828608492761dde54ddee44c114116333822a4b662c946d6555b42c3b14b82) (beBytes 32 0x592fabdbb181c4ed3a723d9d482c44546493b486c3a393f73ed203a2973d20c3) = (beBytes 32 0xa91e77905ad381fdad97a5cc3d290653dc9ffde206f1188df32be33d43081afd) := by decide +kernel
theorem h5 : hmac (beBytes 32 0x3b828608492761dde54ddee44c114116333822a4b662c946d6555b42c3b14b82) (beBytes 32 0xa91e77905ad381fdad97a5cc3d290653dc9ffde206f1188df32be33d43081afd) = (beBytes 32 0xae6dfe1f5466c9f2ebaf5e769d61f814295e939c22a41367fdb868b04a5eb731) := by decide +kernel
theorem h6 : hmac (beBytes 32 0x3b828608492761dde54ddee44c114116333822a4b662c946d6555b42c3b14b82) ((beBytes 32 0xae6dfe1f5466c9f2ebaf5e769d61f814295e939c22a41367fdb868b04a5eb731) ++ [0]) = (beBytes 32 0x7a1ae9f5fe48c620df76c8ec49c8bc63866c13cde65913abba786a6fac860f81) := by decide +kernel
theorem h7 : hmac (beBytes 32 0x7a1ae9f5fe48c620df76c8ec49c8bc63866c13cde65913abba786a6fac860f81) (beBytes 32 0xae6dfe1f5466c9f2ebaf5e769d61f814295e939c22a41367fdb868b04a5eb731) = (beBytes 32 0xd91acd0755cd723d8683e4221f006176db455c9b1491cee1dfbcf25cd221e287) := by decide +kernel
theorem h8 : hmac (beBytes 32 0x7a1ae9f5fe48c620df76c8ec49c8bc63866c13cde65913abba786a6fac860f81) (beBytes 32 0xd91acd0755cd723d8683e4221f006176db455c9b1491cee1dfbcf25cd221e287) = (beBytes 32 0x8c73ff17136a65f6e159335c8e616e25fd3684e94337a627a02f6b291b34ebc3) := by decide +kernel

theorem init : rngInit (beBytes 32 2) = ⟨(beBytes 32 0xa91e77905ad381fdad97a5cc3d290653dc9ffde206f1188df32be33d43081afd), (beBytes 32 0x3b828608492761dde54ddee44c114116333822a4b662c946d6555b42c3b14b82), false⟩ := by
  rw [rngInit]
  rw [h1, h2, h3, h4]

theorem word : rngGenerate ⟨(beBytes 32 0xa91e77905ad381fdad97a5cc3d290653dc9ffde206f1188df32be33d43081afd), (beBytes 32 0x3b828608492761dde54ddee44c114116333822a4b662c946d6555b42c3b14b82), false⟩ 32 = (⟨(beBytes 32 0xae6dfe1f5466c9f2ebaf5e769d61f814295e939c22a41367fdb868b04a5eb731), (beBytes 32 0x3b828608492761dde54ddee44c114116333822a4b662c946d6555b42c3b14b82), true⟩, (beBytes 32 0xae6dfe1f5466c9f2ebaf5e769d61f814295e939c22a41367fdb868b04a5eb731)) := by
  rw [EcdsaSign.generate_first _ rfl, h5]

theorem byte : rngGenerate ⟨(beBytes 32 0xae6dfe1f5466c9f2ebaf5e769d61f814295e939c22a41367fdb868b04a5eb731), (beBytes 32 0x3b828608492761dde54ddee44c114116333822a4b662c946d6555b42c3b14b82), true⟩ 1 = (⟨(beBytes 32 0x8c73ff17136a65f6e159335c8e616e25fd3684e94337a627a02f6b291b34ebc3), (beBytes 32 0x7a1ae9f5fe48c620df76c8ec49c8bc63866c13cde65913abba786a6fac860f81), true⟩, [0x8c]) := by
  rw [rngGenerate]
  dsimp only
  rw [if_pos rfl]
  dsimp only
  rw [h6, h7, rngLoop, if_pos (by decide)]
  dsimp only
  rw [h8, rngLoop]
  rfl

theorem draw : feRandom 1 (rngInit (beBytes 32 2)) = some ((setB32 (beBytes 32 0xae6dfe1f5466c9f2ebaf5e769d61f814295e939c22a41367fdb868b04a5eb731)).1, ⟨(beBytes 32 0xae6dfe1f5466c9f2ebaf5e769d61f814295e939c22a41367fdb868b04a5eb731), (beBytes 32 0x3b828608492761dde54ddee44c114116333822a4b662c946d6555b42c3b14b82), true⟩) := by
  have h : (setB32 (beBytes 32 0xae6dfe1f5466c9f2ebaf5e769d61f814295e939c22a41367fdb868b04a5eb731)).2 = true := by decide +kernel
  rw [init, feRandom, word]
  dsimp only
  rw [if_pos h]

theorem hint : randomInt ⟨(beBytes 32 0xae6dfe1f5466c9f2ebaf5e769d61f814295e939c22a41367fdb868b04a5eb731), (beBytes 32 0x3b828608492761dde54ddee44c114116333822a4b662c946d6555b42c3b14b82), true⟩ = (0x8c, ⟨(beBytes 32 0x8c73ff17136a65f6e159335c8e616e25fd3684e94337a627a02f6b291b34ebc3), (beBytes 32 0x7a1ae9f5fe48c620df76c8ec49c8bc63866c13cde65913abba786a6fac860f81), true⟩) := by
  rw [randomInt, byte]
  rfl

/-- One round of the encoder, with the numbers drawn. -/
def once (pub : Bytes) (u : Fe) (h : Nat) : Out Unit Bytes :=
  match parse pub with
  | none => .err ()
  | some k =>
    match pubkeyLoad k with
    | .ok g =>
      let q := invert (geSetGej (addGe (gejSetGe g) (geNeg (svdw u)))) h
      if q.2 ≠ 0 then .ok (getB32 (normalize u) ++ getB32 (normalize q.1)) else .err ()
    | .err e => .err e
    | .ub => .ub

theorem step_aux {j : Gej} {u : Fe} {g g' : Rng} {q : Fe × Nat} (e : toHashRound j u g = (q.1, q.2, g')) (next : Rng → Option (Fe × Fe))
    (hn : ∀ g, next g = none) :
    toHashEnd (toHashStep j next (some (u, g))) = if q.2 ≠ 0 then .ok (getB32 (normalize u) ++ getB32 (normalize q.1)) else .err () := by
  rw [toHashStep, e]
  by_cases hq : q.2 ≠ 0
  · rw [if_pos hq, if_pos hq]; rw [toHashEnd]
  · rw [if_neg hq, if_neg hq, hn]; rw [toHashEnd]

theorem step_eq {j : Gej} {u : Fe} {g : Rng} {h : Nat} (hh : (randomInt g).1 = h) (next : Rng → Option (Fe × Fe)) (hn : ∀ g, next g = none) :
    toHashEnd (toHashStep j next (some (u, g))) = if (invert (geSetGej (addGe j (geNeg (svdw u)))) h).2 ≠ 0 then
      .ok (getB32 (normalize u) ++ getB32 (normalize (invert (geSetGej (addGe j (geNeg (svdw u)))) h).1)) else .err () := by
  have e : toHashRound j u g = ((invert (geSetGej (addGe j (geNeg (svdw u)))) (randomInt g).1).1,
      (invert (geSetGej (addGe j (geNeg (svdw u)))) (randomInt g).1).2, (randomInt g).2) := rfl
  rw [hh] at e
  exact step_aux e next hn

theorem toHash_once {pub ent : Bytes} {u : Fe} {g : Rng} {h : Nat} (hd : feRandom 1 (rngInit ent) = some (u, g)) (hh : (randomInt g).1 = h) :
    toHash 1 pub ent = once pub u h := by
  unfold toHash once
  cases parse pub with
  | none => rfl
  | some k =>
    dsimp only
    unfold pubkeyToHash
    cases pubkeyLoad k with
    | ok p =>
      dsimp only
      rw [toHashLoop, hd]
      exact step_eq hh _ fun _ => by rw [toHashLoop]
    | err e => rfl
    | ub => rfl

/-- The encoding. -/
def gCode : Bytes := beBytes 64 0xae6dfe1f5466c9f2ebaf5e769d61f814295e939c22a41367fdb868b04a5eb731c0add42e23399a5facc7500a6c0c6f8269086c8b625c34c26e2be0666cf99c2c

theorem gCode_eq : toHash 1 (2 :: beBytes 32 gx) (beBytes 32 2) = .ok gCode := by
  rw [toHash_once draw (congrArg Prod.fst hint)]
  decide +kernel

end Verif.Lemmas.Ec52Vector
