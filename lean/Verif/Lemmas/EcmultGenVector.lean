import Verif.Lemmas.EcmultGen
import Verif.Lemmas.Ec52Vector
/-
A new context: its blinding, one HMAC at a time.
-/
namespace Verif.Lemmas.EcmultGenVector
open Verif Verif.Spec.Secp Verif.Spec.Hmac Verif.Field52 Verif.Ec52 Verif.Ecdsa Verif.EcmultGen

theorem h1 : hmac (List.replicate 32 0) (List.replicate 32 1 ++ [0] ++ beBytes 32 1) = (beBytes 32 0xae125b1dc36f9296fcf2d2f6f4918c42529962b4321cc1620f6971d4572be1dd) := by decide +kernel
theorem h2 : hmac (beBytes 32 0xae125b1dc36f9296fcf2d2f6f4918c42529962b4321cc1620f6971d4572be1dd) (List.replicate 32 1) = (beBytes 32 0x33f3c2fa9639ad2035a86dad5ca26694052b2c715f0714780e2d40f72ebcf100) := by decide +kernel
theorem h3 : hmac (beBytes 32 0xae125b1dc36f9296fcf2d2f6f4918c42529962b4321cc1620f6971d4572be1dd) ((beBytes 32 0x33f3c2fa9639ad2035a86dad5ca26694052b2c715f0714780e2d40f72ebcf100) ++ [1] ++ beBytes 32 1) = (beBytes 32 0x8b6a50dee30abbd4e754a9c84d240e3d28d9515285ab27606d0f572870f952b4) := by decide +kernel
theorem h4 : hmac (beBytes 32 0x8b6a50dee30abbd4e754a9c84d240e3d28d9515285ab27606d0f572870f952b4) (beBytes 32 0x33f3c2fa9639ad2035a86dad5ca26694052b2c715f0714780e2d40f72ebcf100) = (beBytes 32 0x1152baf99aba4728bd5bd15b0ca00fb5f897c00c2206e98d32805ab37cfa4939) := by decide +kernel
theorem h5 : hmac (beBytes 32 0x8b6a50dee30abbd4e754a9c84d240e3d28d9515285ab27606d0f572870f952b4) (beBytes 32 0x1152baf99aba4728bd5bd15b0ca00fb5f897c00c2206e98d32805ab37cfa4939) = (beBytes 32 0xa9b61104997e5af86fdf838239d351dbb34c02702c1e7f5af29b6b83235b347d) := by decide +kernel
theorem h6 : hmac (beBytes 32 0x8b6a50dee30abbd4e754a9c84d240e3d28d9515285ab27606d0f572870f952b4) ((beBytes 32 0xa9b61104997e5af86fdf838239d351dbb34c02702c1e7f5af29b6b83235b347d) ++ [0]) = (beBytes 32 0x78ecd978414988389daa93322a67484fe9b37ba5c4d71858fdfeabc111f5512e) := by decide +kernel
theorem h7 : hmac (beBytes 32 0x78ecd978414988389daa93322a67484fe9b37ba5c4d71858fdfeabc111f5512e) (beBytes 32 0xa9b61104997e5af86fdf838239d351dbb34c02702c1e7f5af29b6b83235b347d) = (beBytes 32 0x359ff0f1e34aba12f22ae02d0ed50b7ef6e3603b82bf0b7b473cb33176657a37) := by decide +kernel
theorem h8 : hmac (beBytes 32 0x78ecd978414988389daa93322a67484fe9b37ba5c4d71858fdfeabc111f5512e) (beBytes 32 0x359ff0f1e34aba12f22ae02d0ed50b7ef6e3603b82bf0b7b473cb33176657a37) = (beBytes 32 0x83c0f0a785a9d6186d02826f10a417d16b61474270eda3628d1b08f74c07218b) := by decide +kernel

theorem init : rngInit (beBytes 32 1) = ⟨(beBytes 32 0x1152baf99aba4728bd5bd15b0ca00fb5f897c00c2206e98d32805ab37cfa4939), (beBytes 32 0x8b6a50dee30abbd4e754a9c84d240e3d28d9515285ab27606d0f572870f952b4), false⟩ := by
  rw [rngInit]
  rw [h1, h2, h3, h4]

theorem word : rngGenerate ⟨(beBytes 32 0x1152baf99aba4728bd5bd15b0ca00fb5f897c00c2206e98d32805ab37cfa4939), (beBytes 32 0x8b6a50dee30abbd4e754a9c84d240e3d28d9515285ab27606d0f572870f952b4), false⟩ 32 = (⟨(beBytes 32 0xa9b61104997e5af86fdf838239d351dbb34c02702c1e7f5af29b6b83235b347d), (beBytes 32 0x8b6a50dee30abbd4e754a9c84d240e3d28d9515285ab27606d0f572870f952b4), true⟩, (beBytes 32 0xa9b61104997e5af86fdf838239d351dbb34c02702c1e7f5af29b6b83235b347d)) := by
  rw [EcdsaSign.generate_first _ rfl, h5]

theorem word2 : rngGenerate ⟨(beBytes 32 0xa9b61104997e5af86fdf838239d351dbb34c02702c1e7f5af29b6b83235b347d), (beBytes 32 0x8b6a50dee30abbd4e754a9c84d240e3d28d9515285ab27606d0f572870f952b4), true⟩ 32 = (⟨(beBytes 32 0x83c0f0a785a9d6186d02826f10a417d16b61474270eda3628d1b08f74c07218b), (beBytes 32 0x78ecd978414988389daa93322a67484fe9b37ba5c4d71858fdfeabc111f5512e), true⟩, (beBytes 32 0x83c0f0a785a9d6186d02826f10a417d16b61474270eda3628d1b08f74c07218b)) := by
  rw [rngGenerate]
  dsimp only
  rw [if_pos rfl]
  dsimp only
  rw [h6, h7, rngLoop, if_pos (by decide)]
  dsimp only
  rw [h8, rngLoop]
  rfl

theorem field : drawField 1 ⟨(beBytes 32 0x1152baf99aba4728bd5bd15b0ca00fb5f897c00c2206e98d32805ab37cfa4939), (beBytes 32 0x8b6a50dee30abbd4e754a9c84d240e3d28d9515285ab27606d0f572870f952b4), false⟩ = some (⟨(beBytes 32 0xa9b61104997e5af86fdf838239d351dbb34c02702c1e7f5af29b6b83235b347d), (beBytes 32 0x8b6a50dee30abbd4e754a9c84d240e3d28d9515285ab27606d0f572870f952b4), true⟩, (setB32 (beBytes 32 0xa9b61104997e5af86fdf838239d351dbb34c02702c1e7f5af29b6b83235b347d)).1) := by
  have h : (!(setB32 (beBytes 32 0xa9b61104997e5af86fdf838239d351dbb34c02702c1e7f5af29b6b83235b347d)).2 || isZero (setB32 (beBytes 32 0xa9b61104997e5af86fdf838239d351dbb34c02702c1e7f5af29b6b83235b347d)).1) = false := by decide +kernel
  rw [drawField, word]
  dsimp only
  rw [h]
  rfl

theorem scalar : drawScalar 1 ⟨(beBytes 32 0xa9b61104997e5af86fdf838239d351dbb34c02702c1e7f5af29b6b83235b347d), (beBytes 32 0x8b6a50dee30abbd4e754a9c84d240e3d28d9515285ab27606d0f572870f952b4), true⟩ = some (Scalar64.setB32 (beBytes 32 0x83c0f0a785a9d6186d02826f10a417d16b61474270eda3628d1b08f74c07218b)).1 := by
  have h : (decide ((Scalar64.setB32 (beBytes 32 0x83c0f0a785a9d6186d02826f10a417d16b61474270eda3628d1b08f74c07218b)).2 ≠ 0) || Scalar64.isZero (Scalar64.setB32 (beBytes 32 0x83c0f0a785a9d6186d02826f10a417d16b61474270eda3628d1b08f74c07218b)).1) = false := by decide +kernel
  rw [drawScalar, word2]
  dsimp only
  rw [h]
  rfl

theorem build_some (mem : Ctx) : ∃ c, build 1 mem = some c := by
  have e : Scalar64.getB32 (Scalar64.setInt 1) ++ (none : Option Bytes).getD [] = beBytes 32 1 := by decide +kernel
  exact EcmultGen.blind_new (by rw [show ([] : Bytes) = (none : Option Bytes).getD [] from rfl, e, init]) field scalar

end Verif.Lemmas.EcmultGenVector
