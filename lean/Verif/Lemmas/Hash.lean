import Verif.Model.Hash
import Verif.Spec.Hmac
import Verif.Lemmas.Sha256Stream
namespace Verif.Hash
open Verif.Words

theorem sha256_length (m : Bytes) : (Spec.Sha256.sha256 m).length = 32 := by
  unfold Spec.Sha256.sha256
  generalize (Spec.Sha256.split _ _).foldl _ _ = v
  simp

theorem hashOf_eq {mem : Bytes} (h : mem.length = 64) (l : List (Bool × Bytes)) (al : Bool) :
    Sha256.hashOf mem l al = .ok (Spec.Sha256.sha256 (l.map (·.2)).flatten) := by
  obtain ⟨c, e, hc⟩ := Sha256.updates_spec l (Sha256.init mem) [] (Sha256.inv_init mem h)
  unfold Sha256.hashOf
  rw [e]
  exact Sha256.final_spec al c _ hc

theorem hash256_eq {mem : Bytes} (h : mem.length = 64) (al : Nat → Bool) (data : Bytes) :
    hash256 al mem data = .ok (Spec.Sha256.sha256 (Spec.Sha256.sha256 data)) := by
  obtain ⟨c, e, hc⟩ := Sha256.updates_spec [(al 0, data)] (Sha256.init mem) [] (Sha256.inv_init mem h)
  unfold hash256
  rw [e]
  dsimp only [Out.bind]
  rw [Sha256.final_spec _ c _ hc]
  dsimp only [Out.bind]
  rw [hashOf_eq hc.size]
  simp

theorem padWith_eq (key : Bytes) (x : UInt8) :
    padWith key x = Spec.Hmac.xorWith x (key ++ List.replicate (64 - key.length) 0) := by
  simp [padWith, Spec.Hmac.xorWith]

theorem hmac_eq {mem : Nat → Bytes} (h : ∀ i, (mem i).length = 64) (al : Nat → Bool) (data key : Bytes) :
    hmac al mem data key = .ok (Spec.Hmac.hmac key data) := by
  have hk : ∃ k, (if key.length > 64 then sha256 al (mem 0) key else .ok key) = .ok k ∧ k.length ≤ 64 ∧
      k ++ List.replicate (64 - k.length) 0 = Spec.Hmac.blockKey key := by
    by_cases hl : key.length > 64
    · refine ⟨Spec.Sha256.sha256 key, ?_, by rw [sha256_length]; omega, by rw [Spec.Hmac.blockKey, if_pos hl]⟩
      rw [if_pos hl, sha256, hashOf_eq (h 0)]
      simp
    · exact ⟨key, by rw [if_neg hl], by omega, by rw [Spec.Hmac.blockKey, if_neg hl]⟩
  obtain ⟨k, ek, hk, hb⟩ := hk
  unfold hmac
  rw [ek]
  dsimp only [Out.bind]
  obtain ⟨i1, e1, h1⟩ := Sha256.update_spec (al 2) _ _ (padWith k 0x36) (Sha256.inv_init (mem 1) (h 1))
  obtain ⟨o1, e2, h2⟩ := Sha256.update_spec (al 3) _ _ (padWith k 0x5c) (Sha256.inv_init (mem 2) (h 2))
  rw [e1]
  dsimp only [Out.bind]
  rw [e2]
  dsimp only [Out.bind]
  obtain ⟨i2, e3, h3⟩ := Sha256.update_spec (al 4) i1 _ data h1
  rw [e3]
  dsimp only [Out.bind]
  rw [Sha256.final_spec _ _ _ h3]
  dsimp only [Out.bind]
  obtain ⟨o2, e4, h4⟩ := Sha256.update_spec (al 6) o1 _ (Spec.Sha256.sha256 ([] ++ padWith k 0x36 ++ data)) h2
  rw [e4]
  dsimp only [Out.bind]
  rw [Sha256.final_spec _ _ _ h4]
  rw [List.nil_append, List.nil_append, padWith_eq k _, padWith_eq k _, hb]
  rfl

theorem hmac_length (key text : Bytes) : (Spec.Hmac.hmac key text).length = 32 := sha256_length _

theorem expand_64 (f : Bytes → Bytes) (info : Bytes) (h : ∀ x, (f x).length = 32) :
    Spec.Hmac.expand f info 64 = f (info ++ [1]) ++ f (f (info ++ [1]) ++ info ++ [2]) := by
  have hr : List.range ((64 + 31) / 32) = [0, 1] := by decide
  have t1 : Spec.Hmac.T f info 1 = f (info ++ [1]) := rfl
  have t2 : Spec.Hmac.T f info 2 = f (f (info ++ [1]) ++ info ++ [2]) := rfl
  unfold Spec.Hmac.expand
  rw [hr]
  simp only [List.flatMap_cons, List.flatMap_nil, List.append_nil, Nat.zero_add, t1, Nat.reduceAdd, t2]
  rw [List.take_of_length_le (by rw [List.length_append, h, h])]

theorem hkdf_of {mem : Nat → Bytes} (al : Nat → Bool) (buf secret salt info : Bytes) (hi : info.length ≤ 512)
    (hb : buf.length = 32 + info.length + 1) (H : Bytes → Bytes → Bytes) (hH : ∀ data key, hmac al mem data key = .ok (H key data))
    (hL : ∀ k x, (H k x).length = 32) :
    hkdf al mem buf secret salt info = .ok (H (H salt secret) (info ++ [1]), H (H salt secret) (H (H salt secret) (info ++ [1]) ++ info ++ [2])) := by
  have hmc : ∀ (m b : Bytes) (i : Nat), i + b.length ≤ m.length → ∃ x, memcpy m i b = .ok x ∧ x = m.take i ++ b ++ m.drop (i + b.length) ∧ x.length = m.length :=
    fun m b i hh => ⟨_, memcpy_ok hh, rfl, Sha256.memcpy_length (memcpy_ok hh)⟩
  unfold hkdf
  rw [if_neg (by omega), hH]
  dsimp only [Out.bind]
  obtain ⟨b1, e1, v1, l1⟩ := hmc buf info 32 (by omega)
  rw [e1]
  dsimp only [Out.bind]
  obtain ⟨b2, e2, v2, l2⟩ := hmc b1 [1] (b1.length - 1) (by simp; omega)
  rw [e2]
  dsimp only [Out.bind]
  have hp : (buf.take 32).length = 32 := by rw [List.length_take]; omega
  have hpi : (buf.take 32 ++ info).length = 32 + info.length := by rw [List.length_append, hp]
  have w2 : b2 = buf.take 32 ++ info ++ [1] := by
    rw [v2, List.drop_of_length_le (by simp; omega), List.append_nil, v1]
    congr 1
    refine List.take_left' ?_
    simp only [List.length_append, List.length_take, List.length_drop]; omega
  have d2 : b2.drop 32 = info ++ [1] := by
    rw [w2, List.append_assoc]
    exact List.drop_left' hp
  rw [d2, hH]
  dsimp only [Out.bind]
  obtain ⟨b3, e3, v3, l3⟩ := hmc b2 (H (H salt secret) (info ++ [1])) 0 (by rw [hL]; omega)
  rw [e3]
  dsimp only [Out.bind]
  have w3 : b3 = H (H salt secret) (info ++ [1]) ++ info ++ [1] := by
    rw [v3, hL, d2]; simp
  have hl3 : (H (H salt secret) (info ++ [1]) ++ info).length = b3.length - 1 := by
    rw [List.length_append, hL]; omega
  have g3 : b3.getD (b3.length - 1) 0 = 1 := by
    rw [List.getD_eq_getElem?_getD, ← hl3]
    conv_lhs => rw [w3]
    rw [List.getElem?_append_right (by omega)]
    simp
  rw [g3]
  obtain ⟨b4, e4, v4, l4⟩ := hmc b3 [1 + 1] (b3.length - 1) (by simp; omega)
  rw [e4]
  dsimp only [Out.bind]
  have w4 : b4 = H (H salt secret) (info ++ [1]) ++ info ++ [2] := by
    have e2 : ([1 + 1] : Bytes) = [2] := by decide
    have ht : b3.take (b3.length - 1) = H (H salt secret) (info ++ [1]) ++ info := by
      conv_lhs => arg 2; rw [w3]
      exact List.take_left' hl3
    rw [v4, List.drop_of_length_le (by simp; omega), List.append_nil, ht, e2]
  rw [hH, w4]

theorem hkdf_eq {mem : Nat → Bytes} (h : ∀ i, (mem i).length = 64) (al : Nat → Bool) (buf secret salt info : Bytes)
    (hi : info.length ≤ 512) (hb : buf.length = 32 + info.length + 1) :
    hkdf al mem buf secret salt info = .ok ((Spec.Hmac.hkdf salt secret info 64).take 32, (Spec.Hmac.hkdf salt secret info 64).drop 32) := by
  rw [hkdf_of al buf secret salt info hi hb Spec.Hmac.hmac (hmac_eq h al) hmac_length]
  unfold Spec.Hmac.hkdf Spec.Hmac.extract
  rw [expand_64 _ info (hmac_length _), List.take_left' (hmac_length _ _), List.drop_left' (hmac_length _ _)]

end Verif.Hash
