import Verif.Model.Aead
import Verif.Spec.Aead
import Verif.Lemmas.ChaCha
import Verif.Lemmas.Poly1305
/-
The AEAD: the context between the calls.
-/
namespace Verif.Aead
open Verif.Spec.Aead

attribute [local irreducible] Spec.ChaCha.block Spec.ChaCha.crypt Spec.Poly1305.mac

/-- The context after additional data `ad` and ciphertext `c`. -/
structure Inv (key iv ad c : Bytes) (a : Ctx) : Prop where
  place : ChaCha.Place key iv (64 + c.length) a.chacha
  poly : Poly1305.Inv (polyKey key iv) (if a.hasCipher then ad ++ Spec.Aead.pad16 ad ++ c else ad) a.poly
  aadLen : a.aadLen = ad.length % 2 ^ 64
  cipherLen : a.cipherLen = c.length % 2 ^ 64
  none : a.hasCipher = false → c = []

theorem crypt_length (key nonce : Bytes) (p : Nat) (m : Bytes) : (Spec.ChaCha.crypt key nonce p m).length = m.length := by
  unfold Spec.ChaCha.crypt; simp

theorem crypt_zeros (key nonce : Bytes) : Spec.ChaCha.crypt key nonce 0 (List.replicate 32 0) = polyKey key nonce := by
  unfold Spec.ChaCha.crypt polyKey
  apply List.ext_getElem
  · rw [List.length_mapIdx, List.length_take, ChaCha.block_length]; simp
  · intro i h1 h2
    have h1' := h1
    rw [List.length_mapIdx, List.length_replicate] at h1'
    rw [List.getElem_mapIdx, List.getElem_replicate, UInt8.zero_xor, List.getElem_take, Nat.zero_add]
    unfold Spec.ChaCha.keyByte
    rw [show i / 64 = 0 by omega, show i % 64 = i by omega, List.getD_eq_getElem?_getD, List.getElem?_eq_getElem (by rw [ChaCha.block_length]; omega)]
    rfl

theorem setup_spec (a : Ctx) (key iv : Bytes) (hk : key.length = 32) (hi : iv.length = 12) (hb : a.poly.buffer.length = 16) :
    ∃ a', setup a key iv = .ok a' ∧ Inv key iv [] [] a' ∧ a'.hasCipher = false := by
  obtain ⟨c1, e1, s1, s2, s3, _⟩ := ChaCha.setup_eq a.chacha key iv 0 hk hi
  have pl : ChaCha.Place key iv 0 c1 := ⟨⟨s1, s3⟩, s2, fun h => absurd s2 h⟩
  obtain ⟨c2, e2, h2⟩ := ChaCha.encrypt_spec key iv c1 0 (List.replicate 32 0) pl
  rw [crypt_zeros] at e2
  have hpk : (polyKey key iv).length = 32 := by rw [polyKey, List.length_take, ChaCha.block_length]; rfl
  obtain ⟨p, e3, h3⟩ := Poly1305.init_spec a.poly (polyKey key iv) hpk hb
  obtain ⟨c3, e4, h4⟩ := ChaCha.encrypt_spec key iv c2 _ (List.replicate 32 0) h2
  rw [List.length_replicate] at h4
  have hctr : ChaCha.counterGet c3 = 1 := by
    unfold ChaCha.counterGet
    rw [h4.ctr.2, if_neg (by decide), h4.ctr.1, ChaCha.state_getD]
    rfl
  unfold setup
  rw [e1]
  dsimp only [Out.bind]
  rw [e2]
  dsimp only [Out.bind]
  rw [e3]
  dsimp only [Out.bind]
  rw [e4]
  dsimp only [Out.bind]
  rw [if_pos hctr]
  exact ⟨_, rfl, ⟨h4, h3, rfl, rfl, fun _ => rfl⟩, rfl⟩

theorem aad_spec {key iv ad : Bytes} {a : Ctx} (d : Bytes) (h : Inv key iv ad [] a) (hc : a.hasCipher = false) :
    ∃ a', aad a d = .ok a' ∧ Inv key iv (ad ++ d) [] a' ∧ a'.hasCipher = false := by
  have hp := h.poly
  rw [hc, if_neg (by decide)] at hp
  obtain ⟨p, e, hp'⟩ := Poly1305.update_spec d hp
  unfold aad
  rw [hc, if_neg (by decide), e]
  refine ⟨_, rfl, ⟨h.place, ?_, ?_, h.cipherLen, fun _ => rfl⟩, rfl⟩
  · show Poly1305.Inv _ (if false = true then _ else _) p
    rw [if_neg (by decide)]
    exact hp'
  · show (a.aadLen + d.length) % 2 ^ 64 = _
    rw [h.aadLen, List.length_append]; omega

theorem aads_spec {key iv : Bytes} (l : List Bytes) {ad : Bytes} {a : Ctx} (h : Inv key iv ad [] a) (hc : a.hasCipher = false) :
    ∃ a', aads l a = .ok a' ∧ Inv key iv (ad ++ l.flatten) [] a' := by
  induction l generalizing ad a with
  | nil => exact ⟨a, rfl, by simpa using h⟩
  | cons d l ih =>
    obtain ⟨a1, e1, h1, c1⟩ := aad_spec d h hc
    obtain ⟨a2, e2, h2⟩ := ih h1 c1
    refine ⟨a2, ?_, by simpa using h2⟩
    unfold aads
    rw [e1]
    exact e2

/-- Padding what stands for `M ++ x` with `M` of whole blocks. -/
theorem pad16_spec {k M x : Bytes} {a : Ctx} (n : Nat) (hn : n % 16 = x.length % 16) (h : Poly1305.Inv k (M ++ x) a.poly) :
    ∃ p, pad16 a n = .ok { a with poly := p } ∧ Poly1305.Inv k (M ++ x ++ Spec.Aead.pad16 x) p := by
  unfold pad16 Spec.Aead.pad16
  dsimp only
  rw [hn]
  by_cases h0 : x.length % 16 = 0
  · rw [if_pos h0, h0]
    exact ⟨a.poly, rfl, by simpa using h⟩
  · rw [if_neg h0]
    obtain ⟨p, e, hp⟩ := Poly1305.update_spec (List.replicate (16 - x.length % 16) 0) h
    rw [e]
    refine ⟨p, rfl, ?_⟩
    rw [show (16 - x.length % 16) % 16 = 16 - x.length % 16 by omega]
    exact hp

/-- The padding before the text. -/
theorem begin_spec {key iv ad c : Bytes} {a : Ctx} (h : Inv key iv ad c a) :
    ∃ p, (if a.hasCipher then .ok a else pad16 a a.aadLen) = Out.ok { a with poly := p } ∧
      Poly1305.Inv (polyKey key iv) (ad ++ Spec.Aead.pad16 ad ++ c) p := by
  have hp := h.poly
  by_cases hc : a.hasCipher = true
  · rw [if_pos hc] at hp ⊢
    exact ⟨a.poly, rfl, hp⟩
  · rw [if_neg hc] at hp
    obtain ⟨p, e, hp'⟩ := pad16_spec (M := []) a.aadLen (by rw [h.aadLen]; omega) hp
    rw [if_neg hc, e]
    refine ⟨p, rfl, ?_⟩
    rw [h.none (by simpa using hc), List.append_nil]
    exact hp'

theorem encrypt_spec {key iv ad c : Bytes} {a : Ctx} (m : Bytes) (h : Inv key iv ad c a) :
    ∃ a', encrypt a m = .ok (a', Spec.ChaCha.crypt key iv (64 + c.length) m) ∧ Inv key iv ad (c ++ Spec.ChaCha.crypt key iv (64 + c.length) m) a' := by
  obtain ⟨p, e1, hp⟩ := begin_spec h
  obtain ⟨ch, e2, h2⟩ := ChaCha.encrypt_spec key iv a.chacha _ m h.place
  obtain ⟨p2, e3, h3⟩ := Poly1305.update_spec (Spec.ChaCha.crypt key iv (64 + c.length) m) hp
  unfold encrypt
  rw [e1]
  dsimp only [Out.bind]
  rw [e2]
  dsimp only [Out.bind]
  rw [e3]
  refine ⟨_, rfl, ?_, ?_, h.aadLen, ?_, fun hh => by cases hh⟩
  · rw [List.length_append, crypt_length, ← Nat.add_assoc]; exact h2
  · show Poly1305.Inv _ (if true = true then _ else _) p2
    rw [if_pos rfl, ← List.append_assoc]; exact h3
  · show (a.cipherLen + m.length) % 2 ^ 64 = _
    rw [h.cipherLen, List.length_append, crypt_length]; omega

theorem decrypt_spec {key iv ad c : Bytes} {a : Ctx} (m : Bytes) (h : Inv key iv ad c a) :
    ∃ a', decrypt a m = .ok (a', Spec.ChaCha.crypt key iv (64 + c.length) m) ∧ Inv key iv ad (c ++ m) a' := by
  obtain ⟨p, e1, hp⟩ := begin_spec h
  obtain ⟨ch, e2, h2⟩ := ChaCha.encrypt_spec key iv a.chacha _ m h.place
  obtain ⟨p2, e3, h3⟩ := Poly1305.update_spec m hp
  unfold decrypt
  rw [e1]
  dsimp only [Out.bind]
  rw [e3]
  dsimp only [Out.bind]
  rw [e2]
  refine ⟨_, rfl, ?_, ?_, h.aadLen, ?_, fun hh => by cases hh⟩
  · rw [List.length_append, ← Nat.add_assoc]; exact h2
  · show Poly1305.Inv _ (if true = true then _ else _) p2
    rw [if_pos rfl, ← List.append_assoc]; exact h3
  · show (a.cipherLen + m.length) % 2 ^ 64 = _
    rw [h.cipherLen, List.length_append]; omega

theorem encrypts_spec {key iv ad : Bytes} (l : List Bytes) {c : Bytes} {a : Ctx} (h : Inv key iv ad c a) :
    ∃ a' out, encrypts l a = .ok (a', out) ∧ out.flatten = Spec.ChaCha.crypt key iv (64 + c.length) l.flatten ∧
      out.map (·.length) = l.map (·.length) ∧ Inv key iv ad (c ++ out.flatten) a' := by
  induction l generalizing c a with
  | nil => exact ⟨a, [], rfl, by unfold Spec.ChaCha.crypt; rfl, rfl, by simpa using h⟩
  | cons m l ih =>
    obtain ⟨a1, e1, h1⟩ := encrypt_spec m h
    obtain ⟨a2, out, e2, f2, g2, h2⟩ := ih h1
    refine ⟨a2, Spec.ChaCha.crypt key iv (64 + c.length) m :: out, ?_, ?_, ?_, ?_⟩
    · unfold encrypts; rw [e1]; dsimp only [Out.bind]; rw [e2]
    · rw [List.flatten_cons, List.flatten_cons, f2, ChaCha.crypt_append, List.length_append, crypt_length, Nat.add_assoc]
    · rw [List.map_cons, List.map_cons, g2, crypt_length]
    · rw [List.flatten_cons, ← List.append_assoc]; exact h2

theorem decrypts_spec {key iv ad : Bytes} (l : List Bytes) {c : Bytes} {a : Ctx} (h : Inv key iv ad c a) :
    ∃ a' out, decrypts l a = .ok (a', out) ∧ out.flatten = Spec.ChaCha.crypt key iv (64 + c.length) l.flatten ∧
      out.map (·.length) = l.map (·.length) ∧ Inv key iv ad (c ++ l.flatten) a' := by
  induction l generalizing c a with
  | nil => exact ⟨a, [], rfl, by unfold Spec.ChaCha.crypt; rfl, rfl, by simpa using h⟩
  | cons m l ih =>
    obtain ⟨a1, e1, h1⟩ := decrypt_spec m h
    obtain ⟨a2, out, e2, f2, g2, h2⟩ := ih h1
    refine ⟨a2, Spec.ChaCha.crypt key iv (64 + c.length) m :: out, ?_, ?_, ?_, ?_⟩
    · unfold decrypts; rw [e1]; dsimp only [Out.bind]; rw [e2]
    · rw [List.flatten_cons, List.flatten_cons, f2, ChaCha.crypt_append, List.length_append, Nat.add_assoc]
    · rw [List.map_cons, List.map_cons, g2, crypt_length]
    · rw [List.flatten_cons, ← List.append_assoc]; exact h2

theorem final_spec {key iv ad c : Bytes} {a : Ctx} (h : Inv key iv ad c a) : final a = .ok (Spec.Aead.tag key iv ad c) := by
  obtain ⟨p, e1, hp⟩ := begin_spec h
  obtain ⟨p2, e2, hp2⟩ := pad16_spec (a := { a with poly := p }) a.cipherLen (by rw [h.cipherLen]; omega) hp
  obtain ⟨p3, e3, hp3⟩ := Poly1305.update_spec (leBytes 8 a.aadLen ++ leBytes 8 a.cipherLen) hp2
  unfold final
  dsimp only
  rw [e1]
  dsimp only [Out.bind]
  rw [e2]
  dsimp only [Out.bind]
  rw [e3]
  dsimp only [Out.bind]
  rw [Poly1305.finish_spec hp3]
  unfold Spec.Aead.tag Spec.Aead.macData
  rw [h.aadLen, h.cipherLen, show (2 : Nat) ^ 64 = 256 ^ 8 by decide, Sha256.leBytes_mod, Sha256.leBytes_mod, ← List.append_assoc]

theorem sealed_spec (a : Ctx) (key iv : Bytes) (ad ms : List Bytes) (hk : key.length = 32) (hi : iv.length = 12) (hb : a.poly.buffer.length = 16) :
    ∃ out, sealed a key iv ad ms = .ok (out, (Spec.Aead.encrypt key iv ad.flatten ms.flatten).2) ∧
      out.flatten = (Spec.Aead.encrypt key iv ad.flatten ms.flatten).1 ∧ out.map (·.length) = ms.map (·.length) := by
  obtain ⟨a1, e1, h1, c1⟩ := setup_spec a key iv hk hi hb
  obtain ⟨a2, e2, h2⟩ := aads_spec ad h1 c1
  obtain ⟨a3, out, e3, f3, g3, h3⟩ := encrypts_spec ms h2
  have hf := final_spec h3
  rw [List.nil_append, List.nil_append, f3] at hf
  refine ⟨out, ?_, f3, g3⟩
  unfold sealed
  rw [e1]
  dsimp only [Out.bind]
  rw [e2]
  dsimp only [Out.bind]
  rw [e3]
  dsimp only [Out.bind]
  rw [hf]
  rfl

theorem opened_spec (a : Ctx) (key iv : Bytes) (ad cs : List Bytes) (hk : key.length = 32) (hi : iv.length = 12) (hb : a.poly.buffer.length = 16) :
    ∃ out, opened a key iv ad cs = .ok (out, Spec.Aead.tag key iv ad.flatten cs.flatten) ∧
      out.flatten = Spec.Aead.crypt key iv cs.flatten ∧ out.map (·.length) = cs.map (·.length) := by
  obtain ⟨a1, e1, h1, c1⟩ := setup_spec a key iv hk hi hb
  obtain ⟨a2, e2, h2⟩ := aads_spec ad h1 c1
  obtain ⟨a3, out, e3, f3, g3, h3⟩ := decrypts_spec cs h2
  have hf := final_spec h3
  rw [List.nil_append, List.nil_append] at hf
  refine ⟨out, ?_, f3, g3⟩
  unfold opened
  rw [e1]
  dsimp only [Out.bind]
  rw [e2]
  dsimp only [Out.bind]
  rw [e3]
  dsimp only [Out.bind]
  rw [hf]

end Verif.Aead
