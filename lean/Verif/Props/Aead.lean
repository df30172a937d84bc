import Verif.Lemmas.Aead
import Verif.Lemmas.Hash
import Verif.Spec.Transport
import Verif.Props.Brontide
/-
C65, C66 and C67: the stream cipher, the authenticator and the AEAD made of them. What the contexts
hold before is arbitrary.
-/
namespace Verif.Props.Aead
open Verif.Spec.Transport Verif.Spec.Brontide
open Verif.Brontide (Prim Env dial listen)

attribute [local irreducible] Spec.ChaCha.block Spec.Poly1305.mac Spec.Hmac.hmac Spec.Sha256.sha256

/-! ### C65 -/

/-- C65. With a key of 32 bytes, a nonce of 12 and any counter, texts encrypted one after another, of
any lengths, come out as ChaCha20 of RFC 8439 encrypts the whole; no access is out of bounds, and each
output is as long as its input. -/
theorem C65_chacha20 (c : ChaCha.Ctx) {key nonce : Bytes} (hk : key.length = 32) (hn : nonce.length = 12) (counter : UInt64) (l : List Bytes) :
    ∃ c' out, ((ChaCha.setup c key 32 nonce 12 counter).bind fun c => ChaCha.encrypts l c) = .ok (c', out) ∧
      out.flatten = Spec.ChaCha.crypt key nonce (64 * counter.toNat) l.flatten ∧ out.map (·.length) = l.map (·.length) := by
  obtain ⟨c1, e1, s1, s2, s3, _⟩ := ChaCha.setup_eq c key nonce counter hk hn
  have pl : ChaCha.Place key nonce (64 * counter.toNat) c1 := by
    refine ⟨⟨?_, s3⟩, ?_, fun h => absurd s2 h⟩
    · rw [show (64 * counter.toNat + 63) / 64 = counter.toNat by omega]; exact s1
    · rw [s2]; omega
  obtain ⟨c2, out, e2, f, g, _⟩ := ChaCha.encrypts_spec key nonce l c1 _ pl
  refine ⟨c2, out, ?_, f, g⟩
  rw [e1]
  exact e2

/-- C65. Decrypting, which is the same routine, gives the text back. -/
theorem C65_inverse (key nonce : Bytes) (start : Nat) (text : Bytes) :
    Spec.ChaCha.crypt key nonce start (Spec.ChaCha.crypt key nonce start text) = text ∧
      (Spec.ChaCha.crypt key nonce start text).length = text.length :=
  ⟨ChaCha.crypt_crypt key nonce start text, by unfold Spec.ChaCha.crypt; simp⟩

/-- The specification on the example of RFC 8439, 2.3.2, and the routine on that of 2.4.2 (its first
bytes), in two pieces. -/
def rfcKey : Bytes := (List.range 32).map UInt8.ofNat
example : Spec.ChaCha.block rfcKey 1 (beBytes 12 0x000000090000004a00000000) =
    beBytes 64 0x10f1e7e4d13b5915500fdd1fa32071c4c7d1f4c733c068030422aa9ac3d46c4ed2826446079faa0914c2d705d98b02a2b5129cd1de164eb9cbd083e8a2503c4e := by
  decide +kernel
example : ((ChaCha.setup ⟨List.replicate 16 9, List.replicate 64 9, 3, 8⟩ rfcKey 32 (beBytes 12 0x000000000000004a00000000) 12 1).bind fun c =>
    ChaCha.encrypts ["Ladies an".toUTF8.toList, "d Gentl".toUTF8.toList] c).bind (fun r => .ok r.2.flatten) = (.ok (beBytes 16 0x6e2e359a2568f98041ba0728dd0d6981) : Out Unit Bytes) := by
  decide +kernel

/-! ### C66 -/

/-- C66. However a message is cut into updates, the result is the Poly1305 tag of the whole, and no
access is out of bounds. -/
theorem C66_poly1305 (st : Poly1305.St) (hs : st.buffer.length = 16) (l : List Bytes) {key : Bytes} (hk : key.length = 32) :
    Poly1305.auth st l key = .ok (Spec.Poly1305.mac key l.flatten) := Poly1305.auth_spec st l key hk hs

/-- C66. Two tags pass the comparison exactly if they are equal. -/
theorem C66_verify {m1 m2 : Bytes} (h1 : m1.length = 16) (h2 : m2.length = 16) : Poly1305.verify m1 m2 = .ok (decide (m1 = m2)) :=
  Poly1305.verify_spec m1 m2 h1 h2

/-- The specification on the example of RFC 8439, 2.5.2; the routine on two where the sum
exceeds the prime, with a state that is not clear. -/
def junk : Poly1305.St := ⟨1, 2, 3, 4, 5, 6, 7, 8, 9, List.replicate 16 3, true⟩
example : Spec.Poly1305.mac (beBytes 32 0x85d6be7857556d337f4452fe42d506a80103808afb0db2fd4abff6af4149f51b)
    "Cryptographic Forum Research Group".toUTF8.toList = beBytes 16 0xa8061dc1305136c6c22b8baf0c0127a9 := by decide +kernel
example : Poly1305.auth junk [List.replicate 5 255, List.replicate 11 255] (2 :: List.replicate 31 0) = .ok (3 :: List.replicate 15 0) := by
  decide +kernel
example : Poly1305.auth junk [List.replicate 16 2] (beBytes 32 0x02000000000000000000000000000000ffffffffffffffffffffffffffffffff) =
    .ok (Spec.Poly1305.mac (beBytes 32 0x02000000000000000000000000000000ffffffffffffffffffffffffffffffff) (List.replicate 16 2)) := by
  decide +kernel

/-! ### C67 -/

/-- C67. Sealing: ciphertext and tag are those of RFC 8439, however the additional data and the text are
cut into pieces; no access is out of bounds and no assertion fails. -/
theorem C67_seal (a : Aead.Ctx) (ha : a.poly.buffer.length = 16) {key iv : Bytes} (hk : key.length = 32) (hi : iv.length = 12) (ad ms : List Bytes) :
    ∃ out, Aead.sealed a key iv ad ms = .ok (out, (Spec.Aead.encrypt key iv ad.flatten ms.flatten).2) ∧
      out.flatten = (Spec.Aead.encrypt key iv ad.flatten ms.flatten).1 ∧ out.map (·.length) = ms.map (·.length) :=
  Aead.sealed_spec a key iv ad ms hk hi ha

/-- C67. Opening and comparing the tag, as the transport does: it passes exactly if RFC 8439 decrypts,
and then the text is what it decrypts to. -/
theorem C67_open (a : Aead.Ctx) (ha : a.poly.buffer.length = 16) {key iv tag : Bytes} (hk : key.length = 32) (hi : iv.length = 12) (ad cs : List Bytes)
    (ht : tag.length = 16) :
    ∃ out t ok, Aead.opened a key iv ad cs = .ok (out, t) ∧ Poly1305.verify t tag = .ok ok ∧
      Spec.Aead.decrypt key iv ad.flatten cs.flatten tag = if ok then some out.flatten else none := by
  obtain ⟨out, e, f, _⟩ := Aead.opened_spec a key iv ad cs hk hi ha
  refine ⟨out, _, _, e, Poly1305.verify_spec _ _ (by unfold Spec.Aead.tag Spec.Poly1305.mac; simp) ht, ?_⟩
  unfold Spec.Aead.decrypt
  rw [f]
  by_cases h : Spec.Aead.tag key iv ad.flatten cs.flatten = tag
  · rw [if_pos h, decide_eq_true h, if_pos rfl]
  · rw [if_neg h, decide_eq_false h, if_neg (by decide)]

/-- C67. What was sealed is opened again, and under nothing but the same tag. -/
theorem C67_roundtrip (key iv ad text tag : Bytes) :
    Spec.Aead.decrypt key iv ad (Spec.Aead.encrypt key iv ad text).1 tag = if tag = (Spec.Aead.encrypt key iv ad text).2 then some text else none := by
  unfold Spec.Aead.decrypt Spec.Aead.encrypt
  dsimp only
  rw [show Spec.Aead.crypt key iv (Spec.Aead.crypt key iv text) = text from ChaCha.crypt_crypt key iv 64 text]
  by_cases h : tag = Spec.Aead.tag key iv ad (Spec.Aead.crypt key iv text)
  · rw [if_pos h, if_pos h.symm]
  · rw [if_neg h, if_neg (Ne.symm h)]

/-- C67. The laws the transport's theorems ask of hash and cipher hold: of the curve alone something is
left to ask. -/
theorem C67_laws (C : Curve) (hC : CurveLaws C) : Laws (prims C) where
  dec_enc k iv ad x := by
    show (Spec.Aead.crypt k iv (Spec.Aead.crypt k iv x), _) = _
    rw [show Spec.Aead.crypt k iv (Spec.Aead.crypt k iv x) = x from ChaCha.crypt_crypt k iv 64 x]
    rfl
  enc_len k iv ad x := (C65_inverse k iv 64 x).2
  tag_len k iv ad x := by
    show (Spec.Aead.tag k iv _ _).length = 16
    unfold Spec.Aead.tag Spec.Poly1305.mac
    simp
  pub_len := hC.pub_len
  pub_ok := hC.pub_ok
  hash_len := hC.hash_len
  hash_inv := hC.hash_inv
  ecdh_symm := hC.ecdh_symm
  ecdh_def := hC.ecdh_def

/-- C67. The keys and nonces with which the transport calls the cipher (`C38_sealed`, `C38_opened`) have
the lengths `C67_seal` and `C67_open` ask for. -/
theorem C67_schedule (C : Curve) {l : Line} (hl : l.key.length = 32) (i : Nat) :
    (keyAt (prims C) l i).length = 32 ∧ (ivAt i).length = 12 := by
  have he : ∀ n, (epoch (prims C) l n).key.length = 32 := by
    intro n
    cases n with
    | zero => exact hl
    | succ n =>
      show ((Spec.Hmac.hkdf _ _ [] 64).drop 32).length = 32
      unfold Spec.Hmac.hkdf
      rw [Hash.expand_64 _ [] (Hash.hmac_length _), List.drop_left' (Hash.hmac_length _ _), Hash.hmac_length]
  refine ⟨he _, ?_⟩
  unfold ivAt ivOf
  simp

/-- C67. What `C39_agree` says of two honest ends, with the primitives the program has; only the curve
is a parameter. -/
theorem C67_transport {σ τ : Type} (C : Curve) (hC : CurveLaws C) (EI : Env σ) (ER : Env τ) {s r ei er : KeyPair}
    (hs : C.pubOf s.priv = some s.pub) (hr : C.pubOf r.priv = some r.pub)
    (hei : Draws (prims C) EI.rand ei) (her : Draws (prims C) ER.rand er) (hi : σ) (hh : τ) (ops : List (NetOp σ τ)) :
    ∃ mi mr n, dial (prims C) EI hi s.priv r.pub = .ok mi ∧ listen (prims C) ER hh r.priv = .ok mr ∧
      netRun (prims C) EI ER ops ⟨mi, mr, 0, 0⟩ = .ok n ∧
      ((∀ x ∈ writes n.i.trace, x.length ≤ maxSize) → (∀ x ∈ writes n.r.trace, x.length ≤ maxSize) →
        messages n.i.trace <+: writes n.r.trace ∧ messages n.r.trace <+: writes n.i.trace ∧
        (¬ Cut n.i.trace → ¬ Cut n.r.trace → Quiet n →
          messages n.i.trace = writes n.r.trace ∧ messages n.r.trace = writes n.i.trace)) := by
  obtain ⟨mi, mr, n, h1, h2, h3, h4⟩ := Brontide.C39_agree (prims C) (C67_laws C hC) EI ER hs hr hei her hi hh ops
  refine ⟨mi, mr, n, h1, h2, h3, fun a b => ?_⟩
  obtain ⟨p1, p2, _, _, p3⟩ := h4 a b
  exact ⟨p1, p2, fun c d e => ⟨(p3 c d e).2.2.2.1, (p3 c d e).2.2.2.2⟩⟩

/-- The routine on the example of RFC 8439, 2.8.2, in pieces: the ciphertext's first bytes and the tag
(by `C67_seal` those of the specification); the context hsk_aead_init makes. -/
def sun : Bytes := "Ladies and Gentlemen of the class of '99: If I could offer you only one tip for the future, sunscreen would be it.".toUTF8.toList
def sunKey : Bytes := (List.range 32).map fun i => UInt8.ofNat (0x80 + i)
example : (Aead.sealed Aead.init sunKey (beBytes 12 0x070000004041424344454647) [beBytes 12 0x50515253c0c1c2c3c4c5c6c7] [sun.take 20, sun.drop 20]).bind
    (fun r => .ok (r.1.flatten.take 16, r.2)) =
    (.ok (beBytes 16 0xd31a8d34648e60db7b86afbc53ef7ec2, beBytes 16 0x1ae10b594f09e26a7e902ecbd0600691) : Out Unit (Bytes × Bytes)) := by decide +kernel
example : Aead.init.poly.buffer.length = 16 := rfl

/-- A curve for which the laws hold (that of the toy in the transport's file). -/
example : CurveLaws ⟨Brontide.toy.pubOf, Brontide.toy.ecdh, Brontide.toy.toHash, Brontide.toy.fromHash, Brontide.toy.okKey⟩ :=
  ⟨Brontide.toy_laws.pub_len, Brontide.toy_laws.pub_ok, Brontide.toy_laws.hash_len, Brontide.toy_laws.hash_inv, Brontide.toy_laws.ecdh_symm,
    Brontide.toy_laws.ecdh_def⟩

end Verif.Props.Aead
