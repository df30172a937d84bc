import Verif.Lemmas.SecpNonceG
import Verif.Lemmas.SecpVector
import Verif.Props.Sig0
import Verif.Props.Ec
import Verif.Spec.Blake2b
/-
C78: signatures over secp256k1, and the signed answers of the name server.
-/
namespace Verif.Props.Ecdsa
open Verif Verif.Spec.Secp Verif.Spec.Secdsa Verif.Ec Verif.Ecdsa Verif.Lemmas
open WeierstrassCurve.Affine

attribute [local irreducible] Spec.Sha256.sha256 Spec.Hmac.hmac Elligator.sqrt

/-- C78. Exactly the valid signatures with the smaller of the two second numbers are accepted, under the compressed forms
of points; nothing ends the process. -/
theorem C78_verify (pub msg sig : Bytes) (hl : sig.length = 64) : ∃ b, verifyMsg pub msg sig = .ok b ∧
    (b = true ↔ ∃ Q, compress Q = some pub ∧ Valid Q msg sig ∧ Low sig) := Lemmas.Ecdsa.verifyMsg_spec hl msg

/-- C78. From an accepted signature no other is made by changing the sign of the second number. -/
theorem C78_twin {pub msg sig twin : Bytes} (hl : sig.length = 64) (ht : twin.length = 64) (h : verifyMsg pub msg sig = .ok true)
    (hs : sOf twin = n - sOf sig) : verifyMsg pub msg twin = .ok false := by
  obtain ⟨b, h1, h2⟩ := C78_verify pub msg sig hl
  obtain ⟨c, h3, h4⟩ := C78_verify pub msg twin ht
  rw [h] at h1
  cases h1
  obtain ⟨-, -, -, hlow⟩ := h2.1 rfl
  cases c with
  | false => exact h3
  | true =>
    obtain ⟨-, -, -, hlow'⟩ := h4.1 rfl
    exfalso
    rw [Low] at hlow hlow'
    have := EcdsaSign.n_odd
    omega

/-- C78. Who has no private key makes no signature. -/
theorem C78_key (fuel : Nat) {key : Bytes} (hk : ¬ (0 < beNat key ∧ beNat key < n)) (msg : Bytes) : signMsg fuel key msg = none :=
  EcdsaSign.signWith_bad hk msg

/-- C78. Who has one makes a signature, as soon as a suitable candidate for the random number comes up. -/
theorem C78_signs {fuel i : Nat} {key msg : Bytes} (hk : 0 < beNat key ∧ beNat key < n) (hi : i < fuel)
    (h : Suitable key msg (candidate key msg i)) : ∃ sig rec, signMsg fuel key msg = some (sig, rec) := by
  refine EcdsaSign.signWith_of hk hi ?_
  rw [EcdsaSign.nonce_candidate]
  exact EcdsaSign.taken_of h

/-- C78. A signature has 64 bytes, and the smaller of the two second numbers. -/
theorem C78_form {fuel rec : Nat} {key msg sig : Bytes} (h : signMsg fuel key msg = some (sig, rec)) :
    sig.length = 64 ∧ Low sig ∧ 0 < sOf sig ∧ rOf sig < n := by
  obtain ⟨-, h1, h2, h3, ⟨i, -, -, x, y, hn, -, h4⟩, -⟩ := EcdsaSign.signWith_some h
  exact ⟨h1, h2, h3, by rw [h4]; exact Nat.mod_lt _ SecpOrder.n_prime.pos⟩

/-- C78. A signature is valid, unless its first number is 0. Its random number is the first suitable candidate of RFC 6979,
computed from the digest as it is. -/
theorem C78_sign_partial {fuel rec : Nat} {key msg sig : Bytes} (h : signMsg fuel key msg = some (sig, rec)) (hr : rOf sig ≠ 0) :
    Valid (beNat key • G) msg sig ∧ ∃ i, Suitable key msg (candidate key msg i) ∧
      (∀ j < i, ¬ Suitable key msg (candidate key msg j)) ∧
      ∃ x y h, candidate key msg i • G = Point.some x y h ∧ rOf sig = x.val % n := by
  obtain ⟨-, -, -, -, ⟨i, h1, h2, x, y, hn, h3, h4⟩, h5⟩ := EcdsaSign.signWith_some h
  refine ⟨h5 hr, i, ?_, fun j hj hs => h2 j hj ?_, x, y, hn, ?_, h4⟩
  · rw [← EcdsaSign.nonce_candidate]
    exact EcdsaSign.suitable_of h1 h3 (h4 ▸ hr)
  · rw [EcdsaSign.nonce_candidate]; exact EcdsaSign.taken_of hs
  · rw [← EcdsaSign.nonce_candidate]; exact h3

/-- C78. The program accepts its own signatures, unless the first number is 0. -/
theorem C78_accepts_partial {fuel rec : Nat} {key pub msg sig : Bytes} (h : signMsg fuel key msg = some (sig, rec)) (hr : rOf sig ≠ 0)
    (hp : createPubkey key = .ok pub) : verifyMsg pub msg sig = .ok true := by
  obtain ⟨h1, h2, -⟩ := C78_form h
  obtain ⟨b, h3, h4⟩ := C78_verify pub msg sig h1
  rw [h3, h4.2 ⟨_, (EcKeys.createPubkey_some hp).2, (C78_sign_partial h hr).1, h2⟩]

/-- C78. The candidates are those of RFC 6979 for digests below the order. -/
theorem C78_nonce_partial {msg : Bytes} (hl : msg.length = 32) (hm : beNat msg < n) (key : Bytes) (i : Nat) :
    beNat (nonce msg key i) = candidate key (bits2octets msg) i := by
  have e : bits2octets msg = msg := by
    rw [bits2octets, Nat.mod_eq_of_lt hm, ← hl, beBytes_beNat]
  rw [EcdsaSign.nonce_candidate, e]

/-- C78 is false of the code: for larger digests the RFC reduces the digest first, and the program does not. -/
theorem C78_false : beNat (nonce (List.replicate 32 255) Ec.one 0) ≠ candidate Ec.one (bits2octets (List.replicate 32 255)) 0 := by
  rw [EcdsaSign.nonce_candidate, candidate, candidate, show Ec.one = beBytes 32 1 by decide +kernel,
    show List.replicate 32 255 = beBytes 32 0xffffffffffffffffffffffffffffffffffffffffffffffffffffffffffffffff by decide +kernel,
    show bits2octets (beBytes 32 0xffffffffffffffffffffffffffffffffffffffffffffffffffffffffffffffff) =
      beBytes 32 0x000000000000000000000000000000014551231950b75fc4402da1732fc9bebe by decide +kernel,
    SecpNonce.f, SecpNonce.g]
  decide +kernel

/-- C78. What is missing for a first number 0: there is a random number for which the program signs every digest but the
multiples of the order, and the signature is not accepted. -/
theorem C78_gap : ∃ k, 0 < k ∧ k < n ∧ ∀ key pub msg, createPubkey key = .ok pub → beNat msg % n ≠ 0 →
    ∃ sig rec, signWith (fun _ => beBytes 32 k) 1 key msg = some (sig, rec) ∧ rOf sig = 0 ∧ verifyMsg pub msg sig = .ok false := by
  obtain ⟨k, h0, hk, y, hn, hx⟩ := EcdsaSign.gap
  refine ⟨k, h0, hk, fun key pub msg hp hm => ?_⟩
  have hb : beNat (beBytes 32 k) = k := beNat_beBytes_of_lt (Nat.lt_trans hk Lemmas.Ecdsa.n_lt)
  have hv : (((n : Nat) : F)).val = n := ZMod.val_cast_of_lt Lemmas.Ecdsa.n_lt_p
  obtain ⟨sig, rec, hs⟩ := EcdsaSign.signWith_of (f := fun _ => beBytes 32 k) (fuel := 1) (i := 0) (msg := msg)
    (EcKeys.createPubkey_some hp).1 (by decide) (by
      refine ⟨by rw [hb]; exact h0, by rw [hb]; exact hk, _, y, hn, by rw [hb]; exact hx, ?_⟩
      rw [hv, ZMod.natCast_self, zero_mul, zero_add]
      exact fun hc => hm (Nat.mod_eq_zero_of_dvd ((ZMod.natCast_eq_zero_iff _ _).1 hc)))
  obtain ⟨-, h1, -, -, ⟨i, -, -, x', y', hn', h2, h3⟩, -⟩ := EcdsaSign.signWith_some hs
  have hr : rOf sig = 0 := by
    rw [hb, hx, Point.some.injEq] at h2
    rw [h3, ← h2.1, hv, Nat.mod_self]
  refine ⟨sig, rec, hs, hr, ?_⟩
  obtain ⟨b, h4, h5⟩ := C78_verify pub msg sig h1
  cases b with
  | false => exact h4
  | true =>
    obtain ⟨Q, -, hq, -⟩ := h5.1 rfl
    exact absurd hr (Nat.pos_iff_ne_zero.1 hq.2.1)

/-- What the name server signs with, and what a client checks. -/
noncomputable def signer (fuel : Nat) (key : Bytes) (h : Bytes) : Option Bytes := (signMsg fuel key h).map Prod.fst
noncomputable def check (pub h s : Bytes) : Bool := match verifyMsg pub h s with | .ok b => b | _ => false

/-- C78. A message the server signed is verified with its public key for six hours, unless the first number of the
signature is 0. -/
theorem C78_sig0_partial {fuel : Nat} {key pub : Bytes} (hp : createPubkey key = .ok pub) (now t : Int)
    (hn : 21600 ≤ now ∧ now + 21600 < 2 ^ 32) (ht : now - 6 * 60 * 60 ≤ t ∧ t ≤ now + 6 * 60 * 60) (w out : Bytes)
    (h : Sig0.sign (Spec.Blake2b.blake2b 32) (signer fuel key) now w = .ok (some out))
    (hr : rOf (out.drop (out.length - 64)) ≠ 0) :
    Sig0.verify (Spec.Blake2b.blake2b 32) (check pub) t out = .ok true := by
  have hs : ∀ h s, signer fuel key h = some s → s.length = 64 := by
    intro h s e
    rw [signer, Option.map_eq_some_iff] at e
    obtain ⟨⟨sig, rec⟩, e, rfl⟩ := e
    exact (C78_form e).1
  -- the signer that keeps a signature with the first number 0 to itself
  let good : Bytes → Option Bytes := fun h => (signer fuel key h).filter fun s => decide (rOf s ≠ 0)
  have hg : ∀ h s, good h = some s → signer fuel key h = some s ∧ rOf s ≠ 0 := by
    intro h s e
    obtain ⟨e1, e2⟩ := Option.filter_eq_some_iff.1 e
    exact ⟨e1, of_decide_eq_true e2⟩
  have hc : ∀ h s, good h = some s → check pub h s = true := by
    intro h s e
    obtain ⟨e1, e2⟩ := hg h s e
    rw [signer, Option.map_eq_some_iff] at e1
    obtain ⟨⟨sig, rec⟩, e1, rfl⟩ := e1
    rw [check, C78_accepts_partial e1 e2 hp]
  refine Sig0.C43_verifies _ good (check pub) (fun h s e => hs h s (hg h s e).1) hc now t hn ht w out ?_
  have hlen : 12 ≤ w.length := by
    rcases Nat.lt_or_ge w.length 12 with hl | hl
    · rw [Sig0.sign, if_pos hl] at h; cases h
    · exact hl
  obtain ⟨p, hpl⟩ := Sig0.plain_exists w hlen
  rw [Sig0.C43_sign _ _ hs now w p hpl] at h
  rw [Sig0.C43_sign _ _ (fun h s e => hs h s (hg h s e).1) now w p hpl]
  have h := Out.ok.inj h
  by_cases hm : p.arcount = 65535
  · rw [if_pos hm] at h; cases h
  · rw [if_neg hm] at h ⊢
    generalize Spec.Blake2b.blake2b 32 (Spec.Sig0.signedData p (Spec.Sig0.recordAt now [])) = d at h ⊢
    cases hsig : signer fuel key d with
    | none => rw [hsig] at h; cases h
    | some sig =>
      rw [hsig] at h
      rw [Option.map_some] at h
      have h := Option.some.inj h
      have h64 := hs _ _ hsig
      have e : out.drop (out.length - 64) = sig := by
        have hx : ∃ x, out = x ++ sig := by
          rw [← h, Spec.Sig0.withRecord, Spec.Sig0.Rec.bytes]
          have e3 : ∀ a b c s : Bytes, a ++ (b ++ (c ++ s)) = (a ++ (b ++ c)) ++ s := fun a b c s => by simp only [List.append_assoc]
          exact ⟨_, e3 _ _ _ _⟩
        obtain ⟨x, rfl⟩ := hx
        rw [List.length_append, h64, Nat.add_sub_cancel, List.drop_left]
      rw [e] at hr
      have : good d = some sig := Option.filter_eq_some_iff.2 ⟨hsig, decide_eq_true hr⟩
      rw [this, Option.map_some, h]

/-! ### The published vector: private key 1, message "Satoshi Nakamoto" -/

open SecpVector

def vMsg : Bytes := beBytes 32 vm
def vSig : Bytes := beBytes 32 0x934b1ea10a4b3c1757e2b0c017d0b6143ce3c9a7e6a4a49860d7a6ab210ee3d8 ++
  beBytes 32 0x2442ce9d2b916064108014783e923ec36b49743e2ffa1c4496f01a512aafd9e5

example : vMsg = Spec.Sha256.sha256 "Satoshi Nakamoto".toUTF8.toList := by decide +kernel
theorem v_nonce : nonce vMsg Ec.one 0 = beBytes 32 vk := by
  rw [EcdsaSign.nonce_eq, show Ec.one = beBytes 32 1 by decide +kernel, vMsg, vm, vk]
  exact SecpNonce.v

/-- Signing succeeds with the first candidate. -/
theorem sign_first {key msg : Bytes} {N k : Nat} {r s : S} {rec : Nat} (hk : EcKeys.Valid key) (hn : nonce msg key 0 = beBytes 32 N)
    (hb : beNat (beBytes 32 N) = k) (hl : k < n) (h0 : ((k : Nat) : S) ≠ 0)
    (h : sigSign ((beNat key : Nat) : S) ((beNat msg : Nat) : S) ((k : Nat) : S) = some (r, s, rec)) :
    signMsg 1 key msg = some (getS r ++ getS s, rec) := by
  have e : setS (beBytes 32 N) = (((k : Nat) : S), false) := by
    rw [Lemmas.Ecdsa.setS_eq, hb, decide_eq_false (Nat.not_le.2 hl)]
  have e1 : ∀ f : Nat → Bytes, f 0 = beBytes 32 N → signLoop f ((beNat key : Nat) : S) ((beNat msg : Nat) : S) 1 0 = some (r, s, rec) := by
    intro f hf
    generalize ((beNat key : Nat) : S) = a at h ⊢
    generalize ((beNat msg : Nat) : S) = b at h ⊢
    generalize ((k : Nat) : S) = c at h h0 e
    rw [signLoop, hf, e]
    dsimp only
    rw [if_pos ⟨h0, rfl⟩, h]
  rw [signMsg]
  generalize hg : nonce msg key = g at hn
  clear hg
  rw [EcdsaSign.signWith_eq hk, e1 _ hn]

theorem v_sign : ∃ rec, signMsg 1 Ec.one vMsg = some (vSig, rec) := by
  obtain ⟨hn, hx⟩ := vk_nsmul
  have hk : ((vk : Nat) : S).val = vk := by decide +kernel
  obtain ⟨rec, h⟩ := EcdsaSign.sigSign_val (d := ((beNat Ec.one : Nat) : S)) (e := ((beNat vMsg : Nat) : S)) (k := ((vk : Nat) : S))
    (t := ((vt : Nat) : S)) (by decide +kernel) (by rw [hk]; exact hx) (by decide +kernel) (by decide +kernel)
  refine ⟨rec, (sign_first (show 0 < beNat Ec.one ∧ beNat Ec.one < n by decide +kernel) v_nonce (by decide +kernel) (by decide +kernel)
    (by decide +kernel) h).trans ?_⟩
  rw [Option.some.injEq, Prod.mk.injEq]
  exact ⟨by decide +kernel, rfl⟩

/-- It meets the hypotheses, and is accepted. -/
example : ∃ rec, signMsg 1 Ec.one vMsg = some (vSig, rec) ∧ rOf vSig ≠ 0 ∧ verifyMsg Elligator.gKey vMsg vSig = .ok true := by
  obtain ⟨rec, h⟩ := v_sign
  exact ⟨rec, h, by decide +kernel, C78_accepts_partial h (by decide +kernel) Ec.one_pub⟩
/-- Its twin is refused. -/
example : verifyMsg Elligator.gKey vMsg (beBytes 32 (rOf vSig) ++ beBytes 32 (n - sOf vSig)) = .ok false := by
  obtain ⟨rec, h⟩ := v_sign
  exact C78_twin (sig := vSig) (by decide +kernel) (by decide +kernel) (C78_accepts_partial h (by decide +kernel) Ec.one_pub) (by decide +kernel)
example : beNat vMsg < n ∧ vMsg.length = 32 := by decide +kernel
example : Suitable Ec.one vMsg (candidate Ec.one vMsg 0) := by
  obtain ⟨hn, hx⟩ := vk_nsmul
  rw [← EcdsaSign.nonce_candidate, v_nonce, show beNat (beBytes 32 vk) = vk by decide +kernel]
  exact ⟨by decide +kernel, by decide +kernel, _, _, hn, hx, by decide +kernel, by decide +kernel⟩
example : ¬ (0 < beNat (beBytes 32 n) ∧ beNat (beBytes 32 n) < n) := by decide +kernel
/-- A message can be signed: a digest that is signed is all it takes. -/
example : Sig0.sign (fun _ => vMsg) (signer 1 Ec.one) 1700000000 Sig0.exParts.bytes =
    .ok (some (Spec.Sig0.withRecord Sig0.exParts (Spec.Sig0.recordAt 1700000000 vSig))) := by
  have hs : ∀ h s, signer 1 Ec.one h = some s → s.length = 64 := by
    intro h s e
    rw [signer, Option.map_eq_some_iff] at e
    obtain ⟨⟨sig, rec⟩, e, rfl⟩ := e
    exact (C78_form e).1
  obtain ⟨rec, h⟩ := v_sign
  rw [Sig0.C43_sign _ _ hs _ _ Sig0.exParts Sig0.exParts_plain, if_neg (by decide), signer, h]
  rfl

end Verif.Props.Ecdsa
