import Verif.Lemmas.EllSpec
import Verif.Lemmas.EcDial
import Verif.Lemmas.SecpCard
import Verif.Props.Aead
import Verif.Props.Elligator
/-
C77: private keys, public keys and the common secret on secp256k1, and the transport over that curve.
-/
namespace Verif.Props.Ec
open Verif Verif.Spec.Secp Verif.Lemmas Verif.Ec Verif.EcOps
open Verif.Spec.Transport Verif.Spec.Brontide
open Verif.Brontide (Env dial listen run)

/-- C77. The constants are those of the standard: the modulus and the order are prime, and the base point has the order
`n` in the group of the curve. -/
theorem C77_parameters : p.Prime ∧ n.Prime ∧ addOrderOf G = n := ⟨p_prime, SecpOrder.n_prime, SecpOrder.order_G⟩

/-- C77. The group of the curve has `n` elements, the multiples of the base point. -/
theorem C77_group : Nat.card Point = n ∧ ∀ P : Point, ∃ k < n, P = k • G := ⟨SecpCard.card_eq, SecpCard.multiple⟩

/-- C77. The private keys are the numbers from 1 to `n - 1`. -/
theorem C77_privkey (key : Bytes) : verifyPrivkey key = true ↔ 0 < beNat key ∧ beNat key < n := EcKeys.verify_iff key

/-- C77. A private key that is drawn is one, and has 32 bytes. -/
theorem C77_draw {rand : Nat → Option Bytes} (hr : ∀ i k, rand i = some k → k.length = 32) {key : Bytes}
    (h : createPrivkey rand = some key) : key.length = 32 ∧ 0 < beNat key ∧ beNat key < n :=
  EcKeys.createPrivkeyLoop_some hr 1003 0 (by simp) h

/-- C77. Drawing fails only if the source of random bytes fails or yields 1001 times in a row no private key. -/
theorem C77_draws {rand : Nat → Option Bytes} (h : createPrivkey rand = none) :
    (∃ j ≤ 1000, rand j = none) ∨ ∀ j ≤ 1000, ∃ k, rand j = some k ∧ ¬ (0 < beNat k ∧ beNat k < n) := by
  rcases EcKeys.createPrivkeyLoop_none 1003 0 (by decide) (by decide) h with ⟨j, -, h1, h2⟩ | h
  · exact Or.inl ⟨j, h1, h2⟩
  · exact Or.inr fun j hj => h j (Nat.zero_le _) hj

/-- C77. The public key of a private key is that multiple of the base point, in compressed form; of other numbers there
is none, and no number ends the process. -/
theorem C77_pubkey (key : Bytes) : createPubkey key =
    if 0 < beNat key ∧ beNat key < n then (match compress (beNat key • G) with | some b => .ok b | none => .err ()) else .err () := by
  by_cases hv : 0 < beNat key ∧ beNat key < n
  · obtain ⟨b, h1, h2⟩ := EcKeys.createPubkey_ok hv
    rw [if_pos hv, h1, h2]
  · rw [if_neg hv, createPubkey, if_neg (fun hc => hv ((EcKeys.verify_iff key).1 hc))]

/-- C77. There is a public key for every private key, and different private keys have different ones. -/
theorem C77_injective {a b : Bytes} (ha : 0 < beNat a ∧ beNat a < n) (hb : 0 < beNat b ∧ beNat b < n) :
    ∃ pa, createPubkey a = .ok pa ∧ (createPubkey b = .ok pa → beNat a = beNat b) := by
  obtain ⟨pa, h1, h2⟩ := EcKeys.createPubkey_ok ha
  refine ⟨pa, h1, fun h => ?_⟩
  have h3 := (EcKeys.createPubkey_some h).2
  obtain ⟨x, y, hn, e1, p1⟩ := EllHash.parse_of h2
  obtain ⟨x', y', hn', e2, p2⟩ := EllHash.parse_of h3
  rw [p1] at p2
  cases p2
  have e : beNat a • G = beNat b • G := by rw [e1, e2]
  have hm := (addOrderOf_dvd_sub_iff_zsmul_eq_zsmul (x := G) (a := (beNat a : Int)) (b := (beNat b : Int))).2
    (by rw [natCast_zsmul, natCast_zsmul, e])
  rw [SecpOrder.order_G] at hm
  obtain ⟨k, hk⟩ := hm
  have hn0 : (0 : Int) < n := by have := ha.2; omega
  have : k = 0 := by
    by_contra hc
    have h1 := ha.1; have h2 := ha.2; have h3 := hb.1; have h4 := hb.2
    rcases Int.lt_or_gt_of_ne hc with h | h
    · have : (n : Int) * k ≤ n * (-1) := Int.mul_le_mul_of_nonneg_left (by omega) (by omega)
      omega
    · have : (n : Int) * 1 ≤ n * k := Int.mul_le_mul_of_nonneg_left (by omega) (by omega)
      omega
  rw [this] at hk
  omega

/-- C77. The strings that count as public keys are the compressed forms of points, all of them. -/
theorem C77_valid (b : Bytes) : verifyPubkey b = true ↔ ∃ P, compress P = some b := EcKeys.verifyPubkey_iff b

/-- C77. The common secret of a public key and a private key is the SHA-256 of the compressed multiple; it is refused
for what is no key, and nothing ends the process. The multiple is not the point at infinity. -/
theorem C77_ecdh (pub key : Bytes) : (∃ s, ecdh pub key = .ok s) ∨ ecdh pub key = .err () ∧
    ((∀ P, compress P ≠ some pub) ∨ ¬ (0 < beNat key ∧ beNat key < n)) := by
  by_cases hp : ∃ P, compress P = some pub
  · obtain ⟨P, hP⟩ := hp
    by_cases hk : 0 < beNat key ∧ beNat key < n
    · exact Or.inl (EcKeys.ecdh_total hP hk)
    · refine Or.inr ⟨EcKeys.ecdh_bad hP hk, Or.inr hk⟩
  · refine Or.inr ⟨EcKeys.ecdh_none ?_, Or.inl fun P hP => hp ⟨P, hP⟩⟩
    cases h : Elligator.parse pub with
    | none => rfl
    | some k =>
      obtain ⟨hn, hc⟩ := EllHash.parse_some h
      exact absurd ⟨_, hc⟩ hp

/-- C77. The secret itself. -/
theorem C77_secret {P : Point} {pub key : Bytes} (hP : compress P = some pub) (hk : 0 < beNat key ∧ beNat key < n) :
    ∃ s, compress (beNat key • P) = some s ∧ ecdh pub key = .ok (Spec.Sha256.sha256 s) := by
  have h0 : P ≠ 0 := by rintro rfl; cases hP
  have hne := SecpCard.nsmul_ne (k := beNat key) (by rw [Nat.mod_eq_of_lt hk.2]; omega) h0
  obtain ⟨s, hs⟩ := EcKeys.compress_ne hne
  exact ⟨s, hs, EcKeys.ecdh_point hP hk hs⟩

/-- C77. Every public key is that of a private key. -/
theorem C77_owner {pub : Bytes} (h : verifyPubkey pub = true) : ∃ key, key.length = 32 ∧ createPubkey key = .ok pub := by
  obtain ⟨P, hP⟩ := (C77_valid pub).1 h
  obtain ⟨k, hk, rfl⟩ := SecpCard.multiple P
  have hb : beNat (beBytes 32 k) = k := beNat_beBytes_of_lt (Nat.lt_trans hk (by decide +kernel))
  refine ⟨beBytes 32 k, by simp, ?_⟩
  have h0 : 0 < k := Nat.pos_of_ne_zero (by rintro rfl; rw [zero_nsmul] at hP; cases hP)
  rw [C77_pubkey, hb, if_pos ⟨h0, hk⟩, hP]

/-- C77. Two holders of keys come to the same secret. -/
theorem C77_agree {a b pa pb : Bytes} (ha : createPubkey a = .ok pa) (hb : createPubkey b = .ok pb) :
    ∃ s, compress ((beNat a * beNat b) • G) = some s ∧
      ecdh pa b = .ok (Spec.Sha256.sha256 s) ∧ ecdh pb a = .ok (Spec.Sha256.sha256 s) := by
  have va := (EcKeys.createPubkey_some ha).1
  have vb := (EcKeys.createPubkey_some hb).1
  obtain ⟨s, h1, h2⟩ := EcKeys.ecdh_keys va vb ha
  obtain ⟨t, h3, h4⟩ := EcKeys.ecdh_keys vb va hb
  rw [Nat.mul_comm, h1] at h3
  cases h3
  exact ⟨s, h1, h2, h4⟩

/-- C77. The curve has what the transport's theorems ask, if 0 is never drawn for an encoding. -/
theorem C77_laws_partial (draw : Bytes → Nat → F × Nat) (hd : ∀ e i, (draw e i).1 ≠ 0) (fuel : Nat) : CurveLaws (ops draw fuel) :=
  EcKeys.laws draw hd fuel

/-- C77. What `C67_transport` says of two honest ends, with the program's curve: no parameter is left but what is
drawn. -/
theorem C77_transport_partial {σ τ : Type} (draw : Bytes → Nat → F × Nat) (hd : ∀ e i, (draw e i).1 ≠ 0) (fuel : Nat)
    (EI : Env σ) (ER : Env τ) {s r ei er : KeyPair}
    (hs : createPubkey s.priv = .ok s.pub) (hr : createPubkey r.priv = .ok r.pub)
    (hei : Draws (prims (ops draw fuel)) EI.rand ei) (her : Draws (prims (ops draw fuel)) ER.rand er)
    (hi : σ) (hh : τ) (os : List (NetOp σ τ)) :
    ∃ mi mr n, dial (prims (ops draw fuel)) EI hi s.priv r.pub = .ok mi ∧ listen (prims (ops draw fuel)) ER hh r.priv = .ok mr ∧
      netRun (prims (ops draw fuel)) EI ER os ⟨mi, mr, 0, 0⟩ = .ok n ∧
      ((∀ x ∈ writes n.i.trace, x.length ≤ maxSize) → (∀ x ∈ writes n.r.trace, x.length ≤ maxSize) →
        messages n.i.trace <+: writes n.r.trace ∧ messages n.r.trace <+: writes n.i.trace ∧
        (¬ Cut n.i.trace → ¬ Cut n.r.trace → Quiet n →
          messages n.i.trace = writes n.r.trace ∧ messages n.r.trace = writes n.i.trace)) :=
  Aead.C67_transport (ops draw fuel) (C77_laws_partial draw hd fuel) EI ER
    (show toOption (createPubkey s.priv) = _ by rw [hs]; rfl) (show toOption (createPubkey r.priv) = _ by rw [hr]; rfl) hei her hi hh os

theorem ops_from (draw : Bytes → Nat → F × Nat) (fuel : Nat) (b : Bytes) :
    (prims (ops draw fuel)).fromHash b = toOption (Verif.Elligator.fromHash b) := by rw [prims, ops]
theorem ops_to (draw : Bytes → Nat → F × Nat) (fuel : Nat) (b r : Bytes) :
    (prims (ops draw fuel)).toHash b r = toOption (Verif.Elligator.toHash (draw r) fuel b) := by rw [prims, ops]

/-- C77 is false of the code: a node that answers the first act with 64 bytes of zero, or with a number and its negative,
and 16 or more bytes of anything, ends the process of whoever opened the connection, or makes it go on with a key that
was never set. -/
theorem C77_false {σ : Type} (draw : Bytes → Nat → F × Nat) (fuel : Nat) (E : Env σ) (h : σ) {s e : KeyPair} {rs : Bytes}
    (hrs : verifyPubkey rs = true) (he : Draws (prims (ops draw fuel)) E.rand e) (hw : ∀ x y, (E.writeCb x y).2 = 0) :
    ∃ m0, dial (prims (ops draw fuel)) E h s.priv rs = .ok m0 ∧
      ∀ a, 16 ≤ a.length → run (prims (ops draw fuel)) E [.read (List.replicate 64 0 ++ a)] m0 = .ub ∧
        ∀ u : F, u ≠ 0 → run (prims (ops draw fuel)) E [.read (beBytes 32 u.val ++ beBytes 32 (-u).val ++ a)] m0 = .ub := by
  have hl : ∀ k iv ad x, ((prims (ops draw fuel)).enc k iv ad x).1.length = x.length := fun k iv ad x => (Aead.C65_inverse k iv 64 x).2
  obtain ⟨P, hP⟩ := (C77_valid rs).1 hrs
  obtain ⟨es, hes⟩ := EcKeys.ecdh_total hP (EcKeys.createPubkey_some (EcKeys.toOption_some he.2.1)).1
  have hes : (prims (ops draw fuel)).ecdh rs e.priv = some es := by
    show toOption (ecdh rs e.priv) = _
    rw [hes]; rfl
  obtain ⟨m0, h0, hst⟩ := Brontide.dial_ok hl h (s := s) he hes hw
  refine ⟨m0, h0, fun a ha => ⟨?_, fun u hu => ?_⟩⟩
  · refine Brontide.C60_false _ hl E he hes h0 hst (by simp; omega) ?_
    rw [List.take_left' (by simp), ops_from, Elligator.C76_false (by decide) (by decide +kernel) (by decide +kernel)]
    rfl
  · refine Brontide.C60_false _ hl E he hes h0 hst (by simp; omega) ?_
    rw [List.take_left' (by simp), ops_from, Elligator.C76_gap hu]
    rfl

/-- The private key 1, its public key, and what is drawn to send it. -/
def one : Bytes := beBytes 32 1
theorem one_pub : createPubkey one = .ok Elligator.gKey := by
  have h : beNat one = 1 := by decide +kernel
  rw [C77_pubkey, h, one_nsmul, show compress G = some Elligator.gKey by decide +kernel, if_pos (by decide +kernel)]
example : verifyPrivkey one = true ∧ verifyPrivkey (beBytes 32 0) = false ∧ verifyPrivkey (beBytes 32 n) = false ∧
    verifyPrivkey (beBytes 32 (n - 1)) = true := by decide +kernel
example : createPrivkey (fun i => if i = 2 then some one else some (beBytes 32 n)) = some one := by decide +kernel
example : createPrivkey (fun _ => some (beBytes 32 n)) = none := by decide +kernel
example : verifyPubkey Elligator.gKey = true := by decide +kernel
theorem one_draws (r : Brontide.Rand) (h1 : r.priv = some one) (h2 : r.entropy = some []) :
    Draws (prims (ops (fun _ _ => (1, 0)) 1)) r ⟨one, Elligator.gKey, Elligator.gHash⟩ := by
  refine ⟨h1, ?_, [], h2, ?_⟩
  · show toOption (createPubkey one) = _
    rw [one_pub]; rfl
  · rw [ops_to]
    rw [show Elligator.toHash (fun _ => (1, 0)) 1 Elligator.gKey = .ok Elligator.gHash by decide +kernel]; rfl
example : ∀ (_ : Bytes) (_ : Nat), ((1, 0) : F × Nat).1 ≠ 0 := by
  intro _ _; decide +kernel

/-- A case of `C77_false`: whoever holds the key 1 connects to a node with that key, and reads 80 bytes of zero. -/
def env : Env Unit := ⟨fun _ => .ret (), fun _ _ => .ret (), fun _ _ => ((), 0), ⟨some one, some []⟩⟩
example : ∃ m0, dial (prims (ops (fun _ _ => (1, 0)) 1)) env () one Elligator.gKey = .ok m0 ∧
    run (prims (ops (fun _ _ => (1, 0)) 1)) env [.read (List.replicate 64 0 ++ List.replicate 16 0)] m0 = .ub := by
  obtain ⟨m0, h1, h2⟩ := C77_false (fun _ _ => (1, 0)) 1 env () (s := ⟨one, Elligator.gKey, []⟩) (rs := Elligator.gKey)
    (by decide +kernel) (one_draws env.rand rfl rfl) (fun _ _ => rfl)
  exact ⟨m0, h1, (h2 _ (by decide)).1⟩

end Verif.Props.Ec
