import Verif.Model.EcdsaWords
import Verif.Lemmas.EcmultGen
import Verif.Lemmas.SecpHash
import Verif.Lemmas.EcdsaSign
/-
Signing on words (Model/EcdsaWords) is signing on residues and points (Model/Ecdsa).
-/
namespace Verif.Lemmas.EcdsaWords
open Verif Verif.Spec.Secp Verif.Field52 Verif.Ec52 Verif.EcmultGen Verif.EcdsaWords Verif.Spec.EcmultGen Verif.Lemmas.Group52
open Verif.Scalar64 (Sc)
open Verif.Spec.Scalar64 (Holds)
open WeierstrassCurve.Affine

/-- The same signature, or none. -/
def Same : Option (Sc × Sc × Nat) → Option (ZMod n × ZMod n × Nat) → Prop
  | none, none => True
  | some (r, s, k), some (x, y, j) => Holds r x ∧ Holds s y ∧ k = j
  | _, _ => False

theorem isZero_holds {a : Sc} {x : ZMod n} (h : Holds a x) : Scalar64.isZero a = decide (x = 0) := by
  rw [Scalar64.isZero_val, h.2]
  exact decide_eq_decide.2 (ZMod.val_eq_zero x)

theorem isHigh_holds {a : Sc} {x : ZMod n} (h : Holds a x) : Scalar64.isHigh a = Ecdsa.isHigh x := by
  rw [Scalar64.isHigh_val h.1, h.2, Ecdsa.isHigh]
  refine decide_eq_decide.2 ?_
  have := EcdsaSign.n_odd
  omega

theorem setB32_holds {b : Bytes} (hb : b.length = 32) :
    Holds (Scalar64.setB32 b).1 (Ecdsa.setS b).1 ∧ decide ((Scalar64.setB32 b).2 ≠ 0) = (Ecdsa.setS b).2 := by
  obtain ⟨w, v, o⟩ := Scalar64.setB32_val hb
  refine ⟨Scalar64.holds_of w v, ?_⟩
  rw [o, Ecdsa.setS]
  by_cases h : n ≤ beNat b
  · rw [if_pos h, decide_eq_true h]; rfl
  · rw [if_neg h, decide_eq_false h]; rfl

theorem getB32_holds {a : Sc} {x : ZMod n} (h : Holds a x) : Scalar64.getB32 a = Ecdsa.getS x := by
  rw [Scalar64.getB32_val h.1, h.2, Ecdsa.getS]

theorem from_eq {rp : Gej} {sec msg non sr m s : Sc} {o : Nat} {rx ry : Fe} (e0 : rx = normalize (geSetGej rp).x) (e1 : ry = normalize (geSetGej rp).y)
    (e2 : (sr, o) = Scalar64.setB32 (Field52.getB32 rx)) (e3 : m = (Scalar64.add (Scalar64.mul sr sec) msg).1)
    (e4 : s = Scalar64.mul (Scalar64.inverse non) m) :
    sigFrom rp sec msg non = if Scalar64.isZero s then none
      else if Scalar64.isHigh s then some (sr, Scalar64.negate s, ((if o ≠ 0 then 2 else 0) ||| (if isOdd ry ≠ 0 then 1 else 0)) ^^^ 1)
      else some (sr, s, (if o ≠ 0 then 2 else 0) ||| (if isOdd ry ≠ 0 then 1 else 0)) := by
  subst e0 e1
  rw [sigFrom, ← e2]
  subst e3 e4
  rfl

theorem sigFrom_spec {rp : Gej} {sec msg non : Sc} {d e k : ZMod n} (hd : Holds sec d) (he : Holds msg e) (hk : Holds non k) (h0 : k ≠ 0)
    (hp : IsJac 1 rp (k.val • G)) : Same (sigFrom rp sec msg non) (Ecdsa.sigSign d e k) := by
  have hne : k.val • G ≠ 0 := SecpCard.nsmul_ne (by rw [Nat.mod_eq_of_lt (ZMod.val_lt k)]; exact fun h => h0 ((ZMod.val_eq_zero k).1 h)) (by intro h; cases h)
  have hg := jac_ge hp
  rw [Ecdsa.sigSign]
  generalize k.val • G = P at hne hg
  cases P with
  | zero => exact absurd rfl hne
  | some x y hn =>
    obtain ⟨-, hx, hy⟩ := hg
    have nx := hx.normalize (by decide)
    have ny := hy.normalize (by decide)
    obtain ⟨rx, e0⟩ : ∃ rx, rx = normalize (geSetGej rp).x := ⟨_, rfl⟩
    obtain ⟨ry, e1⟩ : ∃ ry, ry = normalize (geSetGej rp).y := ⟨_, rfl⟩
    rw [← e0] at nx
    rw [← e1] at ny
    have hb : (Field52.getB32 rx).length = 32 := by rw [nx.getB32]; exact beBytes_length _ _
    have hs := setB32_holds hb
    obtain ⟨⟨sr, o⟩, e2⟩ : ∃ q, q = Scalar64.setB32 (Field52.getB32 rx) := ⟨_, rfl⟩
    rw [← e2] at hs
    obtain ⟨m, e3⟩ : ∃ m, m = (Scalar64.add (Scalar64.mul sr sec) msg).1 := ⟨_, rfl⟩
    obtain ⟨s, e4⟩ : ∃ s, s = Scalar64.mul (Scalar64.inverse non) m := ⟨_, rfl⟩
    rw [from_eq e0 e1 e2 e3 e4]
    have hm : Holds m _ := e3 ▸ (Scalar64.holds_add (Scalar64.holds_mul hs.1 hd) he).1
    have hss : Holds s _ := e4 ▸ Scalar64.holds_mul (Scalar64.holds_inverse hk) hm
    rw [isZero_holds hss, isHigh_holds hss]
    have ho : (if o ≠ 0 then 2 else 0) = (if (Ecdsa.setS (Field52.getB32 rx)).2 = true then 2 else 0) := by
      rw [← hs.2]; simp
    have hy : (if isOdd ry ≠ 0 then 1 else 0) = (if Elligator.isOdd y = true then 1 else 0) := by
      rw [ny.isOdd, Elligator.isOdd]
      rcases Nat.mod_two_eq_zero_or_one y.val with e | e <;> rw [e] <;> rfl
    rw [ho, hy]
    rw [nx.getB32] at hss hs ⊢
    dsimp only [Ec.affine, Elligator.getB32] at hss hs ⊢
    generalize (Ecdsa.setS (beBytes 32 x.val)) = q at *
    obtain ⟨q, ov⟩ := q
    dsimp only at hss hs ⊢
    by_cases hz : k⁻¹ * (q * d + e) = 0
    · rw [if_pos (decide_eq_true hz), if_pos hz]; trivial
    · rw [if_neg (by simpa using hz), if_neg hz]
      split
      · exact ⟨hs.1, Scalar64.holds_negate hss, rfl⟩
      · exact ⟨hs.1, hss, rfl⟩

theorem sign_spec {c : Ctx} {b : ZMod n} (hc : Blinded c b) {sec msg non : Sc} {d e k : ZMod n} (hd : Holds sec d) (he : Holds msg e) (hk : Holds non k)
    (h0 : k ≠ 0) : Same (sigSign c sec msg non) (Ecdsa.sigSign d e k) := sigFrom_spec hd he hk h0 (EcmultGen.gen_spec hc hk)

/-- The loops go on together. -/
theorem loop_spec {c : Ctx} {b : ZMod n} (hc : Blinded c b) {f : Nat → Bytes} (hf : ∀ i, (f i).length = 32) {g : Nat → Out Unit Bytes} (hg : ∀ i, g i = .ok (f i))
    {sec msg : Sc} {d e : ZMod n} (hd : Holds sec d) (he : Holds msg e) :
    ∀ fuel i, ∃ o, signLoop c g sec msg fuel i = .ok o ∧ Same o (Ecdsa.signLoop f d e fuel i)
  | 0, _ => ⟨none, rfl, trivial⟩
  | fuel + 1, i => by
    obtain ⟨h1, h2⟩ := setB32_holds (hf i)
    have ih := loop_spec hc hf hg hd he fuel (i + 1)
    rw [signLoop, Ecdsa.signLoop, hg, Out.bind]
    dsimp only
    rw [isZero_holds h1, h2]
    generalize Ecdsa.setS (f i) = q at h1 h2
    obtain ⟨k, ov⟩ := q
    dsimp only at h1 h2 ⊢
    by_cases hk : k ≠ 0 ∧ ov = false
    · rw [if_pos hk, if_pos (by simp [hk])]
      have hs := sign_spec hc hd he h1 hk.1
      generalize sigSign c sec msg (Scalar64.setB32 (f i)).1 = o at hs
      generalize Ecdsa.sigSign d e k = o' at hs
      cases o with
      | none =>
        cases o' with
        | none => exact ih
        | some q => exact hs.elim
      | some q =>
        cases o' with
        | none => exact hs.elim
        | some q' => exact ⟨_, rfl, hs⟩
    · rw [if_neg hk, if_neg (by
        rw [not_and_or] at hk
        rcases hk with hk | hk
        · rw [not_not] at hk; simp [hk]
        · cases ov
          · exact absurd rfl hk
          · simp)]
      exact ih

theorem nonce_length (msg key : Bytes) (i : Nat) : (Ecdsa.nonce msg key i).length = 32 := by
  rw [EcdsaSign.nonce_eq]; exact SecpHash.state_length _ _ _

theorem signMsg_spec {c : Ctx} {b : ZMod n} (hc : Blinded c b) {mem : Nat → Bytes} (hm : ∀ i, (mem i).length = 64) (fuel : Nat) {key msg : Bytes}
    (hk : key.length = 32) (hl : msg.length = 32) : signMsg c mem fuel key msg = .ok (Ecdsa.signMsg fuel key msg) := by
  obtain ⟨h1, h2⟩ := setB32_holds hk
  obtain ⟨h3, -⟩ := setB32_holds hl
  rw [signMsg, Ecdsa.signMsg, Ecdsa.signWith, signRecoverable, Ecdsa.signRecoverable]
  dsimp only
  rw [isZero_holds h1, h2]
  generalize Ecdsa.setS key = q at h1 h2
  obtain ⟨d, ov⟩ := q
  dsimp only at h1 h2 ⊢
  by_cases hv : ov = false ∧ d ≠ 0
  · rw [if_pos hv, if_pos (by simp [hv])]
    obtain ⟨o, e, hs⟩ := loop_spec hc (nonce_length msg key) (SecpHash.nonce_eq hm msg key) h1 h3 fuel 0
    rw [e, Out.bind]
    generalize Ecdsa.signLoop (Ecdsa.nonce msg key) d (Ecdsa.setS msg).1 fuel 0 = o' at hs
    cases o with
    | none =>
      cases o' with
      | none => rfl
      | some q => exact hs.elim
    | some q =>
      cases o' with
      | none => exact hs.elim
      | some q' =>
        obtain ⟨r, s, k⟩ := q
        obtain ⟨x, y, j⟩ := q'
        obtain ⟨a1, a2, rfl⟩ := hs
        dsimp only [Option.map_some, serializeCompact]
        rw [getB32_holds a1, getB32_holds a2]
  · rw [if_neg hv, if_neg (by
      rw [not_and_or] at hv
      rcases hv with hv | hv
      · cases ov
        · exact absurd rfl hv
        · simp
      · rw [not_not] at hv; simp [hv])]
    rfl

end Verif.Lemmas.EcdsaWords
