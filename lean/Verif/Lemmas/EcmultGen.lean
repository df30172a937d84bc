import Verif.Spec.EcmultGen
import Verif.Lemmas.EcmultTable
import Verif.Lemmas.EcWords
/-
The product of the base point and a number (Model/EcmultGen).
-/
namespace Verif.Lemmas.EcmultGen
open Verif Verif.Spec.Secp Verif.Field52 Verif.Ec52 Verif.EcmultGen Verif.Lemmas.Group52 Verif.Spec.EcmultGen
open Verif.Lemmas.EcmultTable
open Verif.Scalar64 (Sc)
open Verif.Spec.Scalar64 (Holds)
open WeierstrassCurve.Affine

/-- An entry of the table stands for the point. -/
def Entry (e : Pubkey) (P : Point) : Prop := Words e.x ∧ Words e.y ∧ IsAff 1 (geFromStorage e) P

theorem stored_stands {s : Storage} (h : Words s) : Stands 8 (fromStorage s) ((stored s : Nat) : F) := by
  obtain ⟨l, h4, v⟩ := fromStorage_spec h
  refine ⟨?_, by rw [v]⟩
  obtain ⟨l0, l1, l2, l3⟩ := l
  unfold Mag
  omega

theorem entry_of {e : Pubkey} {P : Point} (hx : Words e.x) (hy : Words e.y) (h : At (X e) (Y e) P) : Entry e P := by
  obtain ⟨-, -, hn, rfl⟩ := h
  exact ⟨hx, hy, aff_point.2 ⟨rfl, stored_stands hx, stored_stands hy⟩⟩

theorem g_at : At gx gy G := ⟨gx_lt, gy_lt, _, rfl⟩
where
  gx_lt := SecpOrder.gx_lt
  gy_lt := SecpOrder.gy_lt

theorem on_at {x y : Nat} (h : onChk x y = true) : ∃ U, At x y U := by
  unfold onChk at h
  rw [Bool.and_eq_true, Bool.and_eq_true] at h
  have h3 := cast_of_mod (Nat.eq_of_beq_eq_true h.2)
  rw [Nat.cast_mul, Nat.cast_add, Nat.cast_mul, Nat.cast_mul] at h3
  push_cast at h3
  exact ⟨_, Eq.mp Nat.blt_eq h.1.1, Eq.mp Nat.blt_eq h.1.2, (on_iff _ _).2 (by linear_combination h3), rfl⟩

theorem at_unique {x y : Nat} {P Q : Point} (h1 : At x y P) (h2 : At x y Q) : P = Q := by
  obtain ⟨-, -, n1, rfl⟩ := h1
  obtain ⟨-, -, n2, rfl⟩ := h2
  rfl

/-- The sum of the powers of 2. -/
theorem sum_pow (U : Point) : ∀ k, (Finset.range k).sum (fun j => 2 ^ j • U) + U = 2 ^ k • U
  | 0 => by simp
  | k + 1 => by
    rw [Finset.sum_range_succ, add_right_comm, sum_pow U k, ← two_nsmul, ← mul_nsmul, pow_succ]

theorem getD_some {α : Type} {l : List α} {i : Nat} (h : i < l.length) (d : α) : l[i]? = some (l.getD i d) := by
  rw [List.getD_eq_getElem?_getD, List.getElem?_eq_getElem h]; rfl

/-- The table: its columns add up to nothing. -/
theorem table_spec : ∃ U : Nat → Point, (Finset.range 64).sum U = 0 ∧ table.length = 64 ∧
    ∀ (j : Nat) (row : List Pubkey), table[j]? = some row → row.length = 16 ∧
      ∀ (i : Nat) (e : Pubkey), row[i]? = some e → Entry e (U j + (i * 16 ^ j) • G) := by
  have hh := chkHeads
  rw [Bool.and_eq_true, Bool.and_eq_true, Bool.and_eq_true, Bool.and_eq_true, Bool.and_eq_true] at hh
  obtain ⟨⟨⟨⟨⟨h1, h2⟩, h6⟩, h3⟩, h4⟩, h5⟩ := hh
  have h5 : heads.length = 64 := Nat.eq_of_beq_eq_true h5
  have hl : table.length = 64 := by rw [← h5, heads, List.length_map]
  obtain ⟨U0, hU⟩ := on_at h2
  have f0 : heads[0]? = some first := by
    have := getD_some (l := heads) (i := 0) (by omega) ⟨⟨0, 0, 0, 0⟩, ⟨0, 0, 0, 0⟩⟩
    rw [this, first]
    cases heads <;> rfl
  have hs := heads_spec (heads.take 63) U0 h1 (fun a ha => by
    rw [List.getElem?_take_of_lt (by omega), f0] at ha
    cases ha; exact hU)
  have hs' : ∀ (k : Nat) (e : Pubkey), k < 63 → heads[k]? = some e → At (X e) (Y e) (2 ^ k • U0) := fun k e hk he =>
    hs k e (by rw [List.getElem?_take_of_lt hk]; exact he)
  have w1 := dbl_at (hs' 62 last2 (by omega) (getD_some (by omega) _)) h3
  rw [← two_nsmul, ← mul_nsmul, ← pow_succ] at w1
  have l63 : heads[63]? = some last1 := getD_some (by omega) _
  obtain ⟨V, hV⟩ := on_at h6
  have hVU : V + 2 ^ 63 • U0 = U0 := at_unique (add_at hV w1 h4) hU
  refine ⟨fun j => if j < 63 then 2 ^ j • U0 else V, ?_, hl, fun j row hr => ?_⟩
  · rw [Finset.sum_range_succ, if_neg (by omega), Finset.sum_congr rfl fun j hj => if_pos (Finset.mem_range.1 hj)]
    have := sum_pow U0 63
    rw [← add_left_inj U0, zero_add, add_right_comm, this, add_comm]
    exact hVU
  · obtain ⟨r1, r2, r3⟩ := rows_spec hints table gx gy G g_at chk j row hr
    have hj : j < 64 := by rw [← hl]; exact (List.getElem?_eq_some_iff.1 hr).1
    refine ⟨r1, fun i e he => ?_⟩
    have hm := r2 e (List.mem_of_getElem? he)
    refine entry_of (words_spec hm.1) (words_spec hm.2) ?_
    rw [mul_nsmul']
    refine (?_ : At _ _ (_ + i • (16 ^ j • G)))
    refine r3 _ (fun a ha => ?_) i e he
    have hh : heads[j]? = some a := by
      rw [heads, List.getElem?_map, hr]
      cases row with
      | nil => cases ha
      | cons b l => cases ha; rfl
    dsimp only
    by_cases c : j < 63
    · rw [if_pos c]; exact hs' j a c hh
    · rw [if_neg c]
      have : j = 63 := by omega
      subst this
      rw [l63] at hh
      cases hh
      exact hV

/-- The choice of an entry. -/
theorem pick_before {bits : Nat} : ∀ (l : List Pubkey) (i : Nat) (r : Pubkey), (∀ e ∈ l, Words e.x ∧ Words e.y) → Words r.x → Words r.y →
    bits < i → pick bits i l r = r
  | [], _, _, _, _, _, _ => rfl
  | e :: l, i, r, hl, h1, h2, hi => by
    have he := hl e (List.mem_cons_self)
    rw [pick, decide_eq_false (by omega), show (false.toNat) = 0 from rfl, geStorageCmov, (storageCmov_spec h1 he.1).1, (storageCmov_spec h2 he.2).1]
    exact pick_before l (i + 1) r (fun e h => hl e (List.mem_cons_of_mem _ h)) h1 h2 (by omega)

theorem pick_spec {bits : Nat} : ∀ (l : List Pubkey) (i k : Nat) (r e : Pubkey), (∀ e ∈ l, Words e.x ∧ Words e.y) → Words r.x → Words r.y →
    l[k]? = some e → bits = i + k → pick bits i l r = e
  | [], _, _, _, _, _, _, _, h, _ => by simp at h
  | a :: l, i, k, r, e, hl, h1, h2, h, hb => by
    have ha := hl a (List.mem_cons_self)
    have hl' : ∀ e ∈ l, Words e.x ∧ Words e.y := fun e h => hl e (List.mem_cons_of_mem _ h)
    cases k with
    | zero =>
      cases h
      rw [pick, decide_eq_true (by omega), show (true.toNat) = 1 from rfl, geStorageCmov, (storageCmov_spec h1 ha.1).2, (storageCmov_spec h2 ha.2).2]
      exact pick_before l (i + 1) a hl' ha.1 ha.2 (by omega)
    | succ k =>
      rw [pick, decide_eq_false (by omega), show (false.toNat) = 0 from rfl, geStorageCmov, (storageCmov_spec h1 ha.1).1, (storageCmov_spec h2 ha.2).1]
      exact pick_spec l (i + 1) k r e hl' h1 h2 h (by omega)

theorem step_eq {gnb : Sc} {j bits : Nat} {row : List Pubkey} {adds adds' : Pubkey} {r : Gej}
    (e1 : bits = Scalar64.getBits gnb (j * 4) 4) (e2 : adds' = pick bits 0 row adds) :
    genStep gnb j row (adds, r) = (adds', addGe r (geFromStorage adds')) := by
  subst e1 e2; rfl

theorem loop_cons (gnb : Sc) (j : Nat) (row : List Pubkey) (rows : List (List Pubkey)) (s : Pubkey × Gej) :
    genLoop gnb j (row :: rows) s = genLoop gnb (j + 1) rows (genStep gnb j row s) := rfl

/-- The outer loop adds the multiple of what is left of the number, and of the columns. -/
theorem loop_spec {gnb : Sc} (hw : Spec.Scalar64.Words gnb) {U : Nat → Point} : ∀ (rows : List (List Pubkey)) (j : Nat) (adds : Pubkey) (r : Gej) (P : Point),
    j + rows.length = 64 → Words adds.x → Words adds.y → IsJac 1 r P →
    (∀ (k : Nat) (row : List Pubkey), rows[k]? = some row → row.length = 16 ∧
      ∀ (i : Nat) (e : Pubkey), row[i]? = some e → Entry e (U (j + k) + (i * 16 ^ (j + k)) • G)) →
    IsJac 1 (genLoop gnb j rows (adds, r)).2
      (P + (Finset.range rows.length).sum (fun k => U (j + k)) + (Spec.Scalar64.val gnb / 16 ^ j % 16 ^ rows.length * 16 ^ j) • G)
  | [], j, adds, r, P, _, _, _, h, _ => by
    rw [genLoop, List.length_nil, Finset.sum_range_zero, pow_zero, Nat.mod_one, Nat.zero_mul, zero_nsmul, add_zero, add_zero]
    exact h
  | row :: rows, j, adds, r, P, hj, h1, h2, h, hr => by
    rw [List.length_cons] at hj ⊢
    have hb := Scalar64.getBits_val hw (o := j * 4) (c := 4) (by omega) (by omega) (by omega) (by omega)
    obtain ⟨bits, e1⟩ : ∃ bits, bits = Scalar64.getBits gnb (j * 4) 4 := ⟨_, rfl⟩
    obtain ⟨adds', e2⟩ : ∃ adds', adds' = pick bits 0 row adds := ⟨_, rfl⟩
    rw [loop_cons, step_eq e1 e2]
    have p16 : (2 : Nat) ^ (j * 4) = 16 ^ j := by rw [Nat.mul_comm, Nat.pow_mul]
    rw [← e1, p16] at hb
    have hb : bits = Spec.Scalar64.val gnb / 16 ^ j % 16 := hb
    have hbl : bits < 16 := by omega
    obtain ⟨r1, r2⟩ := hr 0 row rfl
    obtain ⟨e, he⟩ : ∃ e, row[bits]? = some e := ⟨_, List.getElem?_eq_getElem (by omega)⟩
    have hE := r2 bits e he
    have hall : ∀ e ∈ row, Words e.x ∧ Words e.y := fun e he => by
      obtain ⟨i, hi⟩ := List.mem_iff_getElem?.1 he
      exact ⟨(r2 i e hi).1, (r2 i e hi).2.1⟩
    have e3 : adds' = e := by rw [e2]; exact pick_spec row 0 bits adds e hall h1 h2 he (by omega)
    rw [e3]
    rw [Nat.add_zero] at hE
    have hs := jac_addGe one_ne_zero h hE.2.2
    have ih := loop_spec hw (U := U) rows (j + 1) e _ _ (by omega) hE.1 hE.2.1 hs (fun k row hk => by
      have := hr (k + 1) row hk
      rw [show j + (k + 1) = j + 1 + k by omega] at this
      exact this)
    have ev : P + (U j + (bits * 16 ^ j) • G) + (Finset.range rows.length).sum (fun k => U (j + 1 + k)) +
        (Spec.Scalar64.val gnb / 16 ^ (j + 1) % 16 ^ rows.length * 16 ^ (j + 1)) • G =
        P + (Finset.range (rows.length + 1)).sum (fun k => U (j + k)) + (Spec.Scalar64.val gnb / 16 ^ j % 16 ^ (rows.length + 1) * 16 ^ j) • G := by
      have en : Spec.Scalar64.val gnb / 16 ^ j % 16 ^ (rows.length + 1) * 16 ^ j =
          bits * 16 ^ j + Spec.Scalar64.val gnb / 16 ^ (j + 1) % 16 ^ rows.length * 16 ^ (j + 1) := by
        rw [hb, pow_succ' 16 rows.length, Nat.mod_mul, Nat.div_div_eq_div_mul, ← pow_succ]
        ring
      rw [en, add_nsmul, Finset.sum_range_succ', Nat.add_zero]
      have es : ∀ k, U (j + 1 + k) = U (j + (k + 1)) := fun k => by rw [show j + 1 + k = j + (k + 1) by omega]
      rw [Finset.sum_congr rfl fun k _ => es k]
      generalize (Finset.range rows.length).sum (fun k => U (j + (k + 1))) = S
      generalize (bits * 16 ^ j) • G = A
      generalize (Spec.Scalar64.val gnb / 16 ^ (j + 1) % 16 ^ rows.length * 16 ^ (j + 1)) • G = B
      generalize U j = V
      abel
    rw [ev] at ih
    exact ih

theorem gen_spec {c : Ctx} {b : ZMod n} (hc : Blinded c b) {s : Sc} {x : ZMod n} (hs : Holds s x) : IsJac 1 (ecmultGen c s) (x.val • G) := by
  obtain ⟨U, u1, u2, u3⟩ := table_spec
  have ha := (Scalar64.holds_add hs hc.1).1
  have := loop_spec ha.1 (U := U) table 0 ⟨⟨0, 0, 0, 0⟩, ⟨0, 0, 0, 0⟩⟩ c.initial _ (by rw [u2]) (by unfold Words; decide) (by unfold Words; decide) hc.2
    (fun k row hk => by rw [Nat.zero_add]; exact u3 k row hk)
  rw [u2, Finset.sum_congr rfl fun k _ => by rw [Nat.zero_add], u1, add_zero, pow_zero, Nat.div_one, Nat.mul_one, ha.2] at this
  have hn : n < 16 ^ 64 := by decide +kernel
  have hn0 : 0 < n := by decide +kernel
  rw [Nat.mod_eq_of_lt (Nat.lt_trans (ZMod.val_lt _) hn), ZMod.val_add, SecpOrder.nsmul_mod, add_nsmul, neg_add_eq_sub, add_sub_cancel_right] at this
  exact this

theorem drawField_spec : ∀ (fuel : Nat) (g : Ecdsa.Rng) {g' : Ecdsa.Rng} {s : Fe}, drawField fuel g = some (g', s) → ∃ x : F, x ≠ 0 ∧ Normal s x
  | 0, _, _, _, h => by cases h
  | fuel + 1, g, g', s, h => by
    have hl := generate_length g
    rw [drawField] at h
    generalize Ecdsa.rngGenerate g 32 = q at hl h
    split at h
    · exact drawField_spec fuel _ h
    · rename_i hc
      cases h
      rw [Bool.or_eq_true, not_or, Bool.not_eq_true', Bool.not_eq_false] at hc
      have hn := set_normal hl hc.1
      refine ⟨_, fun h0 => hc.2 ?_, hn⟩
      rw [hn.isZero]
      exact decide_eq_true h0

theorem drawScalar_spec : ∀ (fuel : Nat) (g : Ecdsa.Rng) {s : Sc}, drawScalar fuel g = some s → ∃ x : ZMod n, x ≠ 0 ∧ Holds s x
  | 0, _, _, h => by cases h
  | fuel + 1, g, s, h => by
    have hl := generate_length g
    rw [drawScalar] at h
    generalize Ecdsa.rngGenerate g 32 = q at hl h
    split at h
    · exact drawScalar_spec fuel _ h
    · rename_i hc
      cases h
      rw [Bool.or_eq_true, not_or] at hc
      obtain ⟨w, v, -⟩ := Scalar64.setB32_val hl
      have hh := Scalar64.holds_of w v
      refine ⟨_, fun h0 => hc.2 ?_, hh⟩
      rw [Scalar64.isZero_val, hh.2, h0, ZMod.val_zero]
      rfl

theorem constG_aff : IsAff 1 constG G := by
  refine aff_point.2 ⟨rfl, ?_, ?_⟩ <;> unfold Stands Mag <;> decide +kernel

theorem neg_neg_smul (b : ZMod n) : -((-b).val • G) = b.val • G := by
  rw [neg_eq_iff_add_eq_zero, ← add_nsmul, ← SecpOrder.nsmul_mod, ← ZMod.val_add, neg_add_cancel, ZMod.val_zero, zero_nsmul]

theorem start_blinded : Blinded ⟨Scalar64.setInt 1, gejNeg (gejSetGe constG)⟩ 1 := by
  have h1 : (1 : ZMod n).val = 1 := by
    have := ZMod.val_natCast n 1
    rw [Nat.cast_one] at this
    rw [this]; decide +kernel
  refine ⟨⟨by unfold Spec.Scalar64.Words Scalar64.setInt; decide, ?_⟩, ?_⟩
  · rw [h1]; decide
  · rw [h1, one_nsmul]
    exact jac_neg (aff_ge constG_aff)

theorem blind_core {fuel : Nat} {ctx c' : Ctx} {b : ZMod n} {rng : Ecdsa.Rng} (hc : Blinded ctx b)
    (h : (match drawField fuel rng with
      | none => none
      | some (rng, s) => match drawScalar fuel rng with
        | none => none
        | some b => some ⟨Scalar64.negate b, ecmultGen { ctx with initial := rescale ctx.initial s } b⟩) = some c') :
    ∃ b', b' ≠ 0 ∧ Blinded c' b' := by
  cases hf : drawField fuel rng with
  | none => rw [hf] at h; cases h
  | some q =>
    obtain ⟨rng', s⟩ := q
    rw [hf] at h
    dsimp only at h
    cases hd : drawScalar fuel rng' with
    | none => rw [hd] at h; cases h
    | some d =>
      rw [hd] at h
      dsimp only at h
      obtain ⟨x, x0, hx⟩ := drawField_spec fuel rng hf
      obtain ⟨y, y0, hy⟩ := drawScalar_spec fuel rng' hd
      have hc2 : Blinded { ctx with initial := rescale ctx.initial s } b := ⟨hc.1, jac_rescale hc.2 (hx.stands.mono (by decide)) x0⟩
      have hg := gen_spec hc2 hy
      generalize ecmultGen { ctx with initial := rescale ctx.initial s } d = w at h hg
      cases h
      refine ⟨-y, neg_ne_zero.2 y0, Scalar64.holds_negate hy, ?_⟩
      rw [neg_neg_smul]
      exact hg

theorem blind_none {fuel : Nat} {ctx c' : Ctx} (h : blind fuel ctx none = some c') : ∃ b, b ≠ 0 ∧ Blinded c' b :=
  blind_core start_blinded h

theorem blind_some {fuel : Nat} {ctx c' : Ctx} {b : ZMod n} {seed : Bytes} (hc : Blinded ctx b) (h : blind fuel ctx (some seed) = some c') :
    ∃ b, b ≠ 0 ∧ Blinded c' b :=
  blind_core hc h

theorem blind_aux {fuel : Nat} {rng g : Ecdsa.Rng} {s : Fe} {d : Sc} (f : Fe → Sc → Ctx) (hf : drawField fuel rng = some (g, s)) (hd : drawScalar fuel g = some d) :
    (match drawField fuel rng with
      | none => none
      | some (rng, s) => match drawScalar fuel rng with
        | none => none
        | some b => some (f s b)) = some (f s d) := by
  rw [hf]; dsimp only; rw [hd]

theorem blind_new {fuel : Nat} {ctx : Ctx} {rng g : Ecdsa.Rng} {s : Fe} {d : Sc} (e : rng = Ecdsa.rngInit (Scalar64.getB32 (Scalar64.setInt 1) ++ []))
    (hf : drawField fuel rng = some (g, s)) (hd : drawScalar fuel g = some d) : ∃ c, build fuel ctx = some c := by
  subst e
  exact ⟨_, blind_aux (fun s b => ⟨Scalar64.negate b, ecmultGen ⟨Scalar64.setInt 1, rescale (gejNeg (gejSetGe constG)) s⟩ b⟩) hf hd⟩

theorem made_blinded {c : Ctx} (h : Made c) : ∃ b, b ≠ 0 ∧ Blinded c b := by
  induction h with
  | build h => exact blind_none h
  | randomize _ h ih =>
    obtain ⟨b, -, hb⟩ := ih
    exact blind_some hb h

theorem verify_spec {key : Bytes} (hk : key.length = 32) : verifyPrivkey key = Ec.verifyPrivkey key := by
  obtain ⟨w, v, o⟩ := Scalar64.setB32_val hk
  unfold verifyPrivkey Ec.verifyPrivkey
  dsimp only
  rw [o, Scalar64.isZero_val, v]
  by_cases h : n ≤ beNat key
  · rw [if_pos h, decide_eq_true h]; rfl
  · rw [if_neg h, decide_eq_false h, Nat.mod_eq_of_lt (Nat.lt_of_not_le h)]; rfl

theorem key_of_point {g : Ge} {x y : F} {hn : curve.Nonsingular x y} (h : IsPoint 8 g (.some x y hn)) : KeyS (pubkeySave g) (x, y) :=
  save_spec (GeS.mk h.2.1 h.2.2 false) (by decide)

theorem create_aux (q : Bool) (k : Pubkey) : (match (if q then some k else none : Option Pubkey) with
    | none => (.err () : Out Unit Bytes)
    | some pub => serialize pub) = if q then serialize k else .err () := by cases q <;> rfl

theorem pubkeyCreate_eq (ctx : Ctx) (key : Bytes) : pubkeyCreate ctx key =
    if verifyPrivkey key then some (pubkeySave (geSetGej (ecmultGen ctx (Scalar64.setB32 key).1))) else none := by
  rw [pubkeyCreate, verifyPrivkey]

theorem create_eq {ctx : Ctx} {key : Bytes} : createPubkey ctx key =
    if verifyPrivkey key then serialize (pubkeySave (geSetGej (ecmultGen ctx (Scalar64.setB32 key).1))) else .err () := by
  rw [createPubkey, pubkeyCreate_eq]
  exact create_aux _ _

theorem create_spec {c : Ctx} {b : ZMod n} (hc : Blinded c b) {key : Bytes} (hk : key.length = 32) : createPubkey c key = Ec.createPubkey key := by
  rw [create_eq, verify_spec hk, Ec.createPubkey]
  by_cases hv : EcKeys.Valid key
  · rw [if_pos ((EcKeys.verify_iff key).2 hv), if_pos ((EcKeys.verify_iff key).2 hv)]
    obtain ⟨w, v, -⟩ := Scalar64.setB32_val hk
    have hh := Scalar64.holds_of w v
    have hg := jac_ge (gen_spec hc hh)
    rw [ZMod.val_natCast, Nat.mod_eq_of_lt hv.2] at hg
    have hne := EcKeys.mul_ne hv
    generalize geSetGej (ecmultGen c (Scalar64.setB32 key).1) = g at hg
    generalize beNat key • G = P at hne hg
    cases P with
    | zero => exact absurd rfl hne
    | some x y hn => exact serialize_spec (key_of_point hg)
  · have hv' : ¬ Ec.verifyPrivkey key = true := fun h => hv ((EcKeys.verify_iff key).1 h)
    rw [if_neg hv', if_neg hv']

end Verif.Lemmas.EcmultGen
