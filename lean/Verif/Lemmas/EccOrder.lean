import Verif.Spec.Ecc
import Verif.Lemmas.EccCoZ
import Verif.Lemmas.FastBlake
import Mathlib.GroupTheory.OrderOfElement
/-
Multiples of the base point by chains of doublings and additions of the base point, with the slopes given. The base
point has the order `n`: a chain leads to its opposite after `n - 1`.
-/
namespace Verif.Lemmas.EccOrder
open Verif Verif.Spec.Ecc Verif.Lemmas.EccCoZ WeierstrassCurve.Affine
open Verif.Fast (force force_eq)

theorem short : Short curve := ⟨rfl, rfl, rfl, rfl⟩

/-- Point doubling with a given slope. -/
theorem dbl {K : Type} [Field K] [DecidableEq K] {W : WeierstrassCurve.Affine K} (hW : Short W) {x y l x2 y2 : K}
    (h : W.Nonsingular x y) (hy : 2 * y ≠ 0) (hl : 2 * y * l = 3 * x ^ 2 - 3) (hx2 : x2 = l ^ 2 - 2 * x)
    (hy2 : y2 = l * (x - x2) - y) : ∃ h', Point.some x y h + Point.some x y h = Point.some x2 y2 h' := by
  have hden : y - W.negY x y = 2 * y := by rw [negY, hW.a1, hW.a3]; ring
  have hne : y ≠ W.negY x y := fun hc => hy (by rw [← hden]; exact sub_eq_zero.2 hc)
  have hs : W.slope x x y y = l := by
    rw [slope_of_Y_ne rfl hne, hden, hW.a1, hW.a2, hW.a4, div_eq_iff hy]
    linear_combination -hl
  have e1 : W.addX x x l = x2 := by rw [addX, hW.a1, hW.a2, hx2]; ring
  have e2 : W.addY x x y l = y2 := by rw [addY, negAddY, e1, negY, hW.a1, hW.a3, hy2]; ring
  have h' := nonsingular_add h h (fun hc => hne hc.2)
  rw [Point.add_self_of_Y_ne hne]
  rw [hs, e1, e2] at h'
  refine ⟨h', ?_⟩
  congr 1
  · rw [hs, e1]
  · rw [hs, e2]

/-- Addition of points with a given slope. -/
theorem addc {K : Type} [Field K] [DecidableEq K] {W : WeierstrassCurve.Affine K} (hW : Short W)
    {x y u v l x2 y2 : K} (h : W.Nonsingular x y) (hu : W.Nonsingular u v) (hx : x ≠ u)
    (hl : (x - u) * l = y - v) (hx2 : x2 = l ^ 2 - x - u) (hy2 : y2 = l * (x - x2) - y) :
    ∃ h', Point.some x y h + Point.some u v hu = Point.some x2 y2 h' := by
  have hs : W.slope x u y v = l := by
    rw [slope_of_X_ne hx, div_eq_iff (sub_ne_zero.2 hx)]
    linear_combination -hl
  have e1 : W.addX x u l = x2 := by rw [addX, hW.a1, hW.a2, hx2]; ring
  have e2 : W.addY x u y l = y2 := by rw [addY, negAddY, e1, negY, hW.a1, hW.a3, hy2]; ring
  have h' := nonsingular_add h hu (fun hc => hx hc.1)
  rw [Point.add_of_X_ne hx]
  rw [hs, e1, e2] at h'
  refine ⟨h', ?_⟩
  congr 1
  · rw [hs, e1]
  · rw [hs, e2]

/-- The slope of a doubling is right. -/
noncomputable def dblOk (x y l : Nat) : Bool :=
  and (Nat.beq (2 * y * l % p) ((3 * x * x + 3 * (p - 1)) % p)) (not (Nat.beq y 0))

/-- The slope of an addition of the base point is right. -/
noncomputable def addOk (x y l : Nat) : Bool :=
  and (Nat.beq ((x + (p - gx)) * l % p) ((y + (p - gy)) % p)) (not (Nat.beq x gx))

/-- The end of the chain. -/
noncomputable def endOk (K X Y : Nat) (x y k : Nat) : Bool := and (Nat.beq k K) (and (Nat.beq x X) (Nat.beq y Y))

/-- An addition of the base point. -/
noncomputable def addStep (l x y k : Nat) (rest : Nat → Nat → Nat → Bool) : Bool :=
  force ((l * l + (p - x) + (p - gx)) % p) fun x2 => force ((l * (x + (p - x2)) + (p - y)) % p) fun y2 =>
  force (k + 1) fun k => rest x2 y2 k

/-- A doubling. -/
noncomputable def dblStep (l x y k : Nat) (rest : Nat → Nat → Nat → Bool) : Bool :=
  force ((l * l + 2 * (p - x)) % p) fun x2 => force ((l * (x + (p - x2)) + (p - y)) % p) fun y2 =>
  force (2 * k) fun k => rest x2 y2 k

theorem addStep_eq (l x y k : Nat) (rest : Nat → Nat → Nat → Bool) (x2 y2 : Nat)
    (hx : x2 = (l * l + (p - x) + (p - gx)) % p) (hy : y2 = (l * (x + (p - x2)) + (p - y)) % p) :
    addStep l x y k rest = rest x2 y2 (k + 1) := by
  rw [addStep, force_eq, force_eq, force_eq, ← hx, ← hy]

theorem dblStep_eq (l x y k : Nat) (rest : Nat → Nat → Nat → Bool) (x2 y2 : Nat)
    (hx : x2 = (l * l + 2 * (p - x)) % p) (hy : y2 = (l * (x + (p - x2)) + (p - y)) % p) :
    dblStep l x y k rest = rest x2 y2 (2 * k) := by
  rw [dblStep, force_eq, force_eq, force_eq, ← hx, ← hy]

/-- The check of the chain, from the checks and the steps. -/
noncomputable def chain (fin okA okD : Nat → Nat → Nat → Bool)
    (stA stD : Nat → Nat → Nat → Nat → (Nat → Nat → Nat → Bool) → Bool) (ops : List (Bool × Nat)) :
    Nat → Nat → Nat → Bool :=
  @List.rec (Bool × Nat) (fun _ => Nat → Nat → Nat → Bool) fin (fun o _ rest x y k =>
    bif o.1 then bif okA x y o.2 then stA o.2 x y k rest else false
    else bif okD x y o.2 then stD o.2 x y k rest else false) ops

theorem chain_add (fin okA okD stA stD) (l : Nat) (r : List (Bool × Nat)) (x y k : Nat)
    (h : chain fin okA okD stA stD ((true, l) :: r) x y k = true) :
    okA x y l = true ∧ stA l x y k (chain fin okA okD stA stD r) = true := by
  have h : (bif okA x y l then stA l x y k (chain fin okA okD stA stD r) else false) = true := h
  cases hc : okA x y l with
  | false => rw [hc, cond_false] at h; exact absurd h (by decide)
  | true => rw [hc, cond_true] at h; exact ⟨rfl, h⟩

theorem chain_dbl (fin okA okD stA stD) (l : Nat) (r : List (Bool × Nat)) (x y k : Nat)
    (h : chain fin okA okD stA stD ((false, l) :: r) x y k = true) :
    okD x y l = true ∧ stD l x y k (chain fin okA okD stA stD r) = true := by
  have h : (bif okD x y l then stD l x y k (chain fin okA okD stA stD r) else false) = true := h
  cases hc : okD x y l with
  | false => rw [hc, cond_false] at h; exact absurd h (by decide)
  | true => rw [hc, cond_true] at h; exact ⟨rfl, h⟩

theorem chain_nil (fin okA okD stA stD) (x y k : Nat) (h : chain fin okA okD stA stD [] x y k = true) :
    fin x y k = true := h

/-- The check of the chain: `(x, y)` is `k` times the base point; the end is `(X, Y)`, `K` times the base point. -/
noncomputable def run (K X Y : Nat) : List (Bool × Nat) → Nat → Nat → Nat → Bool :=
  chain (endOk K X Y) addOk dblOk addStep dblStep

theorem and2 {a b : Bool} (h : and a b = true) : a = true ∧ b = true := by
  cases a <;> cases b <;> first | exact ⟨rfl, rfl⟩ | exact absurd h (by decide)

theorem beq_ne {a b : Nat} (h : not (Nat.beq a b) = true) : a ≠ b := by
  intro e; subst e; rw [Nat.beq_refl] at h; exact absurd h (by decide)

theorem endOk_spec {K X Y x y k : Nat} (h : endOk K X Y x y k = true) : k = K ∧ x = X ∧ y = Y := by
  have h1 := and2 (a := Nat.beq k K) (b := and (Nat.beq x X) (Nat.beq y Y)) h
  have h2 := and2 h1.2
  exact ⟨Nat.eq_of_beq_eq_true h1.1, Nat.eq_of_beq_eq_true h2.1, Nat.eq_of_beq_eq_true h2.2⟩

theorem dblOk_spec {x y l : Nat} (h : dblOk x y l = true) :
    2 * y * l % p = (3 * x * x + 3 * (p - 1)) % p ∧ y ≠ 0 := by
  have h1 := and2 (a := Nat.beq (2 * y * l % p) ((3 * x * x + 3 * (p - 1)) % p)) (b := not (Nat.beq y 0)) h
  exact ⟨Nat.eq_of_beq_eq_true h1.1, beq_ne h1.2⟩

theorem addOk_spec {x y l : Nat} (h : addOk x y l = true) :
    (x + (p - gx)) * l % p = (y + (p - gy)) % p ∧ x ≠ gx := by
  have h1 := and2 (a := Nat.beq ((x + (p - gx)) * l % p) ((y + (p - gy)) % p)) (b := not (Nat.beq x gx)) h
  exact ⟨Nat.eq_of_beq_eq_true h1.1, beq_ne h1.2⟩

theorem cast_eq {a b : Nat} (h : a % p = b % p) : (a : ZMod p) = b := (ZMod.natCast_eq_natCast_iff' _ _ p).2 h

theorem cast_ne {a b : Nat} (ha : a < p) (hb : b < p) (h : a ≠ b) : (a : ZMod p) ≠ b := fun e => by
  have := (ZMod.natCast_eq_natCast_iff' _ _ p).1 e
  rw [Nat.mod_eq_of_lt ha, Nat.mod_eq_of_lt hb] at this
  exact h this

theorem cast_p : (p : ZMod p) = 0 := ZMod.natCast_self p

theorem p_pos : 0 < p := by decide +kernel

theorem cast_sub {a : Nat} (h : a < p) : ((p - a : Nat) : ZMod p) = -a := by
  rw [Nat.cast_sub (Nat.le_of_lt h), cast_p]; ring

theorem two_ne : (2 : ZMod p) ≠ 0 := by
  have := cast_ne (a := 2) (b := 0) (by decide +kernel) (by decide +kernel) (by decide)
  exact_mod_cast this

theorem gx_lt : gx < p := by decide +kernel
theorem gy_lt : gy < p := by decide +kernel

theorem dbl_ok {x y l k x2 y2 : Nat} (hx : x < p) (hy : y < p) (h : dblOk x y l = true)
    (e1 : x2 = (l * l + 2 * (p - x)) % p) (e2 : y2 = (l * (x + (p - x2)) + (p - y)) % p) (h2 : x2 < p)
    (hk : ∃ hn, k • G = Point.some (x : ZMod p) (y : ZMod p) hn) :
    ∃ hn, (2 * k) • G = Point.some (x2 : ZMod p) (y2 : ZMod p) hn := by
  obtain ⟨c1, c2⟩ := dblOk_spec h
  obtain ⟨hn, hk⟩ := hk
  have y0 : (y : ZMod p) ≠ 0 := by
    have := cast_ne hy p_pos c2
    rwa [Nat.cast_zero] at this
  have c1' := cast_eq c1
  have o : ((p - 1 : Nat) : ZMod p) = -1 := by rw [cast_sub (show 1 < p by decide +kernel), Nat.cast_one]
  have ox := cast_sub hx
  have oy := cast_sub hy
  have ox2 := cast_sub h2
  have ex : (x2 : ZMod p) = (l : ZMod p) ^ 2 - 2 * x := by
    conv_lhs => rw [e1]
    generalize p - x = q at *
    rw [ZMod.natCast_mod]; push_cast; rw [ox]; ring
  have ey : (y2 : ZMod p) = (l : ZMod p) * (x - x2) - y := by
    rw [e2]
    generalize p - x2 = q at *
    generalize p - y = q' at *
    rw [ZMod.natCast_mod]; push_cast; rw [ox2, oy]; ring
  have et : 2 * (y : ZMod p) * l = 3 * (x : ZMod p) ^ 2 - 3 := by
    generalize p - 1 = q at *
    push_cast at c1'; rw [o] at c1'; linear_combination c1'
  have e3 : (2 * k) • G = k • G + k • G := by rw [Nat.mul_comm, mul_nsmul, two_nsmul]
  rw [e3, hk]
  exact dbl short hn (mul_ne_zero two_ne y0) et ex ey

theorem add_ok {x y l k x2 y2 : Nat} (hx : x < p) (hy : y < p) (h : addOk x y l = true)
    (e1 : x2 = (l * l + (p - x) + (p - gx)) % p) (e2 : y2 = (l * (x + (p - x2)) + (p - y)) % p) (h2 : x2 < p)
    (hk : ∃ hn, k • G = Point.some (x : ZMod p) (y : ZMod p) hn) :
    ∃ hn, (k + 1) • G = Point.some (x2 : ZMod p) (y2 : ZMod p) hn := by
  obtain ⟨c1, c2⟩ := addOk_spec h
  obtain ⟨hn, hk⟩ := hk
  have x0 : (x : ZMod p) ≠ gx := cast_ne hx gx_lt c2
  have c1' := cast_eq c1
  have ox := cast_sub hx
  have oy := cast_sub hy
  have ox2 := cast_sub h2
  have ogx := cast_sub gx_lt
  have ogy := cast_sub gy_lt
  have ex : (x2 : ZMod p) = (l : ZMod p) ^ 2 - x - gx := by
    conv_lhs => rw [e1]
    generalize p - x = q at *
    generalize p - gx = q' at *
    rw [ZMod.natCast_mod]; push_cast; rw [ox, ogx]; ring
  have ey : (y2 : ZMod p) = (l : ZMod p) * (x - x2) - y := by
    rw [e2]
    generalize p - x2 = q at *
    generalize p - y = q' at *
    rw [ZMod.natCast_mod]; push_cast; rw [ox2, oy]; ring
  have et : ((x : ZMod p) - gx) * l = y - gy := by
    generalize p - gx = q at *
    generalize p - gy = q' at *
    push_cast at c1'; rw [ogx, ogy] at c1'; linear_combination c1'
  rw [succ_nsmul, hk]
  exact addc short hn g_on_curve x0 et ex ey

theorem run_spec {K X Y : Nat} (r : List (Bool × Nat)) (x y k : Nat) (h : run K X Y r x y k = true) (hx : x < p) (hy : y < p)
    (hk : ∃ hn, k • G = Point.some (x : ZMod p) (y : ZMod p) hn) :
    ∃ hn, K • G = Point.some (X : ZMod p) (Y : ZMod p) hn := by
  induction r generalizing x y k with
  | nil =>
    obtain ⟨rfl, rfl, rfl⟩ := endOk_spec (chain_nil _ _ _ _ _ x y k h)
    exact hk
  | cons a r ih =>
    obtain ⟨o, l⟩ := a
    cases o with
    | false =>
      obtain ⟨hc, h⟩ := chain_dbl _ _ _ _ _ _ _ _ _ _ h
      rw [dblStep_eq l x y k _ _ _ rfl rfl] at h
      exact ih _ _ _ h (Nat.mod_lt _ p_pos) (Nat.mod_lt _ p_pos)
        (dbl_ok hx hy hc rfl rfl (Nat.mod_lt _ p_pos) hk)
    | true =>
      obtain ⟨hc, h⟩ := chain_add _ _ _ _ _ _ _ _ _ _ h
      rw [addStep_eq l x y k _ _ _ rfl rfl] at h
      exact ih _ _ _ h (Nat.mod_lt _ p_pos) (Nat.mod_lt _ p_pos)
        (add_ok hx hy hc rfl rfl (Nat.mod_lt _ p_pos) hk)

/-- The multiple of the base point a chain of slopes leads to. -/
theorem of_chain {K X Y : Nat} (r : List (Bool × Nat)) (h : run K X Y r gx gy 1 = true) :
    ∃ hn, K • G = Point.some (X : ZMod p) (Y : ZMod p) hn :=
  run_spec r gx gy 1 h gx_lt gy_lt ⟨g_on_curve, one_nsmul G⟩

/-- Slopes, `true` for the addition of the base point. -/
def slopes0 : List (Bool × Nat) := [
  (false, 0xa249bcb3191802d3cb56fc75a8731f848e7b2caf080f3477a4e4d904a671af9d),
  (true, 0x28cdb0fe6681d140c59fb73f85f16459ca4cee083742bada762de4ca226a8086),
  (false, 0xcffdb37b9cade05fdb719f4ad73b00878ccbbf536584dc9d3ea8a8ba9b0101fa),
  (true, 0x263ed41ea861f1ca204b14e1f0d011cd0e8fb627edadcd985f023d4d5778f04b),
  (false, 0x4a9ab06359263e9d745cb65a2c51ac731df3819a1bbba20efe18e198a5073626),
  (true, 0x128b6f9e4c2d20dd1c835cc7f66be8db8ff9d9219a5ab381e3caba4bcdba1e28),
  (false, 0xee94ed8ec4ec9cf7d5783b311431460ded97acc17a52f66463d4c9bb3700a939),
  (true, 0xdf4dcdf197a43a2b9c36c78e873977d4b343639b2e433c3bfe90e51f5c9b285a),
  (false, 0xa2fcc0c49c6bd1f85e9581ce9fe2cd015b8872623d1fff57033c640251a7cbbe),
  (true, 0x139ff3dac1e93d75e011d03298a3ff6029e02d520c8533763d312c080e234711),
  (false, 0x6e72a7172a1a03414085f7bceef9d68636f5aaa49f314a816ffc3dff570bd3f8),
  (true, 0xf3149c43521ae070ef9f9c7a47dbc3d1d24b9274e372754470e317e216722aec),
  (false, 0xd75102e923058adefa0b17ace9f2d4c13fae1708852f13571b5fa3f3ec2d62de),
  (true, 0xb2a061b9fdc7e4c09aa7077dc9f0fdf019db0403223604388da73ef5539debd4),
  (false, 0x654834a2e2af3b79968f41d26da517933bafd978d26f4115a21f5830d872938),
  (true, 0x9dc47b784985700fb7a52cb05ddcd545b94d16ebd094c3fa42f8dbeda0bfe17f),
  (false, 0x71085602eb82890f7d3cd811c2963cceb5ca70c582593e28b863722aaa07a1fb),
  (true, 0xb09f8cd575407caf3478f977dc6b5f2c6a71b22ff0893477cdee565f2cebcfd5),
  (false, 0x67946c57b86ac9a6e80450f2e3597bccf640f6185ee79940f5a625a8e4c879f2),
  (true, 0xb566183ea2d5b39bc67423654a35d891063b8b930fbcf483acf4f98cc146c3db),
  (false, 0x5d4d2b08ca29d06b1e91d8cb0ffda22776ecdd98f6fec72104f111b2b2119e08),
  (true, 0xeadbf028068cb1cfed2ebe58e30a9fac3e0a5a97e14f18d39701cf8ca85ec412),
  (false, 0x243086982526beddf165d7c7dd843b0c8310293f9b484595886055124d708d12),
  (true, 0xa583e21e3394cf9c4a0abd93b1e31bb7d236cd9b3fdc0e84ad45eb142c8fc38c),
  (false, 0xbdc136492813ea8079783f030bd3c3a0d31847e13f7a73f2f0efaed523c44141),
  (true, 0x54e743c09616567d3b6689cdbfea23ea00a3bcd83530b235106f501ac0d31fdd),
  (false, 0xc66d4e79577249817ba7c57aa94163a6bfc66e835ab0a6526ad43ea8449ac457),
  (true, 0x6ad479dbf6efeead3628b03add66c56066104cbeda0104a48293abad736e7a41),
  (false, 0x4cc05eb2acc0aad34fb161616e8bfd366bc3d41c23cc8ae1096e30b81801f330),
  (true, 0x525a105aab502639ad9f878c575c25b358ee89a6e04c6fbe405aec0b7654addf),
  (false, 0x284437f876000545dea5703645ee881b3a8d7b04aab299eb6c09b5054a254e6b),
  (true, 0xa5fabd5377693f33a085735ab94bf69952f4529c736ba053ca859dcce3a8fdb7),
  (false, 0x2813568f5abff13313c5340457708accec976f62ef393311bd353c2a238284a3),
  (true, 0x4b0a463d6165cc6fc04737371afb8eac19cfc9f4751365ad16cea71c8b62d318),
  (false, 0x1b52f500994f1dcceb5a870bdcffe30c214e88437a77665dd539562455ddd1e5),
  (true, 0xd6a38c0883e753e4516344a374c85aff507ed79c9a8859df0d03349af96e6436),
  (false, 0x4377358be4ee9640ad1e7d0cf090992a8fce9d7728a58f67c21981cc59655153),
  (true, 0xf3c94434e06496f4b2b2eae3bd8bbde319e6b1fb3695fd0e8a1c42131d18baa9),
  (false, 0xefb7da29c3bd82b499aadd4cdc78a1214f6edd630fd9718315e31bc74bbc9056),
  (true, 0x4e5208148916e43948da89a50f353bb8eb97fba1132ebee63901a8af7ea1bdb2),
  (false, 0x43dadbc0d6f8abe65dd0dcca4402e686d2584f73218e9351d17721dfc893079f),
  (true, 0xa3171eec04cc52f999e0a54acd3f9ec496a353be1936f2b06143f845f22cd108),
  (false, 0x6c7d74651a3e37bf5016456655c38c27593426f589e8880a7cd3848c0313190c),
  (true, 0x31a29b4c16c9a43f18e46e88c83ff6b0705e021672bdb99585b922aed92210f4),
  (false, 0x8b74df76665aaffb07df4fbd2b5de2605501659fe298375abf02c40f1b735b),
  (true, 0xc075473d8871f96612ef73d217c07749783f442127aa53a98ce3650adfc86ee),
  (false, 0xb6ca6062da1151c14a2b116619de885cc425cbe04647ed540a7e31b3f6730f50),
  (true, 0x2b7c670959d65987fc33689412f513d2ef968968fd4868d4fa9d2dd2285f75fe),
  (false, 0xd8a0ed8b212dab2ebda53bcdef61b3168fff5e154f8c7ab117c8742ce4c2e5c3),
  (true, 0xed242ce6ddacb546677dd10b7d9c6c3596aeb134fbcd34245b22f043e35daa2e),
  (false, 0x31e29fa3815f4e097d826dbd06183813d18401f39c4da95f8cdda4b6f3d0f463),
  (true, 0x8b0a18841ee512265744bc2f6136524092d94d19154c23b252f8968c33791d73),
  (false, 0x94240b818cdecfeb1f9cf074d0fbbcbad85867a42f247b6feefb7dd49c2b2d5a),
  (true, 0xb63d8c8565a87d9e9ff9c9070647034ffaebf267539fc081779bd268666cce8c),
  (false, 0x829c9110290c5ff26c90f3f622c9d949793cbc101de848939aba934c13b01137),
  (true, 0xc4385e9974f4969b74fff85bff56e4e1f56eddc111b07dfa7f6f85db8778bdce),
  (false, 0x2f87bd70257f23bded3904688f410a3b4e35204b675dd8235c604ed774a7564),
  (true, 0x718667184217c02271bea353f8ffb3a4511c8b6a4e226a63e8376a28651a0abc),
  (false, 0xd8f4d1b39cf8c94525b7676963406dca4f7e27f76ce5cb840512fe2b0c79d8c6),
  (true, 0x388659d985e27ecada5fb911ce8317c492f72af35917ba9393bc7c006d1ea458),
  (false, 0x17434fde6217cf23513fcf320c85f0772c06945a80e3eaf49da08e7360dcf7b3),
  (true, 0x460cb707eb68da47b8e16eab34d15ea230501076d6d35aa08a5d8e0c2745f5b2),
  (false, 0xe7289190fbb5a7d7d62b51d40f3571670d41439c83a980a6ebf0c77129c5ea30),
  (false, 0xc0c0f69007425dc498074987e7b1b2cc32e5edf753f84c8d1e31e83a7f4c1fef),
  (false, 0xe2266a64fc9e96910bfcc391499f69e6e3862cdee724bf5f53e52619a78d636b),
  (false, 0xf7be988964ec4116f418581f98955a9ca415e34883c7a464aefb4b965b9e49f7),
  (false, 0x4eb34c79827117c2632524e9f4d02fecf1eede4cdbedd17bc9b364e5ee04dd99),
  (false, 0x53b963e0e2a551f86b7527b4da6ce25b70cc5b23592b9b7b4a6768e1eb9eab20),
  (false, 0xb8f8d77f98b07b91a739fe888ef94517d1e11ec5ae46114d5d9fcc91b1494e2f),
  (false, 0x856480bf6645295b7cc166fcbf9ccb4213ca02b689e6a51515b002a54653b436),
  (false, 0xe5bd602b7c75efe5dd4bfee34f6d5f15c12502dc3d6a454e8416bf7262efd14d),
  (false, 0x901938d044075d035fec1e3dcc28585a76a2c4f101473d40d33faf2d07a666ef),
  (false, 0x225568746c8026c61a929d9ee21cc8b663b8b70852d3eab403172b36db27773a),
  (false, 0x730e7f0e730508b34af19c004afc304711f461a3ad85aa214506bbb2d38216bc),
  (false, 0x61bcdb4b66643b59a748a3260de0d150ba66d53835998a7618465429d353b8bc),
  (false, 0xc9651e62d6774d6d434978a729e20c44dbdf244c051785d459e9d397faf72d77),
  (false, 0xd5c0e76343a81b2fccebfe410ee5f059d6813035f76b381d8a4c32004e356535),
  (false, 0x33ca08f7f6caf3b2bc2dd0597e53765ce9a3a459a2d6ec8c14fd62b9829c8036),
  (false, 0xe3d88474bf049aa8c92e117118d8ae2192be22c3afc88bbb6d45984b246b29a7),
  (false, 0x48e767de0f22738d95a0cde900e2811f059cc9b0b4d8f7c6662c971f6dd8540e),
  (false, 0x40ce2d624ccbdda2181d7203eceba6f86c74ffecf1099f60709afd4e366ad7fc),
  (false, 0x7ca5a95dbd0f238188c92bc10fe3120ca5cdc8c94f5543f619e7b4a285fac63),
  (false, 0x1695cb9add979f9b44bba53cddc3af6ec9a9ada1fcecce7cc21c53ebfe9bf13f),
  (false, 0xb52ef301be713cd3721fb2eb26e9651c62dbd5611dbf05a2a082290ba0205c5b),
  (false, 0x477a8d7b28feffaee439432c1cb34e620d2b28f77d7a02dd8f8b7b25da055f0a),
  (false, 0x3df23d02be64203da86b3586f55929b44d3b721a7d42d1f74c2790f568dedb19),
  (false, 0xc4edab784cc66e9dc3ddc0a1bb35098abbebb6da1bd0379f4f35495b1810da1b),
  (false, 0x88fd5e6ed410c082c3ce11a91fb70b3f67e4a7765d05e18d7f947b38ca97f419),
  (false, 0xf20a57ee70df07d6ce91f0bd0a46160e3a6c07e71c958c66141e21069158d350),
  (false, 0xf1fbc80729ab01a5ccb119d4f3c345cb8f969116d59a28f5bc535098ecc8e08c),
  (false, 0xb6f56f88616f73e59cd055fedf26a4e7e9b7d3805a7210f8280ce5f968813bdb),
  (false, 0x95293b8c9d1b7cbee1c6a40dddbfa08124cd4c445226188841a5ce723091ed70),
  (false, 0x5fc30199770d63f9306b8eb5b70c590e7a78844d7f32b7599bffe25242913afc),
  (false, 0xe6f5915845524817c9b060c18d8b717cac8fca080e26cbcd288bf75a7faab605),
  (false, 0x5964c5233f7fd444ac5e95e0039f0cab6fa80871add7e1b32f0a722a6608889c),
  (true, 0x61c1c5729551026465e86872817fa89004a45e0813e30fc1237459192e8e8453),
  (false, 0x8460b25d97666448b4ee773e3ce03da44167ca15403443c4d7e670a9a4b315ba),
  (true, 0x478a8ff8452f55219fd84afc9dba9fac16e3398758d27227159931dc490e1442),
  (false, 0x7c42153ee71a4514f3f19f3fa1cad7a32365dea4ba9f93aabd93f08ab8a84786),
  (true, 0x639d7d5deda2352a0b7c2599f12f386ffdd28b6e7dd40da1362defb479d8e4f7)]

/-- Slopes, `true` for the addition of the base point. -/
def slopes1 : List (Bool × Nat) := [
  (false, 0x51a714c9715fc3a540606c432dbb85c5a5dec10da8af3080ed323d44e0b53803),
  (true, 0x5da15f62ff4d7f2a8924a8c455049df63f9560cad7b50667a651e3b2a901d856),
  (false, 0x5f44fa9e56759b25e964f702cb194f3ebe9ea41bea10a3b7fea63fb8ff411f7),
  (true, 0xf12561045e09f40b3809a0ef2d8188c5e49b758041f336acdbdb5278c5c392c6),
  (false, 0x37eb0347dbf7edb778e2a3b5a46ddd1c91217ddfefbed72597fd6bfc3ca1869),
  (true, 0xdb3fca3894da5e578b3ad138f65339198c4d381b1a80c381e7fcab38dd7eab0f),
  (false, 0x773de71b6121815759112d10accaa17f10a18d46fe1a330108cc5925d8f3ae2e),
  (true, 0xe4b5906eaa901a1d95ae0f1ab598afaf50a29a8d8fbb666d391ae676d8262bec),
  (false, 0x9d8f6122b4fd1e4eb628f3bb15c795fedd109336ad3106f0812fbd8051767234),
  (true, 0x5459395436aa40d27e387fab3cd70a9cb0bce690a9a48b32f26766bf92566839),
  (false, 0x63202e522ddf7de3dd735dcdd91ca51854212e2ae81f582fd2ead066ae75f9bb),
  (true, 0xee71b88e219f44dca3f678809ab2d97a322e5fdafd9435140294e9e8447b56f3),
  (false, 0x3e417d778cd322d6f978a0db5d4f2c18ad0902cc627cfa4c2d8b52046c0544b),
  (true, 0x809b1c2f13cfd8dba8e804bababc0e1043ce348d46d2176ed04d6911d42e8721),
  (false, 0x4ec5bc0c0e0f3139f8c8f3d6583bd0764824d993206fc155b8e5ebe00b29fe4),
  (true, 0x9815c79a7f234c32deb92fba0aed60f779be3b6bd49b28f493e6ecfd8bdf4c24),
  (false, 0x1f3ebc201cd768dc2bc133aa802452a89eb99e5041fc7a14f07001e4b8cea7c7),
  (true, 0xfcca2c6bdad1679d9dbe37c4d31cbd7f396c38092d0800fa0208f087dad176e5),
  (false, 0x5e49ce521dde3639276fc58c8748a9fb9ee3cdd8c3b0abbce67f53dd15a1578b),
  (true, 0x3a40efa7ec56fc2dfe613300c5d4ee4991c5dadfe7bc47bdfed7764a304fe1d6),
  (false, 0x653fdff321429d38326f2335659c66d972471a8e8fdb3dc77085843633fd0753),
  (true, 0xdbad9d15f0a229d3058c5e2e98ba0bf86105c77b8a9812e44a1b26039c889a8e),
  (false, 0x854b6e8959a21a0edbfb3850a3d4896a01c9e6ea251bf86c3bf9241a72d455a4),
  (true, 0x44f463287a3eec0e0484928cd78afdf2de081344b5416b8c156104be785a3758),
  (false, 0xa6a59f0292e60295ee590171982f2037efe67568e5706587dcd8a66584dac1a5),
  (true, 0xaec1439d29c41c38cdc0ce57edecbaa368147691af306084f8ba62a7c4915864),
  (false, 0xbc8b0845cfe9aed26c9f60a85e019fe3f7e48db3549398b43df5ae0951c1355b),
  (true, 0xc7279534f7cf0f95a613af86e92cb67659957853b00cdae5883ae4f1c075a1be),
  (false, 0x5d61a9453ce7135dffafd041adc1b59008d67875795065c3172eea89929eaa54),
  (true, 0xf6055fb25521afee85642a9f773bb086f0c1941e70565e129cb05c977ff0e37d),
  (false, 0x2d128447b5631939a736a8bb8134d8863692f8a0e79c620f553c17fec17e9d96),
  (true, 0xabd6f315532af98ccc28b5ae43dec19c5cfcf0a7fa6c89790223c74ec941e626),
  (false, 0x40fdd352bc4e5ce83fdf7337568a36a3df13fe90f4a5d975c4afd0989bc8519c),
  (true, 0x7d20ecfa7d042ef0a592b1e07356346319a753353d45485e8033c242f7e9dc9e),
  (false, 0x4189983cc2a433e32e4c0ca067d18c8944722d6ff6e38f3c56c4aa36b977294d),
  (true, 0x29ff66ec7b6e5a74ca03fec0af64f196367c6774775cfc6faf0ed7c046d132a9),
  (false, 0x46629eb3fa845294ea5d0fa1a880efeb13785ba7987da34cb335911711e137aa),
  (true, 0x3067c9164c9b7aa37d5e7ed783e9037887217cbe065d17921982b51dc5330ee),
  (false, 0xc7e12ee3f202c1de5ea8a9d7c3b05092f5e5c4a547f4e08921515248658133a6),
  (true, 0xd709ec48d575919de6d0171befa8b7028c2f4ca4e887f34d51d33e48dbd75ad5),
  (false, 0x64b18e8a4a0c7556ab21b3d79dfc563b23d21c9601d35fee21c74f651bad467e),
  (true, 0x484566a0c3fb005cedc6a41ed31fc0badbdfc75f1911c2223dec54b831ba6454),
  (false, 0x5245eadac0e0afb5c3228f70e522c85905b158633c182336c1ad3c398752d2e8),
  (true, 0x2ad2d961786f3a17b70d8a977c0602a72cfaa3c4b90193f6cd821ab75a14836b),
  (false, 0x50889070d4b8be7ead191bd948652723472319dd8fcc42db026e2b2985eb79df),
  (true, 0xb564dd2cb5ff61058812a2409c78aae02758a1ee436c866ff58fb2e0c38942a1),
  (false, 0x3b217b5656dafb012ad0c023c94bf3306ab216b14acadad420b2211391ec095a),
  (true, 0xdad3f98fa86c4e19da03349606326dcfdd57492114a8525cea3c37324380d453),
  (false, 0x217dc061ba548d72e877e8cb2df643945fd7dd2d4cb7d7ae9dbeab9a2d5169e9),
  (true, 0x6f0a221a784ebfef4b32b8ee0109b7e502f5bf7b2bbb8631ab6bba6d8604b9aa),
  (false, 0x62d81b3c0de39523156d1ad19620579d66cf4d7f0f07ec6deab93744c2944a05),
  (true, 0x830b523e84f9babeb980ee0b74403d685323cb340050fed6bfda26fcdb01dda0),
  (false, 0xd31ba3db40bc0c8b2c28e55ad18cbf17a49feeecb9ef04d1905ccbd45a40d462),
  (true, 0x37d9292a32242d74cc4f9fdfc310b24c9e8ab0f33bb38c947d82b1292cb00759),
  (false, 0x1d84b9edb57b729ab2472b66c23924430e9d65d34a3c606aa4ad37eed84bf2b9),
  (true, 0xb48bf2421082f4f3591c1c86f551efbfc350bd3a18992efac88143a10bea9728),
  (false, 0xa088d1b1fb4a7f3b03ef3a9b1e64cb0dda4d656ff5f6578c8b1fb5a51ad5cd94),
  (true, 0x6ab30d979c2464f41b9fbcf7e91eee34c420f538e9037918c84a61dd61f0d7a3),
  (false, 0x2b533d0d75373494ab6e521e47c78b73ec0da04ed717f1dd6289e1ccfb6547e7),
  (true, 0x3e297acecdac79e931bda33b557c9123e52e67c25eb649f729aa499b32c3fb76),
  (false, 0xc2c2b29302de61f333b9071e80019135337978c83e5c47c690473b389bb766bf),
  (true, 0x7246f7622df4d58826e42e3ade176078027b5bfa2eef8aba2acebe90d4e136e2),
  (false, 0x1a352744c2fb61ea03ee26821ef3875a1acde0022e6424b556e7a836721147b2),
  (true, 0xa458cae360085939b66d142d452c78ac7b23e303947f09a53eb7c7ef5439029f),
  (false, 0x713b180aac5482ab29c14d427cb4dde223507b83d32d837f7c193abb1d723e00),
  (true, 0x9ce4f6ff4d307c896bd381d90ac8f9dc97c371a1d3b97b9c5f0fb4a2327d7463),
  (false, 0xad97f5406c3006d84eee52776ffe7ff9d70f633d97e7cc97df6f722dad3e2adf),
  (true, 0xe281045fc4d097401efb73faeec5f0af95960ab95087f8e7c3c58d3104ab674),
  (false, 0xf0157ff7fbd17aa9fddc052925780b70883b18f724b26d2a12e9f8240ea4aebe),
  (true, 0x704fb443db452ee548ea0fa17e3d4c019f9a481c7e22f9d053c74b26351c5ea3),
  (false, 0xfc4ceb3ab4b6dad9ab874d06bd698ab4788626cd148a3ed0a7dd1000f05d3390),
  (true, 0x1ec1474356b2c209d207f2b9e92b664ba0a18d9fa2ebd81be92ec9c4e96cfee6),
  (false, 0xc7b5f67bd272579f252611c06095ac4333816f15cab71e15e9eaa57a05b5d567),
  (true, 0xef312f78d5d355ef6abd2644b85c40eb3838d876a652bd57fc1df6fb5dccec63),
  (false, 0xa6c85074d081ebd26cad9a9be42b93b4873a2f39c80159778e7e7a509f501584),
  (true, 0x12fa762bd6fc32a80195703ad8441d84a93d1bd3df352f9d3811420344ed83c6),
  (false, 0xdd9fad331f4688e61780363968dec51d7959e732bee35ff488982a38cad65450),
  (true, 0x759bcd4ff622d64155894e13dc271f8674d786e909b871aaf4792ec0b1e80530),
  (false, 0xcbb01a264f61795ccb644cfba7b53cda27f0d7b5e873c9c66205689584db505f),
  (true, 0xe7d43c915c1b508541cc6bd2fc3b89172338f15760edbf2cfce2f3f9f697b893),
  (false, 0x96bbae020ab6bf67f718f55930b52dc52531edb3206fab791aab5ddbf26dda45),
  (true, 0x6179d623ddf9d9543492ca84b223ea3dc6d08c8447369007055acd8f958d7524),
  (false, 0x26953612f33eafded68613cf9787e67ca15ab0dab5469ce653a87cbf9056434e),
  (true, 0xd63f1663f4dee99ad58e6838d1f03fd82a9edaf6bef7f178fec8ea8f133f248d),
  (false, 0xc5f4f06025a5a1a928e3b5fe2b3299987396b2e47823534fca1880f7f49a2eb4),
  (true, 0xe2e13b006db28064155463f545792b1533776183de7d6df2771b48f6ca8071ae),
  (false, 0x36547bca0d7b07ca5e94df1e63bada960b17adeb0c4524923fb2a75000f4a6c0),
  (true, 0x8c0699a09e743a480ec474322c34371c4582b089e6b08c1e6b4269928126daff),
  (false, 0x89416f8257097c6711519aaa2efc5423d887b0872e069b42b7d1ad504f4c5749),
  (true, 0x9ae45879eb8bb8dfe1bb90a38b457828d0674e16cb989ede2c97cb54e965abde),
  (false, 0xac1bae86dcfdca39f4900764740e00ead746c482d89449840a0a2a3fb9f9e52e),
  (true, 0xb084270cf3fbf2b1a8eee49509e96351199fb079b4c26e3a353638ae6d5bd967),
  (false, 0x37e805f5570746ebac3518187a955eabd9c2075e9fa00c42da50f9a3dd03c452),
  (true, 0x4be2d84b6688417fd23d48e4469ecf8cd1c19a4eaabddf08cbb0773d3621b37b),
  (false, 0x9a50d4adec52fe7a80a0e78a3a0c66ada45c26178a6f0f31718a179db67663cc),
  (true, 0x30a03bdebb180a74080c63de9ee8a25f3f02fd9c06f8fc519895f1431dc349b8),
  (false, 0x63bc1f5aeabe44e3ffb8802ebdcb5c9025f920bb683a783b6bbdd351b6e866d3),
  (true, 0x63ad11c27632cc56103390840a7f5b185c854a5414762c01c9c7f26d4cebfe48),
  (false, 0xd06f3fc4f9acce6d10868ff1419258fa83a2c1c01af09415473f6260d4884df3),
  (true, 0x4615eee0b7bf836e6cf1f766269f4bcbb8bf20edd37392fb8f4dc4f5eb370ab9)]

/-- Slopes, `true` for the addition of the base point. -/
def slopes2 : List (Bool × Nat) := [
  (false, 0x33eb60219e4a075a652a37d74c8310564b9934640ce7c31337908bd23a23f450),
  (true, 0x4da6208af3ef851ae22f71ffc9ae90aa5b4f1cddee9a551f8c343fabb66d8cdd),
  (false, 0x51427113c9caee70f83cbc4ab26384f91359fd9e731b734fefdfeec44c857450),
  (true, 0xb2bde25d032458f73f1812c24480763833712829f0613b18c2b7a509e4bbfc03),
  (false, 0x8422412a60d5268f30e0c119e1b3d9551abd8b36fc943bf320de5a178ecb34f5),
  (true, 0xdf0a9f9fd331ce48f0a4d19efada5a41470dd7d04e335eb0834741226d416abd),
  (false, 0xe899dea1c6672ea3d24f9715437027b61e62204a5225d3a45d0e2152b5d6502e),
  (true, 0x2d4697e999699090805abea55f57d1857e0b682b6003409797c1cf90e4ea0655),
  (false, 0x27cf1299aff30f21fcf88080f235a8314b29b990e031064ab77d641e4615f130),
  (true, 0x5530c0778bb35a2a29ccf1dc04a750e19f0762ff238c6b208bf24510faa26933),
  (false, 0xc4ec4e0f48f90f1f83bfca7fb5637a4d633093a4ae38e9fbb4b9a71af1ff93c8),
  (true, 0xaa901b5d5c6e84637cd6e9572b01a784c417d839fca51ec2d0095378e3b7fd4d),
  (false, 0xb3d30142946b235b156037a70d4b12d6b7c7c1141a05b65726bec907a4ea4c8e),
  (true, 0x5b1836539da60734aef7cf9426221f2b92f2f89527c11e3ed787d2499b2ccad7),
  (false, 0xcd5722b4f57a0a76a3e480571340c8491342f649808af45fe6fc79de2c63f3a2),
  (true, 0xe677c4797eeb7dcdb2efdb896e958e830bfb8bf11a8528773f11ae820d8616c4),
  (false, 0xe8adb13602b551162b664443befb21d192efa2d231a14819f78a74a33ce3dfb9),
  (true, 0x44237d48e70f402f7bd392da6f762126b06ed09085746babbfc66fbe8b1c9558),
  (false, 0x643509a85f6154b200c1fac7df310f9238debbf7803cdad43b1995efe25ad36d),
  (true, 0x89e1033b12996b7538dd0621e681e649a653e6766f3f84ced6de083adaf8abc4),
  (false, 0x8f6e8751eca903eb3c43a592523da2fe1eff63fc7dec2f429e8691e16a853ab7),
  (true, 0x9b06d815524722be5a2b073edf1998085767a4172caa88f1acb525aef593b31),
  (false, 0x7bbd682ca56c620e51834596d63c8a983bd853d89d0ae8eeb7a9f016e8db674e),
  (true, 0xee573a463fe1860abc24a110f9b2e08a16078b37421dba5742987bf411fe6227),
  (false, 0xf20d44963937da1dfdf6dbf36a5adcfb3b8fab44d9efd9b04e8afa0421a9649),
  (false, 0xc544b2a309280f5ae580d5d923981c523b647cf5dd806567d431ad7de0125b0b),
  (true, 0x5742068b3c41c8060e2c2aa80dfc36e78858b543d45d2b4d7499c2e167a70718),
  (false, 0xa214807ea4d5268c185ac41a9c76218a7f21848dd6b0b1697b02b53632550768),
  (true, 0x31bb825022cffb086f0068bd8c7e3717f1b45db18de2fd32fe6f58c86f526ce4),
  (false, 0xc5b005dc9624a5e46ffdbd3d9759ec611fb2fe356615359d8356d5fff090beaa),
  (true, 0x853390d015eea820168779050539d42f7359dbb417d14f244ccac48b81c2fd5),
  (false, 0xaab65e6fe897ea1ad3dfcbddb8b7a367594e5e7e30c97b36793c1a6c82a1b835),
  (true, 0xdb2a7f562289009c9e02b5aa11eb2f760db14a82321e27b205c65c1439477462),
  (false, 0x674be996a79b1ffa91230f8457289247595753941f964900da839dfeaa64d097),
  (false, 0xee5e7e6600de627f082365e48c6f6688ca2c9ead6d077753c293089bd937b41e),
  (false, 0xcd91cc334db87c39c7ce70cfb2f30b7c6860531fb6369667b92df117f1189eff),
  (true, 0xcff456b304ea94702d684d39ced34049bd9d5357dda0c185d41fdcfbd0988ed),
  (false, 0x565eedf299d52cc550a5624317569fca97463e2b7d767ad9747a2a47e7ff5801),
  (true, 0xf87546dab0a4b858e0eb4463786516d2f39b2118586cd3dcec09521d88d735e),
  (false, 0x59ce58d6df6bdcbfed6259ad846ef25274c80a9e0967cdaadc98ef3d8d088256),
  (true, 0xbfa25b7e28cb1befb3c193f4736e4b565f3e413b9f0663425216d92eb3b50b26),
  (false, 0xaf4aebf985cfa16ba0a6d619d9a6e023514f5bb08c62d76b0420577c88407f52),
  (false, 0xad5555a05bce9b2281eabcab4e0aaaf83beca658b0c6b730bf3e204f948e8da0),
  (false, 0x483de7956274d82c64f1a4dc18fccd7e45b35343f872e56a8a8bee2d07c8d126),
  (true, 0xe778ddf181d23733afadf1f9c113e2a0b243a16b64fb43e8bf25d3898b5567e7),
  (false, 0xc916486aa2bf7c53b29a7b4d115b7b6bc3c450596c7239266c5ed08687ca85e3),
  (true, 0xf1227496848bdbb46a38e581db05111cb4cccc61670d57f86054f51bdacfbf7d),
  (false, 0xfdf19e286091fbfd0f8b35590a1ac9b2610956f2bb6ac4d2283fde34415298b7),
  (false, 0x9d7977fc6eec61798c767a937ae06f3f5657bbdfdd64a90b7cd5a3bc48b583c),
  (true, 0xe8ee1f16da0e43155e9a5d5c495695b4b837ad1084f3c8d2c12a93c882fc4af0),
  (false, 0x63d5a27d4896b73103d1f9742ee5aa39c4da5924885965e0b8ec8f06163c238a),
  (true, 0xd5e751898735c1123f6b2f43d906a46b0882f0e02aab74158cdb5f9893e31fdb),
  (false, 0xae8c00106c46b6185f2774b74448888bdd241ff44e897e6d216cab541aa90ddd),
  (true, 0x1bb2d91629a2a20a1ec44ce2f9a8a12278c44a17f5040324eb56e6949c8a70ca),
  (false, 0x26f074ea27551377045b90e26a9e4233ebf5108089d2c3cc297c877cab949662),
  (true, 0x2e414097da6cee079e57f140a706f365f5351def5c73c3402058a8bd7f0ceabc),
  (false, 0x87724892c3bfdae63a7fec2b38a58cbb4bc309528a2ffae7083db48e8abfebb2),
  (true, 0xe0602209efadbd6cd456a2c0de310e56e7909a665222431ab28719eb42336556),
  (false, 0xf2e52cb7a0dbf5b7ef55f9954fdc0b324a0f39211cd3744d0693b7cb2962402a),
  (false, 0x913748f5f4ebd40ee833087d5f049a3160d91a7e477ef3d255ff1d5003941e44),
  (true, 0xd869a5a8c422b38a22406440fe94b20df7c47a43022621f65b97edd467d66133),
  (false, 0x7c8c145d701e464083f094c760cb94ce22e5c4c127ef0034d1950df32fb79c33),
  (false, 0x35c60f1a836092c74a628eccca0bd064ab49bf4039b700d3e48b339249b78f83),
  (true, 0xfac57d66161c5a265e954584676cf009af396b7628e79f6a7b7f06d5dea19871),
  (false, 0x64d0d38d31f6655d7305cdaa081f8b3588f2ee7037fa56584ed2c138efa37b6e),
  (false, 0x34c0b6e689e3ebaa4a2cece3b57c7a923ef24ecb819a1795b6aa6193fa78ebcf),
  (true, 0x5bdfc3e016bd14064129e7dafb01e78823999963ff47331b8a4f7cbab25aaa56),
  (false, 0x50530b13c19734d2d6ad228cf66c39c9677d257ecc18618bf6a5558276f01e9e),
  (false, 0x2d7a7768d68344da1688ae6dbff88c6780cc1f46f6cfeebe6948d084a1fe433f),
  (true, 0xf5173752f41f755ddd667d0b71e575d364541f8d737ddb3dc589b59a6005c4b),
  (false, 0xc816e595a34f787c9029049e3fa6f83055c0e2a6ac9a34a0bfd611cf94593802),
  (true, 0x2f8b62ed76f589fbc3533e687452a34510594fe624725f54fba2af927445d1d9),
  (false, 0xe49459c373c5dba80edde36f7347197dd8ca4cb493790182f5e3d808c610246a),
  (false, 0xedcb40b3507486f3f28953bfccc450a88bd60d32f3732f1f0ce7246d95bf2b27),
  (true, 0x1e7db4945ceff091770564084b5133a757d118c5101c1afb7599a7c039e2ad71),
  (false, 0xfd8f2d77d352a10feb4af848bcf7cdb517b5dd5fa59377ef98cfd3aa76801669),
  (true, 0xccf22954bc142e0ac8217aede886a51813ec27c584eed803c8aec458c3ff8e2c),
  (false, 0x4a370ec9fecf54b22643110841d65d9b9a30cfe56c3ab2a83ebd00265554fcda),
  (false, 0x26021cd70550e8cdba42f3e607e8d47fc17e9f01548cf8991eb7ea0920d2a1e2),
  (true, 0x2def9b7a035fca5c5ca4d2629525aa72cd247734826468a96100c57d13b620f3),
  (false, 0x1687868d0c3c942a86f6a2f6bc2b0b0014da5b25d28de6968dd58ec932777ea8),
  (false, 0x2e1d6d99905ca613107ae06ad50b69ee23145b1a91e4afb8a2ca74b9207129a5),
  (false, 0x4cc2cb0832313f941fe6fa205e66482b5c95e94b784f8cad768d71554e8dd58c),
  (true, 0x953eb80710490a90c4e9015ccc7780ddcef83b0e528d98b2147d8cee36c7f650),
  (false, 0xe77a43f2a2db426a4734fedd298ff83781fcc9a38db40f997784a88426213f9b),
  (true, 0x883154e5f6c853f82b843514a92c45ff38ef34beaaa4c7daa8dc8eae6f30eb88),
  (false, 0x603ce71d2f4875d6123745af68f305da3eac9f117aecb657b2452e1194fd1c8b),
  (true, 0x3dfb0b8a175ddcf55618fdee537b8a67e3d57ce34b8e94e373fe7c714da7bb04),
  (false, 0x328311006166da0e2d955527c15989dcadf4e3fd67e2fa1041c595d4d5bb5318),
  (false, 0x7e087002e55cae077c9697c99e58a03e348c2cf038320cdadba6fdbdc2abda18),
  (false, 0x874749fef062abebe4fcd8d6de89523c51b44716b020f206d464b45cebd0227d),
  (false, 0x54f55f77ccd03ea178b1a9b03bc1897cea9b8351be047214c7608b24e0da4759),
  (true, 0xf5941c1eb12654a007fb675db05b67aa690e9385ab4ea936ce0d8d9d07282f09),
  (false, 0x5acfb45bd60bc0684156370c695bdfa3cab57c65f4c38a6a53081170e235536e),
  (false, 0x947b6dd1a288447c982122974b7d9a8332d3e6c66bd628de21b21bf1e207b274),
  (true, 0x83175995fb4db2bde9505510b2d6087e98574d82ecd74dd2c38e20eaaa4aebee),
  (false, 0xca6be48477e056606160f68ebe6af2618203bd96699dfac805feb6fa3b2875f1),
  (true, 0x9451d9c9c74c355b0c775b914fb857ad85fe732cda0baebf7528245a026485e9),
  (false, 0xe02cf3e22f37777a9f0a291795186edf86f76a830e192ee15156aab6c19d43f6),
  (true, 0xa8f01cacbd47a9fef58f723c262de87890f85d1ad84d95bf26bf0ae783d7681b)]

/-- Slopes, `true` for the addition of the base point. -/
def slopes3 : List (Bool × Nat) := [
  (false, 0x8b8b8a063728619146fe97651e7e937006dd59bb5b71738f57902a022abcdf90),
  (true, 0xb4aff3b7eea3d1f46cfb383fc5441831bee8c24ff486ef5658e1879d6eaa67b2),
  (false, 0x3050f99b1337c62004e120e368b9c0f76b837cba50537ff5e210843b7f72c84),
  (false, 0x359cb63dd575fe116d4334b14409ac9b98abc4fbae71c5208e980e73c5464763),
  (false, 0x741d59dd266cf529f4c4d32cb6c774d98385e15d27764acc6c6e572e4e80178c),
  (true, 0xc707bb40a046b6b80ad2370021bd7c1e4798b937a4fe3f46ba3b92352fcc5c80),
  (false, 0x6d9b738fcf928b6507ab382568d26fe8fb1a5cd2267ad3c7cd8b35f7bdda1564),
  (true, 0x9a23f7a3e0df8e90377b8ec3d19a9aff6a18510c305d31a42895851fcd7a8f79),
  (false, 0x57144b4feb9401f989142e6227165ba7092e76c6efdc9427d946dc3ec193eb2c),
  (true, 0x3564f27cda557f419e3751b19a06994d4820fe4f5c0b125641d601ff3c519f37),
  (false, 0x5a30e7df1b086b43be6dc3ed231fc325d82608e31ca367029c00c348cbb10234),
  (true, 0xeb26fafbc6f12849241b40374ee7edb8e72f1546f6aadfa139ed14ec2c68687d),
  (false, 0xa062b7b604d46e0eec641b05bea0471db15e82688f5826c1c34637bbd3edec1a),
  (false, 0x9fabde1ceaeb992e80017b12d617ae37f2035299330091887021ceb827ccbb36),
  (true, 0x230d7a4a3dcda864775eb4ffe8f319d14834441848fc304ad231797811c1302b),
  (false, 0x5470a5c84b32e321637d2e208201a340a01ffeca339bd0aa80979c4f1170ec87),
  (false, 0x7e0a3376d947900a7a41aa6d2f81b1952d4c5c95a3d6fbf1603466442e7f0620),
  (false, 0xe05d1f4553924fe6c8c2d7e3065b67bde5d0c944415fef1de4ee9e5bb461835),
  (false, 0xd6be9e6daef03da7f6225309237433fd6749d3ba48e55744d1086a32681a48b5),
  (false, 0x232359521f0e0a6d5ebdb8edfec99aa6083f85ee92d280a53cf82f10076328a7),
  (true, 0x5a5329acaed2ae0b821c3ff92a8374a4f3815e42d8d135e1aa12f39b7c454904),
  (false, 0x38ddab01e96df9b5601daeee9c80b49ed240c47e2ecc960852018922aba272f1),
  (false, 0x95b7fab8a622fff06ad5e5702363a19dae3220b75d3ae3ba3a0b13ee14053131),
  (false, 0xfe55999c46aa7703a1458f52588d6a83284348451bc4249b2c800fe6f32c0163),
  (true, 0x73f0586710391df475564ffc3712d6a06aff5021e1db8cc1d728b08441cb8582),
  (false, 0xaa3974036dfdaaf916da0c1878bdbaf4f0c5d807fdef7cbb0941a7906a25ae06),
  (true, 0xdc4aca2ff9ba9a9dcf44510fc7383937e55bd24a043cf7781a2577cd646fda7d),
  (false, 0x1ab42b29bc622068b7cbc863c4ce66b417666ef3b1d9e655c61875341cf429d2),
  (true, 0x92345d7044ad0d848e1bccf5eff8fa9ea1d2094cce29b2b464be0835355259cc),
  (false, 0x1ee92dd3bd4acd40e84faadc778c19de7411b80ab00611d2fdd6d370e9e5dc0a),
  (true, 0x1d8260b9284c55883180ecda117d24d39deaa7b40009d882392954f6293147a7),
  (false, 0xd8833940fe6bd86636ea00d04162f80381a184a21c5014203d4cf7987edfe17b),
  (false, 0x34e0318ef4cceb053031caf723efabaa1bc24c69e63a9d8f8719e91cde261341),
  (false, 0x3a2cd2afbd4549342122c9254195397712e1af3e5627b560e348ddaa5e7d72fc),
  (true, 0xb1272f6929356887be06790304fa3b2c50392403a47d95d10d8dcaaa94afdbdf),
  (false, 0x47a696954b4e9132c951338cc9a61bd3e9b4bc2e9b3bf2f53bf47df42cbbdef9),
  (true, 0x2365657d0ecfba1cd9890d7c154e672ede0be9a894259fe354f79a7eb402e254),
  (false, 0x6d50873f95866b8df06fdea9f82edca96c81e5b72d078eda81495bc687354c70),
  (true, 0xcd3b264cf0eda2a96ddfb1565f695665d2ccd5f3f20eaeb19d924c9d34765683),
  (false, 0x6ad3ef0cc2adb4848acee7f765112db3320d3015d9fdd461d525103004f36882),
  (false, 0xb8117ba4cabcbf56c5077417a86c3c354d303a799c2df5fbf25209e098c918e0),
  (true, 0x9799eebf6910f389f179c097b9caaa7e38e3783b16f050360872be57202ffae9),
  (false, 0x272833c940196608342b4352e118a500103c7950ef5c1304fc78ceede9288265),
  (true, 0x58923aa006dd6b85d52240048faa72c1ae6a17d68c1fc1ef4ae027e9df559653),
  (false, 0x8fbeff7fe11ee2c66414064d23a0f74544e896ff2b0fbe02682a5b0fc230802b),
  (true, 0xb248193a2c9da2e5391bee1e16ecabfea8857d2fe4bce2217a4cb27ccf157ac8),
  (false, 0x1e24e23be43ebbe98edbe61394c3a6ed01a7f4444ac3d5e4cce9f95f1f1b30db),
  (false, 0xaf7b1bedf0c2915b1da8d0b4b2c1a7744f9b9aea67bf3dcd991f35c737a3050b),
  (false, 0xead75cf07542905a364f01948be976aef4a71f8ffd4aea0c6334a6b6a53b30de),
  (true, 0x5ff1e7271371070120bbedc03ef024d151b8361bd1ed5baa895c0aadc0f14da8),
  (false, 0x9d925913cfa37ffce734f79dbef8fd054ee65f7ebd4a81ada48ec7aa3b3a3d3c),
  (true, 0xdcb744afc0229d962da3d0519f94f764d653aae85868d6753d47ed1f3016a368),
  (false, 0x57e62cadf09a652b3996d26bf7e6bf4fd20ed169403615faef394d02d32cda5b),
  (true, 0x74b070d234240a63bb8c84795e95174bee5f3d900ea9748c174fe75286fd9424),
  (false, 0xf99a98c677df5fa909f310e9c1e4d2e4d7661c86650dd382f74d78255dbb4d17),
  (false, 0x1f7bfca8004798e8724c6e51d327af0c8b9dcfced075624ea910059c69819217),
  (false, 0xfbe3f876cad27ea18b7ed7d9a18e7277f5ece4c2b3a80b2926ec17398dbd740),
  (true, 0x9d5851443baa883af29ab3bc9db02fb7160641ab858712546e09bf4df5f17191),
  (false, 0x1744a80c7c558f443cbaeab6a1598aa5cf536f8e359d8d65e6a33e32950b33f4),
  (false, 0xcb26e5491d724794d4428479d1e1ef5b43aac2ee8abf8bba5d91c748141b2caf),
  (true, 0x74ccf97cdb9cabf0d5790efcd315a8dd5f7acc4a142c89ea83402f7f2cac8485),
  (false, 0x97a3ec5a23b71974a2f8008a754e8ad427b671bcafeb52e4ae600b263a1ee532),
  (false, 0xb069de89a4981947b55927be9b4aecceec0662f6fb4fe3ed1955d75938caf41e),
  (true, 0xb77b0bfb4fec49493dce1cea2c41b2cd16dab25004498ccd8c855b6dd3621b43),
  (false, 0xeec21863927dff14bd8494de14db27aa9d6807deec4a05b27be99b9897831f59),
  (true, 0xd15e9a68e1f9967a12a2b03bda1090ba253719e8d418fe9516ea86624c53c473),
  (false, 0xd179f413ae3bfd5ab16b4fa72c59c7cff3de907e09f0fe2e6784aa84fdd8df5b),
  (false, 0xf3651f1948b6da881c2419f75d7cf4b68afc8df485801ac4b19c7755233c6f0c),
  (false, 0xbe23251d063af957b0c233d8caaad3245a71d35cee8041a4da77eb003fc49840),
  (false, 0xd6773521eb6e218ad74d5d85cc0a9a6f3f123dbe6a34ec9433b8a7639848538d),
  (false, 0xc226bfbf1244da56d3dea59525961a1c5d7418bd2bf0657a343a360c1befd5f),
  (true, 0x59b6d8f0542cd3ac58c7c329621174b2eca04b71ae8c59dc295d2b962b5f9e7d),
  (false, 0xdf9b3838a957e0c756f0511e932cc745acbdd28dcf15d0976c74b8d038b03e11),
  (false, 0x23fd6604b1c52e89a5cf5a42a27a700e63c1c8a192f4e1946e843ab4e2cd0b50),
  (true, 0x2f314ddab8c8ea4af2ee2fc074969fedff108e6dd1fffdeadfb5e1c09f37b74c),
  (false, 0xd3c999ac09579c6befb44f3bd7d9ec6b6121ebeafd0d10d59ce3db65b5c70243),
  (true, 0x54af7e34b0a7455dc6c8758f530a4486046585ea6071aa018c0ff9eb018bc073),
  (false, 0x5a9f1ba5969ef050801ccb05b8cac7546bca3397533e42c3a50b5fb7d02df229),
  (true, 0x11fd3ab9ccffdee48e84914060e7694f19e0facba6e4be5b5ec32040bbc3b42c),
  (false, 0x4627852d728f801fbffb9062295608b74f4166dd95ed8793ff8aa2e712906f1),
  (true, 0xebd8f483739b6a88272097ba1b82731f62e5c5581ecffe3f6fee9081bad1c44a),
  (false, 0x85eee6a5b3de2ee9d430809d6902483035ab509b75161ab439bdcb1b181dff4),
  (true, 0xf7b928dbcb0493fd7a0085902d850ed979ac54d2b09b35e0f5222502d6b7616),
  (false, 0xedcad937955fb1432048ddf8ccd280dc7afd872455774736a42000c86b4a103f),
  (true, 0x2ae7a873e404b3a48eff79b84224336af9fbfe146b47981dcf5fa735ad528a1a),
  (false, 0xe04398830685690df5e208459a98defd8832b5196e2be0b8df82c16c77f7f5),
  (false, 0xfcd96ffebeb7a47ee4590684b7c9a2e0b8fa03beabd83654d7d76cdbbcd60335),
  (false, 0xa740a7573695f572d3c174ed4560cbd69eee3a8e77be3734bca252c05a6933a0),
  (false, 0x4c10a29d61779fcc20538fe766b7ba167322dbfe669dcbe6fed8df39242193b6),
  (true, 0x193a2a5d0e71936eee0cffac8554786401b16576e6a780ed17b8ab9206a13ebd),
  (false, 0x60c3c996a0a562357f8a2b1dfe6a1a98d55c412235f3d66ad32a6826b9e8d121),
  (true, 0xe56b3e3cccc828bc2fc2f6e91e83bd490f1900966d58587501b66bae6dd79fe1),
  (false, 0x9c82adc5593be14823416d07f9f833db891a9f58ca31315a0dca08778edd591c),
  (false, 0xff5fa2b8eaa15963bcf8f4d08ad28483801b21e4ab054838b84b2c1b7eec2911),
  (false, 0x32057cfec2c8b40d8810f0fd0f1bc108f4d4bf6fbc21b9a5e7e521a26d065898),
  (false, 0xab2d3277a3919fb090c5b011b0174c465bd9e87f95553f4ad7734df531758636),
  (true, 0xb3ccf90bbc83dfa0a6a51c683d8d9455ca0ef7a6b1e2e3215d7d4aa1d76acb8e),
  (false, 0xf9f1bfe8232e1a129def837ac45fd6dd4ff071eeb8c7052589e827c474ca4960),
  (true, 0xebd7de2c0d47220880332e2fdcec8d0c32ecd816a325e9656eca4dc8ba40d125),
  (false, 0x4439830783f364ff8326337036fd5b26868085c15009f456a82a1b0880ff7d67)]

/-- Slopes, `true` for the addition of the base point. -/
def slopes4 : List (Bool × Nat) := [
  (false, 0x2f41d190d91e77680712007969891e3ca1deeeaa9415496a1d4e302a4df1e551),
  (false, 0xe60a0cb18c966612d38cc039609f7ff3a2de07efeaf428b0a465c13b23621739),
  (true, 0xc75a30555e78aad072191476bba91d8369aa498d01b13b2b7b4707e205f20a94),
  (false, 0xda1583e3ad79ae5ecff6ebda1b774dc7dc00d278dd25680f869cc30585dcf0f),
  (false, 0xd3718f57d9db98eb139f5f4e3a41e28d035f899d9e91a8107efe15b79a27c629),
  (false, 0xcebb240edc61826baaa5297c41e7a8137af81c8113dc9c20ee1933583e3f7494),
  (true, 0x8b391b2d59c8e63ab3fa0a40b860337b5aaff347b3228e323104d498da3b6418),
  (false, 0x3d46e9ef5aed4aa9fea6810de4d5e822316732bcbdfbff222b7ea641d0f4c236),
  (false, 0x2d45701fda7e3d7f4ecb15fd4fefebe30788a1a6861a4f6ca1431cd8c329e135),
  (true, 0x6d1ab84b6bfc3dd20fe5eb07933ff7ac3f81ac780b4e9c3ec8f773b97dda779f),
  (false, 0xf5c92d577891d8d5e9308b7380703c776943d20df29457a43a089efed2324e08),
  (false, 0xe88b7de3f5fa482be7b122800f456e1688c08618ee100504d19da17644a084fc),
  (true, 0xfe3b635c4752201380648dd222ea1a37a8b56b31539ffdeffff0bab1e20a6457),
  (false, 0x13e1aace41718a701cfc777d12d8d44229a07d9deb4b28c637ee82e18b6b8866),
  (false, 0x56436ab347a1162845d4c6b9cbe939adea2c4f90c169d40a97e58c7fbaec7a9b),
  (true, 0x9b77ec69617f51069699bec6f62797e61fda164d9ad2f53842780fb17e45fa62),
  (false, 0x510d851c47baf8984835e68c845e2bb545d52977fc75a523d9580f6237793779),
  (false, 0xb9fded35e510eaf5658921bfe5042746076d1426453aa249dcb6bd3495e18ec8),
  (false, 0x755d14d98ff4cbf80f733a8570b5b20dd2d2e8c0fecc7ebe2d31bba5e4b33192),
  (false, 0x83362c631c75685e3615425a3bf2d24ad3517a0496f1d94b79cc3fdabf3fe22a)]

theorem pred_nsmul : (n - 1) • G = -G := by
  obtain ⟨hn, h⟩ := of_chain (K := n - 1) (X := gx) (Y := p - gy) (slopes0 ++ slopes1 ++ slopes2 ++ slopes3 ++ slopes4) (by decide +kernel)
  have hg : -G = Point.some _ _ _ := Point.neg_some g_on_curve
  have e : ((p - gy : Nat) : ZMod p) = curve.negY gx gy := by
    rw [cast_sub gy_lt, negY, short.a1, short.a3]; ring
  rw [h, hg]
  rw [Point.some.injEq]
  exact ⟨rfl, e⟩

theorem n_nsmul : n • G = 0 := by
  have h : n = (n - 1) + 1 := by decide +kernel
  rw [h, succ_nsmul, pred_nsmul, neg_add_cancel]

theorem G_ne : G ≠ 0 := Point.some_ne_zero g_on_curve

theorem n_prime : Nat.Prime n := Verif.Lemmas.EccPrime.prime_n

theorem order_G : addOrderOf G = n := by
  have : Fact (Nat.Prime n) := ⟨n_prime⟩
  exact addOrderOf_eq_prime n_nsmul G_ne

/-- A multiple of the base point is the point at infinity exactly if the factor is a multiple of `n`. -/
theorem nsmul_eq_zero (k : Nat) : k • G = 0 ↔ k % n = 0 := by
  rw [← addOrderOf_dvd_iff_nsmul_eq_zero, order_G, Nat.dvd_iff_mod_eq_zero]

theorem nsmul_mod (k : Nat) : (k % n) • G = k • G := by
  conv_rhs => rw [← Nat.mod_add_div k n, add_nsmul, mul_nsmul, n_nsmul, nsmul_zero, add_zero]

end Verif.Lemmas.EccOrder
