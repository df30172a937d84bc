import Verif.Lemmas.StoreSave
/-
A concrete saving node for the examples of Props/Store.
-/
namespace Verif.Props.Store
open Verif Verif.Chain Verif.Header Verif.Bio Verif.Store Verif.Spec Verif.Spec.Chain Verif.Props.Chain

/-! A network for the examples: difficulty adjustment with minimum difficulty after
a 20 minute gap; blocks come every 21 minutes. -/
def exP : Params := { toyP with noRetarget := false, targetReset := true }
def exH (h : Hdr) : Bytes := beBytes 2 h.nonce ++ List.replicate 30 0
def exNet : Net := { magic := 0xae3895cf, name := "regtest".toList, window := 150 }
/-- Headers with nonces from `n` on, on top of `prev`. -/
def exHeaders : Nat → Nat → Bytes → Nat → List (Int × Hdr)
  | 0, _, _, _ => []
  | k + 1, n, prev, time => (1000000, mk n prev time) :: exHeaders k (n + 1) (exH (mk n prev time)) (time + 1260)
def exG : Hdr := mk 1 (List.replicate 32 0) 1000
def exOps : List (Int × Hdr) := exHeaders 300 2 (exH exG) 2260
def exS0 : State := match initGenesis exP exH 2000 exG with
  | .ok s => s
  | _ => ⟨[], [], [], [], 0, 0, ⟨exG, [], 0, []⟩, false⟩
theorem exBooted : Booted exP exH exG exS0 where
  params := ⟨by decide +kernel, by decide +kernel⟩
  hash := fun h => by simp [exH]
  time := by decide +kernel
  noLoop := by decide +kernel
  start := ⟨2000, by
    have h : (initGenesis exP exH 2000 exG) ≠ .ub ∧ (initGenesis exP exH 2000 exG) ≠ .err () := by
      decide +kernel
    unfold exS0
    cases hc : initGenesis exP exH 2000 exG with
    | ok s => rfl
    | err e => exact absurd hc h.2
    | ub => exact absurd hc h.1⟩

instance (h : Hdr) : Decidable (WF h) :=
  decidable_of_iff (h.nonce < 2 ^ 32 ∧ h.time < 2 ^ 64 ∧ h.prevBlock.length = 32 ∧ h.nameRoot.length = 32 ∧
    h.extraNonce.length = 24 ∧ h.reservedRoot.length = 32 ∧ h.witnessRoot.length = 32 ∧ h.merkleRoot.length = 32 ∧
    h.version < 2 ^ 32 ∧ h.bits < 2 ^ 32 ∧ h.mask.length = 32)
    ⟨fun ⟨a, b, c, d, e, f, g, h, i, j, k⟩ => ⟨a, b, c, d, e, f, g, h, i, j, k⟩,
     fun ⟨a, b, c, d, e, f, g, h, i, j, k⟩ => ⟨a, b, c, d, e, f, g, h, i, j, k⟩⟩

/-- A child of the header at height 150, ten minutes later. -/
def exEvil : Hdr := mk 1000 (exH (mk 151 [] 0)) 190600

/-- The header at height `k`. -/
def exHd : Nat → Hdr
  | 0 => exG
  | k + 1 => mk (k + 2) (exH (exHd k)) (2260 + 1260 * k)
/-- The chain entry at height `k`. -/
def exEn (k : Nat) : Entry := ⟨exHd k, exH (exHd k), k, beBytes 32 (2 * (k + 1))⟩
def exHashes : Nat → HashMap
  | 0 => [(exH (exHd 0), exEn 0)]
  | k + 1 => (exH (exHd (k + 1)), exEn (k + 1)) :: exHashes k
def exIndex : Nat → AMap Nat Entry
  | 0 => [(0, exEn 0)]
  | k + 1 => (k + 1, exEn (k + 1)) :: exIndex k
/-- The state after `k` headers. -/
def exAt (k : Nat) : State := ⟨exHashes k, exIndex k, [], [], k, 0, exEn k, true⟩
def exS : State := exAt 300

theorem exAt_zero : exS0 = exAt 0 := by decide +kernel

theorem exNonce (k : Nat) : (exHd k).nonce = k + 1 := by cases k <;> rfl

theorem exHash_eq {a b : Hdr} (ha : a.nonce < 65536) (hb : b.nonce < 65536) (h : exH a = exH b) : a.nonce = b.nonce := by
  unfold exH at h
  have h1 := congrArg (fun l => beNat (l.take 2)) h
  simp only [List.take_left' (show (beBytes 2 a.nonce).length = 2 by simp), List.take_left' (show (beBytes 2 b.nonce).length = 2 by simp),
    beNat_beBytes] at h1
  omega

theorem exHashes_none {h : Hdr} {k : Nat} (hh : h.nonce < 65536) (hk : k < 1000) (h1 : k + 1 < h.nonce) :
    AMap.get (exHashes k) (exH h) = none := by
  induction k with
  | zero =>
    have : ¬ exH (exHd 0) = exH h := fun e => by
      have := exHash_eq (by rw [exNonce]; omega) hh e
      rw [exNonce] at this; omega
    simp [exHashes, AMap.get, this]
  | succ k ih =>
    have : ¬ exH (exHd (k + 1)) = exH h := fun e => by
      have := exHash_eq (by rw [exNonce]; omega) hh e
      rw [exNonce] at this; omega
    simp only [exHashes, AMap.get, this, if_false]
    exact ih (by omega) (by omega)

theorem exIndex_get {k n : Nat} (h : n ≤ k) : AMap.get (exIndex k) n = some (exEn n) := by
  induction k with
  | zero => obtain rfl : n = 0 := by omega
            rfl
  | succ k ih =>
    by_cases e : n = k + 1
    · subst e; simp [exIndex, AMap.get]
    · have e' : ¬ k + 1 = n := fun x => e x.symm
      simp only [exIndex, AMap.get, e', if_false]
      exact ih (by omega)

theorem exIndex_none {k n : Nat} (h : k < n) : AMap.get (exIndex k) n = none := by
  induction k with
  | zero => have e' : ¬ 0 = n := by omega
            simp [exIndex, AMap.get, e']
  | succ k ih =>
    have e' : ¬ k + 1 = n := by omega
    simp only [exIndex, AMap.get, e', if_false]
    exact ih (by omega)

theorem del_fresh {κ ν : Type} [DecidableEq κ] {m : AMap κ ν} {k : κ} (h : AMap.get m k = none) : AMap.del m k = m := by
  induction m with
  | nil => rfl
  | cons x r ih =>
    obtain ⟨a, b⟩ := x
    unfold AMap.get at h
    by_cases e : a = k
    · rw [if_pos e] at h; cases h
    · rw [if_neg e] at h
      have := ih h
      unfold AMap.del at this ⊢
      rw [List.filter_cons_of_pos (by simpa using e), this]

theorem exPow : ∀ k < 300, verifyPowHash 0x207fffff (exH (exHd (k + 1))) = .ok () := by decide +kernel
theorem exMtp : ∀ k < 300, ¬ toI64 (2260 + 1260 * k) ≤ mtp (exHashes k) (exEn k) := by decide +kernel
theorem exTarget : ∀ k < 300, getTarget exP (exHashes k) (toI64 (2260 + 1260 * k)) (exEn k) = .ok 0x207fffff := by
  decide +kernel
theorem exWork : ∀ k < 300, calcWork 0x207fffff (some (beBytes 32 (2 * (k + 1)))) = .ok (beBytes 32 (2 * (k + 1 + 1))) := by
  decide +kernel
theorem exMore : ∀ k < 300, ¬ memcmp (exEn (k + 1)).work (exEn k).work ≤ 0 := by decide +kernel

theorem exHashes_tip (k : Nat) : AMap.get (exHashes k) (exH (exHd k)) = some (exEn k) := by
  cases k <;> simp [exHashes, AMap.get]

theorem exFresh {k : Nat} (hk : k < 300) : AMap.get (exHashes k) (exH (exHd (k + 1))) = none :=
  exHashes_none (by rw [exNonce]; omega) (by omega) (by rw [exNonce]; omega)

theorem exPlace {k : Nat} (hk : k < 300) : place exP 1000000 (exAt k) (exEn (k + 1)) = .ok (exAt (k + 1)) := by
  unfold place
  rw [if_neg (show ¬ memcmp (exEn (k + 1)).work (exAt k).tip.work ≤ 0 from exMore k hk),
    if_neg (show ¬ (exEn (k + 1)).hdr.prevBlock ≠ (exAt k).tip.hash from fun h => h rfl)]
  unfold save maybeSync AMap.set
  dsimp only [exAt]
  simp only [↓reduceIte]
  rw [show (exEn (k + 1)).hash = exH (exHd (k + 1)) from rfl, show (exEn (k + 1)).height = k + 1 from rfl,
    del_fresh (exFresh hk), del_fresh (exIndex_none (by omega))]
  rfl

theorem exBits (k : Nat) : (exHd (k + 1)).bits = 0x207fffff := rfl
theorem exTime (k : Nat) : (exHd (k + 1)).time = 2260 + 1260 * k := rfl

theorem exInsert {k : Nat} (hk : k < 300) : Chain.insert exP 1000000 (exAt k) ⟨exHd (k + 1), exH (exHd (k + 1))⟩ (exEn k) =
    .ok (.ok (exAt (k + 1), exEn (k + 1))) := by
  unfold Chain.insert
  dsimp only
  have e1 : (exAt k).hashes = exHashes k := rfl
  have e2 : (exEn k).work = beBytes 32 (2 * (k + 1)) := rfl
  have e3 : (exEn k).height = k := rfl
  have e4 : (⟨exHd (k + 1), exH (exHd (k + 1)), k + 1, beBytes 32 (2 * (k + 1 + 1))⟩ : Entry) = exEn (k + 1) := rfl
  rw [exBits, exTime, e1, e2, e3, if_neg (exMtp k hk), exTarget k hk, exWork k hk]
  dsimp only [Out.bind]
  rw [if_neg (fun h => h rfl), e4, exPlace hk]

theorem exAdd {k : Nat} (hk : k < 300) : add exP exH (exAt k) 1000000 (exHd (k + 1)) = .ok (.success, exAt (k + 1)) := by
  unfold add
  dsimp only
  rw [if_neg (show ¬ (exHd (k + 1)).time > toU64 (1000000 + 7200) by
      show ¬ (2260 + 1260 * k > _)
      rw [show toU64 (1000000 + 7200) = 1007200 from by decide]; omega),
  if_neg (show ¬ AMap.has (exAt k).hashes (exH (exHd (k + 1))) = true by
    unfold AMap.has; rw [show AMap.get (exAt k).hashes _ = _ from exFresh hk]; simp),
  if_neg (show ¬ AMap.has (exAt k).orphans (exH (exHd (k + 1))) = true from Bool.false_ne_true),
  show verifyPowHash (exHd (k + 1)).bits _ = _ from exPow k hk]
  dsimp only
  rw [show AMap.get (exAt k).hashes (exHd (k + 1)).prevBlock = some (exEn k) from exHashes_tip k]
  dsimp only
  rw [exInsert hk]
  rfl

theorem exRunFrom (n k : Nat) (h : k + n ≤ 300) :
    run exP exH (exAt k) (exHeaders n (k + 2) (exH (exHd k)) (2260 + 1260 * k)) = .ok (exAt (k + n)) := by
  induction n generalizing k with
  | zero => rfl
  | succ n ih =>
    unfold exHeaders run
    rw [show mk (k + 2) (exH (exHd k)) (2260 + 1260 * k) = exHd (k + 1) from rfl, exAdd (by omega)]
    show run exP exH (exAt (k + 1)) _ = _
    have := ih (k + 1) (by omega)
    rw [show 2260 + 1260 * (k + 1) = 2260 + 1260 * k + 1260 by omega] at this
    rw [show k + (n + 1) = k + 1 + n by omega]
    exact this

theorem exRun : run exP exH exS0 exOps = .ok exS := by
  rw [exAt_zero]; exact exRunFrom 300 0 (by omega)

theorem exHeight : exS.height = 300 ∧ exS.initHeight = 0 ∧
    (∃ e, getByHeight exS 150 = some e ∧ e.hash = exH (mk 151 [] 0) ∧ e.hdr.time = 190000) ∧
    AMap.get exS.hashes (exH exEvil) = none :=
  ⟨rfl, rfl, ⟨exEn 150, exIndex_get (by omega), rfl, rfl⟩,
   exHashes_none (show (1000 : Nat) < 65536 by omega) (by omega) (show 301 < 1000 by omega)⟩

theorem exSaving : Saving exP exH exG exS0 exOps exNet exS where
  booted := exBooted
  plausible := by unfold Plausible; decide +kernel
  history := exRun
  sized := by decide +kernel
  window := by decide
  magic := by decide
  small := by rw [exHeight.1]; decide
  flush := by unfold flushes; rw [exHeight.1, exHeight.2.1]; decide

theorem exRising : Rising exS := by
  intro n p e hp he
  have hn : n + 1 ≤ exS.height := by
    have := (C07_index_linked exBooted exSaving.plausible exRun (n + 1)).1
    rw [he] at this; simpa using this
  rw [exHeight.1] at hn
  rw [show getByHeight exS n = _ from exIndex_get (by omega)] at hp
  rw [show getByHeight exS (n + 1) = _ from exIndex_get (by omega)] at he
  obtain rfl := Option.some.inj hp
  obtain rfl := Option.some.inj he
  show beNat (beBytes 32 (2 * (n + 1))) ≤ beNat (beBytes 32 (2 * (n + 1 + 1)))
  rw [beNat_beBytes, beNat_beBytes]
  omega

/-- The node after 300 headers, about to save. -/
structure Ex (s : State) : Prop where
  saving : Saving exP exH exG exS0 exOps exNet s
  rising : Rising s
  height : s.height = 300
  first : ∃ e, getByHeight s 150 = some e ∧ e.hash = exH (mk 151 [] 0) ∧ e.hdr.time = 190000
  fresh : AMap.get s.hashes (exH exEvil) = none

theorem ex : ∃ s, Ex s := ⟨exS, exSaving, exRising, exHeight.1, exHeight.2.2.1, exHeight.2.2.2⟩

end Verif.Props.Store
