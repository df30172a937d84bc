import Verif.Lemmas.Synth
import Verif.Lemmas.Dnssec
import Verif.Props.Label
import Verif.Model.Cache
import Verif.Spec.Cache
/-
Keys of the cache, and its invariant.
-/
namespace Verif.Cache
open Verif.DnsName Verif.Label Verif.Resource Verif.Spec.DnsName Verif.Spec.Tld Verif.Spec.Label Verif.Spec.Req Verif.Spec.Cache Verif.Spec.Dnssec

/-! ### Synthesised labels -/

theorem isB32_value (c : UInt8) : IsB32 c ↔ Base32.value true Base32.tableHex c ≠ .ok (-1) := by
  unfold IsB32 IsDigit
  have : ∀ i : Fin 256, decide ((0x30 ≤ (UInt8.ofNat i.val).toNat ∧ (UInt8.ofNat i.val).toNat ≤ 0x39) ∨ (0x41 ≤ (UInt8.ofNat i.val).toNat ∧ (UInt8.ofNat i.val).toNat ≤ 0x56) ∨
      (0x61 ≤ (UInt8.ofNat i.val).toNat ∧ (UInt8.ofNat i.val).toNat ≤ 0x76)) = decide (Base32.value true Base32.tableHex (UInt8.ofNat i.val) ≠ .ok (-1)) := by decide +kernel
  have h := this ⟨c.toNat, c.toNat_lt⟩
  simp only [UInt8.ofNat_toNat] at h
  exact decide_eq_decide.1 h

theorem decLoop_iff (t : Bytes) : ∀ (mode left : Nat), (∃ d, Base32.decLoop true Base32.tableHex false mode left t = .ok d) ↔ ∀ c ∈ t, IsB32 c := by
  induction t with
  | nil => intro mode left; exact ⟨fun _ => by simp, fun _ => ⟨_, rfl⟩⟩
  | cons c t ih =>
    intro mode left
    rw [Base32.decLoop]
    rcases Base32.codecHex.chr c with h | ⟨i, h1, h2, _⟩
    · rw [h]
      simp only [Out.bind, if_true, Bool.false_and, Bool.false_eq_true, if_false]
      constructor
      · rintro ⟨_, h⟩; cases h
      · intro hc
        exact absurd h ((isB32_value c).1 (hc c List.mem_cons_self))
    · rw [h2]
      simp only [Out.bind]
      rw [if_neg (by omega)]
      have hc : IsB32 c := (isB32_value c).2 (by rw [h2]; intro e; have := Out.ok.inj e; omega)
      constructor
      · rintro ⟨d, hd⟩ x hx
        rcases List.mem_cons.1 hx with rfl | hx
        · exact hc
        · refine (ih (Base32.decStep mode left (Int.toNat (i : Int))).2.2 (Base32.decStep mode left (Int.toNat (i : Int))).2.1).1 ?_ x hx
          cases h3 : Base32.decLoop true Base32.tableHex false (Base32.decStep mode left (Int.toNat (i : Int))).2.2 (Base32.decStep mode left (Int.toNat (i : Int))).2.1 t with
          | ok d => exact ⟨d, rfl⟩
          | err e => rw [h3] at hd; cases hd
          | ub => rw [h3] at hd; cases hd
      · intro hx
        obtain ⟨d, hd⟩ := (ih (Base32.decStep mode left (Int.toNat (i : Int))).2.2 (Base32.decStep mode left (Int.toNat (i : Int))).2.1).2 fun x hm => hx x (List.mem_cons_of_mem _ hm)
        rw [hd]
        exact ⟨_, rfl⟩

theorem decode_iff (t : Bytes) : (∃ a, Base32.decode2 true Base32.tableHex t false = .ok a) ↔ ∀ c ∈ t, IsB32 c := by
  rw [← decLoop_iff t 0 0]
  unfold Base32.decode2
  constructor
  · rintro ⟨a, h⟩
    cases h1 : Base32.decLoop true Base32.tableHex false 0 0 t with
    | ok d => exact ⟨d, rfl⟩
    | err e => rw [h1] at h; cases h
    | ub => rw [h1] at h; cases h
  · rintro ⟨d, h⟩
    rw [h]
    simp [Out.bind]

theorem isPtr_text {l : Bytes} {ls : List Bytes} (hls : OkName (l :: ls)) (h2 : ∀ c, l ≠ [0x5f, c]) : ∃ b, isPtr (text (l :: ls)) = .ok b ∧ (b = true ↔ PtrLabel l) := by
  unfold isPtr pointerToIp
  rw [labelGet_first hls]
  simp only [Out.bind]
  by_cases hc : l.length < 2 ∨ l.length > 29 ∨ l.head? ≠ some 0x5f
  · rw [if_pos hc]
    refine ⟨false, rfl, ⟨(fun h => by cases h), ?_⟩⟩
    rintro ⟨t, rfl, h3, _⟩
    simp only [List.length_cons, List.head?_cons, ne_eq, not_true, or_false] at hc
    omega
  · rw [if_neg hc]
    simp only [not_or, Nat.not_lt, Decidable.not_not] at hc
    obtain ⟨t, rfl⟩ : ∃ t, l = 0x5f :: t := by
      cases l with
      | nil => cases hc.2.2
      | cons c t => exact ⟨t, by rw [Option.some.inj hc.2.2]⟩
    simp only [List.length_cons] at hc
    have ht : t.length ≠ 1 := by
      intro h1
      obtain ⟨c, rfl⟩ := List.length_eq_one_iff.1 h1
      exact h2 c rfl
    rw [List.drop_succ_cons, List.drop_zero]
    obtain ⟨n, hn⟩ := stores_ok t
    rw [hn]
    simp only [Bool.false_eq_true, false_and, if_false]
    cases hd : Base32.decode2 true Base32.tableHex t false with
    | ub =>
      exfalso
      unfold Base32.decode2 at hd
      cases hl : Base32.decLoop true Base32.tableHex false 0 0 t with
      | ub => exact absurd hl (Base32.decLoop_total Base32.codecHex _ _ _ _)
      | err e => rw [hl] at hd; cases hd
      | ok d => rw [hl] at hd; simp [Out.bind] at hd
    | err e =>
      refine ⟨false, rfl, ⟨(fun h => by cases h), ?_⟩⟩
      rintro ⟨t', h3, _, h4⟩
      cases h3
      obtain ⟨a, ha⟩ := (decode_iff _).2 h4
      rw [ha] at hd
      cases hd
    | ok a =>
      obtain ⟨_, _, _, _, _, _, hl⟩ := Props.Base32.C42_loose_hex_partial _ _ hd
      dsimp only
      rw [if_neg (by omega)]
      by_cases h4 : a.length = 4 ∨ a.length = 16
      · rw [if_pos h4]
        exact ⟨true, rfl, ⟨fun _ => ⟨t, rfl, by omega, (decode_iff t).1 ⟨a, hd⟩⟩, fun _ => rfl⟩⟩
      · rw [if_neg h4]
        refine ⟨false, rfl, ⟨(fun h => by cases h), ?_⟩⟩
        rintro ⟨t', h3, h5, _⟩
        cases h3
        omega

/-! ### Keys -/

theorem isRef_text {ls : List Bytes} (h : GoodQuery ls) (type : Nat) : ∃ b, isRef (text ls) type = .ok b ∧ (b = true ↔ ¬ Own ls type) := by
  obtain ⟨hok, h2⟩ := h
  unfold isRef
  rw [count_text hok]
  have neg : ∀ {b : Bool} {P : Prop}, (b = true ↔ P) → ((!b) = true ↔ ¬ P) := by
    intro b P hb
    rw [← hb]
    cases b <;> simp
  match ls, hok, h2 with
  | [], _, _ => exact ⟨false, rfl, by simp [Own]⟩
  | [a], _, _ => exact ⟨false, rfl, by simp [Own]⟩
  | [a, b], hok, h2 =>
    obtain ⟨p, h3, h4⟩ := isPtr_text hok (fun c hc => h2 c b (by rw [hc]))
    show ∃ b', (isPtr (text [a, b])).bind _ = _ ∧ _
    rw [h3]
    refine ⟨!p, rfl, neg (h4.trans ?_)⟩
    constructor
    · intro hp
      exact .inr (.inl ⟨a, b, rfl, hp⟩)
    · rintro (h | ⟨x, y, e, hp⟩ | ⟨h, _⟩)
      · simp at h
      · cases e; exact hp
      · simp at h
  | [a, b, c], hok, h2 =>
    have own : ∀ {P : Prop}, ((type = 33 ∧ Srv [a, b, c]) ∨ (type = 52 ∧ ∃ port, Tlsa [a, b, c] port) ∨ (type = 53 ∧ Dane "_smimecert".toUTF8.toList [a, b, c]) ∨
        (type = 61 ∧ Dane "_openpgpkey".toUTF8.toList [a, b, c]) ↔ P) → (Own [a, b, c] type ↔ P) := by
      intro P hP
      constructor
      · rintro (h | ⟨x, y, e, hp⟩ | ⟨_, h⟩)
        · simp at h
        · cases e
        · exact hP.1 h
      · intro h
        exact .inr (.inr ⟨rfl, hP.2 h⟩)
    show ∃ b', (if type = 33 then _ else _) = _ ∧ _
    split
    · rename_i ht
      obtain ⟨p, h3, h4⟩ := isSrv_text hok
      rw [h3]
      exact ⟨!p, rfl, neg (h4.trans (own (by simp [ht])).symm)⟩
    · split
      · rename_i ht
        obtain ⟨p, h3, h4⟩ := isTlsa_text hok
        rw [h3]
        exact ⟨!p, rfl, neg (h4.trans (own (by simp [ht])).symm)⟩
      · split
        · rename_i ht
          obtain ⟨p, h3, h4⟩ := Props.Label.C55_smimea _ hok
          rw [h3]
          exact ⟨!p, rfl, neg (h4.trans (own (by simp [ht])).symm)⟩
        · split
          · rename_i ht
            obtain ⟨p, h3, h4⟩ := Props.Label.C55_openpgpkey _ hok
            rw [h3]
            exact ⟨!p, rfl, neg (h4.trans (own (by simp [ht])).symm)⟩
          · refine ⟨true, rfl, ⟨fun _ ho => ?_, fun _ => rfl⟩⟩
            exact (own (P := False) (by constructor; rintro (⟨h, _⟩ | ⟨h, _⟩ | ⟨h, _⟩ | ⟨h, _⟩) <;> contradiction; exact False.elim)).1 ho
  | a :: b :: c :: d :: r, hok, h2 =>
    refine ⟨true, rfl, ⟨fun _ ho => ?_, fun _ => rfl⟩⟩
    rcases ho with h | ⟨x, y, e, hp⟩ | ⟨h, _⟩
    · simp at h
    · cases e
    · simp at h

open Classical in
/-- The key of a query. -/
noncomputable def keyOf (ls : List Bytes) (type : Nat) : Key :=
  if Own ls type then ⟨lowered (body ls), some type⟩ else ⟨lowered (body [ls.getLast?.getD []]), none⟩

theorem keySet_text {ls : List Bytes} (h : GoodQuery ls) (type : Nat) : keySet (text ls) type = .ok (if Clean (text ls) then some (keyOf ls type) else none) := by
  have hok := h.1
  have h0 : 0 ∉ text ls := by
    unfold text
    split
    · decide
    · intro hm
      unfold body at hm
      obtain ⟨l, hl, hx⟩ := List.mem_flatten.1 hm
      obtain ⟨l', hl', rfl⟩ := List.mem_map.1 hl
      rcases List.mem_append.1 hx with hx | hx
      · exact (hok.1 l' hl').2.2.1 hx
      · simp at hx
  have hlast : (text ls).getLast? = some 0x2e := by
    unfold text
    split
    · rfl
    · rename_i hn; exact getLast?_body hn
  obtain ⟨v, hv, hiff⟩ := Verif.Props.DnsName.C22_verify_partial (text ls) h0
  have hvt : v = true := hiff.2 (.inl ⟨ls, hok, by rw [if_pos hlast]⟩)
  subst hvt
  unfold keySet
  rw [hv]
  simp only [Out.bind, Bool.not_true, Bool.false_eq_true, if_false]
  have hlen := hok.2
  by_cases hc : Clean (text ls)
  · rw [if_neg (by rw [(Req.dirty_iff _).2 hc]; simp), if_pos hc]
    obtain ⟨b, hb, hbi⟩ := isRef_text h type
    rw [hb]
    dsimp only
    rw [count_text hok]
    have hbody : (body ls).length ≤ 255 := by
      unfold text at hlen
      split at hlen
      · rename_i e; rw [e]; decide
      · exact hlen
    cases b with
    | true =>
      have hno := hbi.1 rfl
      have hne : ls ≠ [] := by rintro rfl; exact hno (.inl (by simp))
      have hpos := List.length_pos_iff.2 hne
      have hi : index ls.length (-1) = ls.length - 1 := by unfold index; rw [if_pos (by decide)]; omega
      rw [if_pos rfl, if_pos rfl, labelFrom_text hok (by rw [hi]; omega), hi]
      dsimp only
      have hd : ls.drop ((ls.length : Int) - 1).toNat = [ls.getLast?.getD []] := by
        rw [show ((ls.length : Int) - 1).toNat = ls.length - 1 by omega, List.getLast?_eq_some_getLast hne]
        conv => lhs; rw [← List.dropLast_concat_getLast hne]
        rw [List.drop_left' (by simp)]
        rfl
      rw [hd]
      have hl1 : (body [ls.getLast?.getD []]).length ≤ 255 := by
        rw [← hd]
        have : (body (ls.drop ((ls.length : Int) - 1).toNat)).length ≤ (body ls).length := by
          conv => rhs; rw [← List.take_append_drop ((ls.length : Int) - 1).toNat ls]
          rw [body_append, List.length_append]
          omega
        omega
      rw [if_neg (by omega)]
      unfold keyOf
      rw [if_neg hno]
    | false =>
      have hown : Own ls type := Classical.byContradiction fun hn => by have := hbi.2 hn; cases this
      rw [if_neg (by simp), if_neg (by simp)]
      have hi : index ls.length (-(ls.length : Int)) = 0 := by unfold index; split <;> omega
      rw [labelFrom_text hok (by rw [hi]; omega), hi]
      dsimp only
      rw [show (0 : Int).toNat = 0 from rfl, List.drop_zero, if_neg (by omega)]
      unfold keyOf
      rw [if_pos hown]
  · rw [if_pos (by cases hd : dirty (text ls) with | true => rfl | false => exact absurd ((Req.dirty_iff _).1 hd) hc), if_neg hc]

theorem sameName_lower {a b : Bytes} : SameName a b ↔ lowered a = lowered b := by
  unfold SameName lowered
  constructor
  · intro h
    have : a.map (fun c => (Tld.lower c).toNat) = b.map fun c => (Tld.lower c).toNat := by simpa only [Tld.lower_toNat] using h
    rw [show (fun c => (Tld.lower c).toNat) = UInt8.toNat ∘ Tld.lower from rfl, ← List.map_map, ← List.map_map] at this
    exact (List.map_inj_right (fun _ _ => UInt8.toNat.inj)).1 this
  · intro h
    have := congrArg (List.map UInt8.toNat) h
    rw [List.map_map, List.map_map] at this
    have e : UInt8.toNat ∘ Tld.lower = fold := funext fun c => Tld.lower_toNat c
    rwa [e] at this

theorem lowered_body (ls : List Bytes) : lowered (body ls) = body (ls.map lowered) := by
  rw [Dnssec.lowered_low, Dnssec.body_low]
  congr 1

theorem okLabel_lowered {l : Bytes} (h : OkLabel l) : OkLabel (lowered l) := by
  have key : ∀ c : UInt8, (Tld.lower c = 0 → c = 0) ∧ (Tld.lower c = 0x2e → c = 0x2e) := by
    intro c
    have : ∀ i : Fin 256, (Tld.lower (UInt8.ofNat i.val) = 0 → UInt8.ofNat i.val = 0) ∧ (Tld.lower (UInt8.ofNat i.val) = 0x2e → UInt8.ofNat i.val = 0x2e) := by decide +kernel
    have h := this ⟨c.toNat, c.toNat_lt⟩
    simpa using h
  obtain ⟨h1, h2, h3, h4⟩ := h
  refine ⟨by unfold lowered; simpa using h1, by unfold lowered; simpa using h2, ?_, ?_⟩
  · intro hm
    obtain ⟨c, hc, e⟩ := List.mem_map.1 hm
    exact h3 ((key c).1 e ▸ hc)
  · intro hm
    obtain ⟨c, hc, e⟩ := List.mem_map.1 hm
    exact h4 ((key c).2 e ▸ hc)

theorem sameLabels_iff {a b : List Bytes} : SameLabels a b ↔ a.map lowered = b.map lowered := by
  unfold SameLabels
  constructor
  · rintro ⟨hl, h⟩
    apply List.ext_getElem (by simpa using hl)
    intro i h1 h2
    simp only [List.length_map] at h1 h2
    have := h i
    rw [List.getD_eq_getElem?_getD, List.getD_eq_getElem?_getD, List.getElem?_eq_getElem h1, List.getElem?_eq_getElem h2] at this
    simp only [List.getElem_map]
    exact sameName_lower.1 this
  · intro h
    have hl : a.length = b.length := by simpa using congrArg List.length h
    refine ⟨hl, fun i => ?_⟩
    rw [sameName_lower]
    by_cases hi : i < a.length
    · have h1 := congrArg (·[i]?) h
      simp only [List.getElem?_map] at h1
      rw [List.getElem?_eq_getElem hi, List.getElem?_eq_getElem (by omega)] at h1
      rw [List.getD_eq_getElem?_getD, List.getD_eq_getElem?_getD, List.getElem?_eq_getElem hi, List.getElem?_eq_getElem (by omega)]
      exact Option.some.inj h1
    · rw [List.getD_eq_getElem?_getD, List.getD_eq_getElem?_getD, List.getElem?_eq_none (by omega), List.getElem?_eq_none (by omega)]

theorem keyOf_eq {ls ls' : List Bytes} {type type' : Nat} (h : OkName ls) (h' : OkName ls') : keyOf ls type = keyOf ls' type' ↔ SameEntry ls type ls' type' := by
  have inj : ∀ {a b : List Bytes}, (∀ l ∈ a, OkLabel l) → (∀ l ∈ b, OkLabel l) → (lowered (body a) = lowered (body b) ↔ a.map lowered = b.map lowered) := by
    intro a b ha hb
    rw [lowered_body, lowered_body]
    constructor
    · intro e
      refine body_inj ?_ ?_ e
      · intro l hl
        obtain ⟨x, hx, rfl⟩ := List.mem_map.1 hl
        exact okLabel_lowered (ha x hx)
      · intro l hl
        obtain ⟨x, hx, rfl⟩ := List.mem_map.1 hl
        exact okLabel_lowered (hb x hx)
    · intro e; rw [e]
  unfold keyOf SameEntry
  by_cases o : Own ls type
  · by_cases o' : Own ls' type'
    · rw [if_pos o, if_pos o']
      simp only [Key.mk.injEq, Option.some.injEq]
      rw [inj h.1 h'.1, ← sameLabels_iff]
      constructor
      · rintro ⟨a, b⟩; exact .inl ⟨o, o', a, b⟩
      · rintro (⟨_, _, a, b⟩ | ⟨a, _⟩)
        · exact ⟨a, b⟩
        · exact absurd o a
    · rw [if_pos o, if_neg o']
      simp only [Key.mk.injEq, reduceCtorEq, and_false, false_iff]
      rintro (⟨_, a, _⟩ | ⟨a, _⟩)
      · exact o' a
      · exact a o
  · by_cases o' : Own ls' type'
    · rw [if_neg o, if_pos o']
      simp only [Key.mk.injEq, reduceCtorEq, and_false, false_iff]
      rintro (⟨a, _⟩ | ⟨_, a, _⟩)
      · exact o a
      · exact a o'
    · rw [if_neg o, if_neg o']
      simp only [Key.mk.injEq, and_true]
      rw [sameName_lower]
      have hb : ∀ x : Bytes, body [x] = x ++ [0x2e] := by intro x; simp [body]
      rw [hb, hb]
      have hl : ∀ x : Bytes, lowered (x ++ [0x2e]) = lowered x ++ [0x2e] := by intro x; unfold lowered; rw [List.map_append]; rfl
      rw [hl, hl]
      constructor
      · intro e; exact .inr ⟨o, o', List.append_cancel_right e⟩
      · rintro (⟨a, _⟩ | ⟨_, _, a⟩)
        · exact absurd a o
        · rw [a]

/-! ### Histories -/

/-- Where an entry comes from. -/
def Stored (ops : List Op) (k : Key) (item : Item) : Prop :=
  ∃ (before after : List Op) (now : Int) (ls : List Bytes) (type : Nat),
    ops = before ++ .insert now item.time (text ls) type item.msg :: after ∧ GoodQuery ls ∧ k = keyOf ls type

structure Inv (ops : List Op) (c : Cache) : Prop where
  size : AMap.size c ≤ 2000
  time : ∀ k item, AMap.get c k = some item → item.time < 2 ^ 62
  stored : ∀ k item, AMap.get c k = some item → Stored ops k item

theorem Stored.snoc {ops : List Op} {k : Key} {item : Item} (h : Stored ops k item) (o : Op) : Stored (ops ++ [o]) k item := by
  obtain ⟨b, a, now, ls, type, e, h1, h2⟩ := h
  exact ⟨b, a ++ [o], now, ls, type, by rw [e]; simp, h1, h2⟩

theorem expiry_ok {t : Int} (h : t < 2 ^ 62) : expiry t = .ok (t + 21600) := by
  unfold expiry
  rw [if_neg (by omega)]

theorem Inv.del {ops : List Op} {c : Cache} (h : Inv ops c) (k : Key) : Inv ops (AMap.del c k) := by
  refine ⟨Nat.le_trans (AMap.size_del_le c k) h.size, fun k' i hk => ?_, fun k' i hk => ?_⟩
  · rw [AMap.get_del] at hk; split at hk
    · cases hk
    · exact h.time _ _ hk
  · rw [AMap.get_del] at hk; split at hk
    · cases hk
    · exact h.stored _ _ hk

theorem Inv.snoc {ops : List Op} {c : Cache} (h : Inv ops c) (o : Op) : Inv (ops ++ [o]) c :=
  ⟨h.size, h.time, fun k i hk => (h.stored k i hk).snoc o⟩

theorem inv_store {ops : List Op} {c : Cache} (h : Inv ops c) {now now' : Int} {ls : List Bytes} (type : Nat) (wire : Bytes) (hq : GoodQuery ls) (ht : now' < 2 ^ 62) :
    Inv (ops ++ [.insert now now' (text ls) type wire]) (store now' c (keyOf ls type) wire) := by
  have hb : Inv ops (if AMap.size c ≥ 2000 then [] else c) := by
    split
    · exact ⟨by simp [AMap.size], fun _ _ hk => by simp at hk, fun _ _ hk => by simp at hk⟩
    · exact h
  have hs : AMap.size (if AMap.size c ≥ 2000 then [] else c) ≤ 1999 := by
    split
    · simp [AMap.size]
    · omega
  unfold store
  refine ⟨?_, fun k i hk => ?_, fun k i hk => ?_⟩
  · have := AMap.size_set_le (if AMap.size c ≥ 2000 then [] else c) (keyOf ls type) ⟨wire, now'⟩
    omega
  · rw [AMap.get_set] at hk
    split at hk
    · cases hk; exact ht
    · exact hb.time _ _ hk
  · rw [AMap.get_set] at hk
    split at hk
    · rename_i e
      cases hk
      exact ⟨ops, [], now, ls, type, rfl, hq, e.symm⟩
    · exact (hb.stored _ _ hk).snoc _

theorem inv_step {ops : List Op} {c : Cache} (h : Inv ops c) {o : Op} (ho : Good o) : ∃ c', step c o = .ok c' ∧ Inv (ops ++ [o]) c' := by
  cases o with
  | insert now now' name type wire =>
    obtain ⟨⟨ls, hq, rfl⟩, ht⟩ := ho
    unfold step insertData
    dsimp only
    rw [keySet_text hq]
    simp only [Out.bind]
    by_cases hc : Clean (text ls)
    · rw [if_pos hc]
      dsimp only
      cases hg : AMap.get c (keyOf ls type) with
      | none => exact ⟨_, rfl, inv_store h _ _ hq ht⟩
      | some item =>
        dsimp only
        rw [expiry_ok (h.time _ _ hg)]
        dsimp only
        by_cases hn : now < item.time + 21600
        · rw [if_pos hn]; exact ⟨_, rfl, h.snoc _⟩
        · rw [if_neg hn]; exact ⟨_, rfl, inv_store (h.del _) _ _ hq ht⟩
    · rw [if_neg hc]
      exact ⟨_, rfl, h.snoc _⟩
  | get now name type =>
    obtain ⟨ls, hq, rfl⟩ := ho
    unfold step getData
    dsimp only
    rw [keySet_text hq]
    simp only [Out.bind]
    by_cases hc : Clean (text ls)
    · rw [if_pos hc]
      dsimp only
      cases hg : AMap.get c (keyOf ls type) with
      | none => exact ⟨_, rfl, h.snoc _⟩
      | some item =>
        dsimp only
        rw [expiry_ok (h.time _ _ hg)]
        dsimp only
        by_cases hn : now ≥ item.time + 21600
        · rw [if_pos hn]; exact ⟨_, rfl, (h.del _).snoc _⟩
        · rw [if_neg hn]; exact ⟨_, rfl, h.snoc _⟩
    · rw [if_neg hc]
      exact ⟨_, rfl, h.snoc _⟩

theorem inv_run (rest : List Op) : ∀ (ops : List Op) (c : Cache), Inv ops c → (∀ o ∈ rest, Good o) → ∃ c', run c rest = .ok c' ∧ Inv (ops ++ rest) c' := by
  induction rest with
  | nil => intro ops c h _; exact ⟨c, rfl, by simpa using h⟩
  | cons o r ih =>
    intro ops c h hr
    obtain ⟨c1, h1, h2⟩ := inv_step h (hr o List.mem_cons_self)
    obtain ⟨c2, h3, h4⟩ := ih (ops ++ [o]) c1 h2 fun x hx => hr x (List.mem_cons_of_mem _ hx)
    refine ⟨c2, ?_, by simpa using h4⟩
    show (step c o).bind _ = _
    rw [h1]
    exact h3

theorem inv_empty : Inv [] [] := ⟨by simp [AMap.size], fun _ _ h => by simp at h, fun _ _ h => by simp at h⟩

end Verif.Cache
