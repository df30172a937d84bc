import Verif.Lemmas.DnsPlain
import Verif.Lemmas.Label
import Verif.Lemmas.Tld
/-
Canonical records and their order.
-/
namespace Verif.Dnssec
open Verif.Bio Verif.DnsName Verif.Dns Verif.Label Verif.Spec.DnsName Verif.Spec.Dns Verif.Spec.Dnssec

/-! ### Lower case -/

theorem lower_low (c : UInt8) : Verif.Tld.lower c = low c := by
  have : ∀ i : Fin 256, Verif.Tld.lower (UInt8.ofNat i.val) = low (UInt8.ofNat i.val) := by decide +kernel
  have h := this ⟨c.toNat, c.toNat_lt⟩
  simpa using h

theorem lowered_low (s : Bytes) : lowered s = s.map low := by
  unfold lowered
  exact List.map_congr_left fun c _ => lower_low c

theorem low_facts (c : UInt8) : (low c = 0 ↔ c = 0) ∧ (low c = 0x2e ↔ c = 0x2e) ∧ low (low c) = low c := by
  have : ∀ i : Fin 256, (low (UInt8.ofNat i.val) = 0 ↔ UInt8.ofNat i.val = 0) ∧ (low (UInt8.ofNat i.val) = 0x2e ↔ UInt8.ofNat i.val = 0x2e) ∧
    low (low (UInt8.ofNat i.val)) = low (UInt8.ofNat i.val) := by decide +kernel
  have h := this ⟨c.toNat, c.toNat_lt⟩
  simpa using h

theorem low_twice (s : Bytes) : (s.map low).map low = s.map low := by
  rw [List.map_map]
  exact List.map_congr_left fun c _ => (low_facts c).2.2

theorem body_low (ls : List Bytes) : (body ls).map low = body (ls.map fun l => l.map low) := by
  induction ls with
  | nil => rfl
  | cons l ls ih =>
    rw [List.map_cons, body_cons, body_cons, ← ih, List.map_append, List.map_cons]
    rfl

theorem text_low (ls : List Bytes) : (text ls).map low = text (ls.map fun l => l.map low) := by
  cases ls with
  | nil => rfl
  | cons l ls => simp only [text, List.map_cons, reduceCtorEq, if_false]; exact body_low (l :: ls)

theorem okName_low {ls : List Bytes} (h : OkName ls) : OkName (ls.map fun l => l.map low) := by
  constructor
  · intro l hl
    obtain ⟨m, hm, rfl⟩ := List.mem_map.1 hl
    obtain ⟨h1, h2, h3, h4⟩ := h.1 m hm
    refine ⟨by simpa using h1, by simpa using h2, ?_, ?_⟩
    · intro hc
      obtain ⟨c, hc, e⟩ := List.mem_map.1 hc
      rw [(low_facts c).1] at e
      exact h3 (e ▸ hc)
    · intro hc
      obtain ⟨c, hc, e⟩ := List.mem_map.1 hc
      rw [(low_facts c).2.1] at e
      exact h4 (e ▸ hc)
  · rw [← text_low, List.length_map]
    exact h.2

theorem lowerVal_low (v : Val) : lowerVal v = lowVal v := by
  cases v <;> simp only [lowerVal, lowVal]
  rw [lowered_low]

theorem readVal_low {f : Field} {v : Val} (h : ReadVal f v) : ReadVal f (lowVal v) ∧ valSize f (lowVal v) = valSize f v := by
  cases f <;> cases v <;> simp only [ReadVal] at h <;> simp only [lowVal]
  case name.name s =>
    obtain ⟨ls, hok, rfl⟩ := h
    refine ⟨⟨_, okName_low hok, text_low ls⟩, ?_⟩
    simp only [valSize, List.length_map]
    by_cases e : text ls = [0x2e]
    · rw [if_pos e, if_pos (by rw [e]; rfl)]
    · rw [if_neg e, if_neg]
      intro e2
      apply e
      generalize text ls = s at e2
      cases s with
      | nil => simp at e2
      | cons c s =>
        cases s with
        | cons d s => simp at e2
        | nil =>
          simp only [List.map_cons, List.map_nil, List.cons.injEq, and_true] at e2
          rw [(low_facts c).2.1] at e2
          rw [e2]
  all_goals first | exact ⟨h, rfl⟩ | exact ⟨h, trivial⟩

theorem readVals_low {fs : List Field} {vs : List Val} (h : ReadVals fs vs) : ReadVals fs (vs.map lowVal) ∧ valsSize fs (vs.map lowVal) = valsSize fs vs := by
  induction fs generalizing vs with
  | nil =>
    cases vs with
    | nil => exact ⟨trivial, rfl⟩
    | cons v vs => cases h
  | cons f fs ih =>
    cases vs with
    | nil => cases h
    | cons v vs =>
      obtain ⟨h1, h2⟩ := readVal_low h.1
      obtain ⟨h3, h4⟩ := ih h.2
      refine ⟨⟨h1, h3⟩, ?_⟩
      simp only [List.map_cons, valsSize]
      rw [h2, h4]

theorem whole_canon {r : Rr} (h : WholeRr r) {ttl : Nat} (ht : ttl < 4294967296) : WholeRr (canonAt ttl r) := by
  obtain ⟨ls, hok, hn⟩ := h.read.name
  obtain ⟨vs, hv, hr⟩ := h.read.rd
  have hs := h.size vs hv
  refine ⟨⟨⟨_, okName_low hok, ?_⟩, h.read.type, h.read.cls, ht, ?_⟩, ?_⟩
  · show r.name.map low = _
    rw [hn, text_low]
  · show ∃ vs, (if r.type ∈ caselessTypes then r.rd.map (fun vs => vs.map lowVal) else r.rd) = some vs ∧ ReadVals (readLayout r.type) vs
    split
    · exact ⟨vs.map lowVal, by rw [hv]; rfl, (readVals_low hr).1⟩
    · exact ⟨vs, hv, hr⟩
  · intro ws hw
    have hw : (if r.type ∈ caselessTypes then r.rd.map (fun vs => vs.map lowVal) else r.rd) = some ws := hw
    show valsSize (readLayout r.type) ws < 65536
    split at hw
    · rw [hv] at hw
      cases Option.some.inj hw
      rw [(readVals_low hr).2]
      exact hs
    · rw [hv] at hw
      cases Option.some.inj hw
      exact hs

theorem lowerRd_eq {type : Nat} (ht : type ≠ 24) (rd : List Val) : lowerRd type rd = .ok (if type ∈ caselessTypes then rd.map lowVal else rd) := by
  unfold lowerRd caselessTypes
  rw [if_neg ht]
  have e : rd.map lowerVal = rd.map lowVal := List.map_congr_left fun v _ => lowerVal_low v
  rw [e]
  by_cases h : type = 2 ∨ type = 5 ∨ type = 6 ∨ type = 12 ∨ type = 15 ∨ type = 46 ∨ type = 33 ∨ type = 39
  · rw [if_pos h, if_pos (by simpa using h)]
  · rw [if_neg h, if_neg (by simpa using h)]

theorem rawRr_eq {r : Rr} (h : WholeRr r) (ht : r.type ≠ 24) {ttl : Nat} (hl : ttl < 4294967296) {rd b : Bytes} (hb : IsRow ⟨canonAt ttl r, rd, b⟩) :
    rawRr ttl r = .ok b := by
  obtain ⟨vs, hv, hr⟩ := h.read.rd
  unfold rawRr cloneRr
  rw [cloneRr_eq h]
  simp only [Out.bind, hv]
  rw [lowerRd_eq ht]
  simp only [lowered_low]
  rw [← encodeRr_row (whole_canon h hl) hb]
  congr 1
  simp only [canonAt, canon, hv]
  split <;> rfl

theorem rawKey_row {r : Rr} {rd b : Bytes} (hb : IsRow ⟨r, rd, b⟩) : rawKey b = .ok rd := by
  obtain ⟨_, ⟨ls, h3, h4, h5⟩⟩ := hb
  dsimp only at *
  have e : b = wire ls ++ (beBytes 2 r.type ++ beBytes 2 r.cls ++ beBytes 4 r.ttl ++ beBytes 2 rd.length ++ rd) := by rw [h5]; simp
  unfold rawKey
  rw [e, parse_wire none h3]
  simp only
  rw [if_neg (by simp; omega), List.drop_left' (by simp)]

/-! ### The order -/

theorem cmp_self (a : Bytes) : cmpBytes a a = 0 := by
  induction a with
  | nil => rfl
  | cons x xs ih => rw [cmpBytes, if_neg (UInt8.lt_irrefl x), if_neg (UInt8.lt_irrefl x), ih]

theorem cmp_zero {a b : Bytes} (h : cmpBytes a b = 0) : a = b := by
  induction a generalizing b with
  | nil => cases b with
    | nil => rfl
    | cons y ys => simp [cmpBytes] at h
  | cons x xs ih => cases b with
    | nil => simp [cmpBytes] at h
    | cons y ys =>
      rw [cmpBytes] at h
      split at h
      · simp at h
      · split at h
        · simp at h
        · rename_i h1 h2
          rw [ih h, UInt8.le_antisymm (UInt8.not_lt.1 h2) (UInt8.not_lt.1 h1)]

theorem cmp_lt {a b : Bytes} : cmpBytes a b < 0 ↔ a < b := by
  induction a generalizing b with
  | nil => cases b with
    | nil => simp [cmpBytes]
    | cons y ys => simp [cmpBytes]
  | cons x xs ih => cases b with
    | nil => simp [cmpBytes]
    | cons y ys =>
      rw [cmpBytes, List.cons_lt_cons_iff]
      by_cases h1 : x < y
      · simp [h1]
      · rw [if_neg h1]
        by_cases h2 : y < x
        · rw [if_pos h2]
          constructor
          · intro h; simp at h
          · rintro (h | ⟨h, _⟩)
            · exact absurd h h1
            · subst h; exact absurd h2 h1
        · rw [if_neg h2, ih]
          have : x = y := UInt8.le_antisymm (UInt8.not_lt.1 h2) (UInt8.not_lt.1 h1)
          simp [this]

/-- What is left of sorted records. -/
theorem unique_spec (key : Bytes → Bytes) : ∀ (l : List Bytes) (last : Option Bytes), l.Pairwise (fun a b => cmpBytes (key a) (key b) ≤ 0) →
    (∀ x, last = some x → ∀ b ∈ l, cmpBytes (key x) (key b) ≤ 0 ∧ (key x = key b → x = b)) → (∀ a ∈ l, ∀ b ∈ l, key a = key b → a = b) →
    ∃ m : List Bytes, unique last l = m.flatten ∧ m.Pairwise (fun a b => key a < key b) ∧ (∀ b, b ∈ m ↔ b ∈ l ∧ last ≠ some b) ∧
      ∀ x, last = some x → ∀ b ∈ m, key x < key b := by
  intro l
  induction l with
  | nil => intro last _ _ _; exact ⟨[], rfl, List.Pairwise.nil, by simp, by simp⟩
  | cons y l ih =>
    intro last hp hlast hinj
    rw [List.pairwise_cons] at hp
    by_cases e : last = some y
    · obtain ⟨m, h1, h2, h3, h4⟩ := ih last hp.2 (fun x hx b hb => hlast x hx b (List.mem_cons_of_mem _ hb))
        (fun a ha b hb => hinj a (List.mem_cons_of_mem _ ha) b (List.mem_cons_of_mem _ hb))
      refine ⟨m, by rw [unique, if_pos e, h1], h2, ?_, h4⟩
      intro b
      rw [h3 b, List.mem_cons]
      constructor
      · rintro ⟨hb, hn⟩; exact ⟨.inr hb, hn⟩
      · rintro ⟨rfl | hb, hn⟩
        · exact absurd e hn
        · exact ⟨hb, hn⟩
    · obtain ⟨m, h1, h2, h3, h4⟩ := ih (some y) hp.2 (fun x hx b hb => by
          cases Option.some.inj hx
          exact ⟨hp.1 b hb, hinj _ List.mem_cons_self b (List.mem_cons_of_mem _ hb)⟩)
        (fun a ha b hb => hinj a (List.mem_cons_of_mem _ ha) b (List.mem_cons_of_mem _ hb))
      refine ⟨y :: m, by rw [unique, if_neg e, h1]; rfl, ?_, ?_, ?_⟩
      · rw [List.pairwise_cons]
        exact ⟨fun b hb => h4 y rfl b hb, h2⟩
      · intro b
        rw [List.mem_cons, h3 b, List.mem_cons]
        constructor
        · rintro (rfl | ⟨hb, hn⟩)
          · exact ⟨.inl rfl, e⟩
          · refine ⟨.inr hb, ?_⟩
            intro hl
            obtain ⟨k1, k2⟩ := hlast b hl y List.mem_cons_self
            have k3 := hp.1 b hb
            have k4 := hlast b hl b (List.mem_cons_of_mem _ hb)
            -- `b` is the last one and not before `y`
            have hby : cmpBytes (key b) (key y) = 0 := by
              rcases Int.lt_or_eq_of_le k1 with h | h
              · rcases Int.lt_or_eq_of_le k3 with h' | h'
                · have t := List.lt_trans (cmp_lt.1 h) (cmp_lt.1 h')
                  exact absurd t (List.lt_irrefl _)
                · rw [cmp_zero h', cmp_self]
              · exact h
            exact hn (by rw [k2 (cmp_zero hby)])
        · rintro ⟨rfl | hb, hn⟩
          · exact .inl rfl
          · by_cases hyb : y = b
            · exact .inl hyb.symm
            · exact .inr ⟨hb, fun h => hyb (Option.some.inj h)⟩
      · intro x hx b hb
        have hxy : cmpBytes (key x) (key y) < 0 := by
          obtain ⟨k1, k2⟩ := hlast x hx y List.mem_cons_self
          rcases Int.lt_or_eq_of_le k1 with h | h
          · exact h
          · exact absurd (by rw [hx, k2 (cmp_zero h)]) e
        rcases List.mem_cons.1 hb with rfl | hb
        · exact cmp_lt.1 hxy
        · exact List.lt_trans (cmp_lt.1 hxy) (h4 y rfl b hb)

/-- A sorted list is determined by its elements. -/
theorem sorted_unique (key : Bytes → Bytes) : ∀ {a b : List Bytes}, a.Pairwise (fun x y => key x < key y) → b.Pairwise (fun x y => key x < key y) →
    (∀ x, x ∈ a ↔ x ∈ b) → a = b := by
  intro a
  induction a with
  | nil =>
    intro b _ _ h
    cases b with
    | nil => rfl
    | cons y ys => exact absurd ((h y).2 List.mem_cons_self) (by simp)
  | cons x xs ih =>
    intro b ha hb h
    cases b with
    | nil => exact absurd ((h x).1 List.mem_cons_self) (by simp)
    | cons y ys =>
      rw [List.pairwise_cons] at ha hb
      have hxy : x = y := by
        rcases List.mem_cons.1 ((h x).1 List.mem_cons_self) with e | hx
        · exact e
        · rcases List.mem_cons.1 ((h y).2 List.mem_cons_self) with e | hy
          · exact e.symm
          · exact absurd (List.lt_trans (ha.1 y hy) (hb.1 x hx)) (List.lt_irrefl _)
      subst hxy
      congr 1
      refine ih ha.2 hb.2 fun z => ?_
      constructor
      · intro hz
        rcases List.mem_cons.1 ((h z).1 (List.mem_cons_of_mem _ hz)) with e | hz'
        · subst e; exact absurd (ha.1 z hz) (List.lt_irrefl _)
        · exact hz'
      · intro hz
        rcases List.mem_cons.1 ((h z).2 (List.mem_cons_of_mem _ hz)) with e | hz'
        · subst e; exact absurd (hb.1 z hz) (List.lt_irrefl _)
        · exact hz'

/-! ### What is signed -/

theorem encodeRd_eq {type : Nat} {vs : List Val} {b : Bytes} (hl : writeLayout type = readLayout type) (hr : ReadVals (readLayout type) vs)
    (h : ValsBytes (readLayout type) vs b) : encodeRd type vs = .ok b := by
  obtain ⟨x, h8, hp⟩ := plain_fields hr
  cases valsBytes_unique h h8
  unfold encodeRd wRd
  rw [hl]
  have p1 := hp.1 0 []
  have p2 := hp.2 b.length 0 [] (by omega)
  dsimp only at p1 p2
  rw [p1]
  simp only [Out.bind]
  rw [p2]
  simp only
  rw [memSlice_ok (by simp)]
  simp

theorem readVals_sig {s : Rrsig} (h : SigOk s) : ReadVals (readLayout 46) s.vals := by
  obtain ⟨ls, h1, h2⟩ := h.signer
  exact ⟨h.typeCovered, h.algorithm, h.labels, h.origTtl, h.expiration, h.inception, h.keyTag, ⟨ls, h1, h2⟩, trivial, trivial⟩

theorem tbs_eq {s : Rrsig} (h : SigOk s) : ∃ d, tbs s = .ok d ∧ SigBytes s d := by
  obtain ⟨ls, h1, h2⟩ := h.signer
  have e : s.signer.map low = text (ls.map fun l => l.map low) := by rw [h2, text_low]
  have h' : SigOk { s with signer := lowered s.signer, signature := [] } :=
    ⟨h.typeCovered, h.algorithm, h.labels, h.origTtl, h.expiration, h.inception, h.keyTag, ⟨_, okName_low h1, by rw [lowered_low, e]⟩⟩
  refine ⟨beBytes 2 s.typeCovered ++ [UInt8.ofNat s.algorithm, UInt8.ofNat s.labels] ++ beBytes 4 s.origTtl ++ beBytes 4 s.expiration ++ beBytes 4 s.inception ++
      beBytes 2 s.keyTag ++ wire (ls.map fun l => l.map low), ?_, ⟨_, okName_low h1, e, rfl⟩⟩
  unfold tbs
  refine encodeRd_eq (by decide) (readVals_sig h') ?_
  refine ⟨_, _, rfl, ⟨_, _, rfl, ⟨_, _, rfl, ⟨_, _, rfl, ⟨_, _, rfl, ⟨_, _, rfl, ⟨_, _, rfl, ⟨_, [], ⟨_, okName_low h1, by rw [lowered_low, e], rfl⟩, ⟨[], [], rfl, rfl, rfl⟩, rfl⟩, rfl⟩, rfl⟩, rfl⟩, rfl⟩, rfl⟩, rfl⟩, ?_⟩
  simp

/-- The canonical rows of a record set. -/
theorem rows_exist {ttl : Nat} (ht : ttl < 4294967296) : ∀ (rs : List Rr), (∀ r ∈ rs, WholeRr r) → (∀ r ∈ rs, r.type ≠ 24) →
    ∃ rows : List Row, rawRrs ttl rs = .ok (rows.map (·.bytes)) ∧ (∀ x ∈ rows, IsRow x ∧ WholeRr x.rr) ∧ rows.map (·.rr) = rs.map (canonAt ttl)
  | [], _, _ => ⟨[], rfl, by simp, rfl⟩
  | r :: rs, hw, h24 => by
    obtain ⟨rows, h1, h2, h3⟩ := rows_exist ht rs (fun x hx => hw x (List.mem_cons_of_mem _ hx)) (fun x hx => h24 x (List.mem_cons_of_mem _ hx))
    have hr := hw r List.mem_cons_self
    have hc := whole_canon hr ht
    obtain ⟨rd, b, hb⟩ := wholeRr_row hc
    refine ⟨⟨canonAt ttl r, rd, b⟩ :: rows, ?_, ?_, ?_⟩
    · rw [rawRrs, rawRr_eq hr (h24 r List.mem_cons_self) ht hb]
      simp only [Out.bind, h1, List.map_cons]
    · intro x hx
      rcases List.mem_cons.1 hx with rfl | hx
      · exact ⟨hb, hc⟩
      · exact h2 x hx
    · rw [List.map_cons, List.map_cons, h3]

/-- A list of elements of a mapped list is itself a mapped list. -/
theorem exists_map {α β : Type} (f : α → β) (l : List α) : ∀ (m : List β), (∀ b ∈ m, b ∈ l.map f) → ∃ n : List α, n.map f = m ∧ ∀ x ∈ n, x ∈ l
  | [], _ => ⟨[], rfl, by simp⟩
  | b :: m, h => by
    obtain ⟨n, h1, h2⟩ := exists_map f l m fun x hx => h x (List.mem_cons_of_mem _ hx)
    obtain ⟨a, ha, e⟩ := List.mem_map.1 (h b List.mem_cons_self)
    refine ⟨a :: n, by rw [List.map_cons, e, h1], ?_⟩
    intro x hx
    rcases List.mem_cons.1 hx with rfl | hx
    · exact ha
    · exact h2 x hx

/-- The record data of encoded bytes. -/
def keyOf (b : Bytes) : Bytes := match rawKey b with | .ok k => k | _ => []

theorem keyOf_row {x : Row} (h : IsRow x) : keyOf x.bytes = x.rd := by
  unfold keyOf
  rw [rawKey_row (r := x.rr) (rd := x.rd) (b := x.bytes) h]

/-- The record of encoded bytes. -/
theorem row_inj {x y : Row} (hx : IsRow x ∧ WholeRr x.rr) (hy : IsRow y ∧ WholeRr y.rr) (h : x.bytes = y.bytes) : x.rr = y.rr ∧ x.rd = y.rd := by
  have h1 := readRr_row (r := x.rr) (rd := x.rd) (b := x.bytes) hx.2 hx.1 []
  have h2 := readRr_row (r := y.rr) (rd := y.rd) (b := y.bytes) hy.2 hy.1 []
  rw [h, h2] at h1
  have := Out.ok.inj h1
  refine ⟨(Prod.mk.inj this).1.symm, ?_⟩
  rw [← keyOf_row hx.1, ← keyOf_row hy.1, h]

/-- The rows, sorted and without repetition. -/
theorem signed_rows {E : Env} (hE : Sorts E.qsort) {rows : List Row} (hrow : ∀ x ∈ rows, IsRow x ∧ WholeRr x.rr)
    (hsame : ∀ x ∈ rows, ∀ y ∈ rows, x.rd = y.rd → x.bytes = y.bytes) :
    ∃ out : List Row, (sortRaw E (rows.map (·.bytes))).bind (fun raw => .ok (unique none raw)) = .ok (out.map (·.bytes)).flatten ∧
      (∀ x ∈ out, IsRow x ∧ WholeRr x.rr) ∧ out.Pairwise (fun a b => a.rd < b.rd) ∧ (∀ c, c ∈ out.map (·.rr) ↔ c ∈ rows.map (·.rr)) := by
  have hkey : ∀ b ∈ rows.map (·.bytes), ∃ k, rawKey b = .ok k := by
    intro b hb
    obtain ⟨x, hx, rfl⟩ := List.mem_map.1 hb
    exact ⟨x.rd, rawKey_row (r := x.rr) (hrow x hx).1⟩
  obtain ⟨hperm, hsorted⟩ := hE _ hkey
  have hnu : ¬ (2 ≤ (rows.map (·.bytes)).length ∧ ((rows.map (·.bytes)).any fun b => (rawKey b) == .ub) = true) := by
    rintro ⟨_, h⟩
    obtain ⟨b, hb, hu⟩ := List.any_eq_true.1 h
    obtain ⟨k, hk⟩ := hkey b hb
    rw [hk] at hu
    simp at hu
  unfold sortRaw
  rw [if_neg hnu]
  simp only [Out.bind]
  generalize hL : E.qsort (rows.map (·.bytes)) = L at *
  have hmem : ∀ b, b ∈ L ↔ b ∈ rows.map (·.bytes) := fun b => hperm.mem_iff
  have hpw : L.Pairwise fun a b => cmpBytes (keyOf a) (keyOf b) ≤ 0 := by
    refine List.Pairwise.imp_of_mem ?_ hsorted
    intro a b ha hb h
    obtain ⟨k, hk⟩ := hkey a ((hmem a).1 ha)
    obtain ⟨k', hk'⟩ := hkey b ((hmem b).1 hb)
    have := h (cmpBytes k k') (by unfold rawCmp; rw [hk, hk']; rfl)
    unfold keyOf
    rw [hk, hk']
    exact this
  have hinj : ∀ a ∈ L, ∀ b ∈ L, keyOf a = keyOf b → a = b := by
    intro a ha b hb h
    obtain ⟨x, hx, rfl⟩ := List.mem_map.1 ((hmem a).1 ha)
    obtain ⟨y, hy, rfl⟩ := List.mem_map.1 ((hmem b).1 hb)
    rw [keyOf_row (hrow x hx).1, keyOf_row (hrow y hy).1] at h
    exact hsame x hx y hy h
  obtain ⟨m, h1, h2, h3, _⟩ := unique_spec keyOf L none hpw (by simp) hinj
  obtain ⟨out, h4, h5⟩ := exists_map (·.bytes) rows m fun b hb => (hmem b).1 ((h3 b).1 hb).1
  refine ⟨out, by rw [h4, h1], fun x hx => hrow x (h5 x hx), ?_, ?_⟩
  · rw [← h4, List.pairwise_map] at h2
    refine List.Pairwise.imp_of_mem ?_ h2
    intro a b ha hb h
    rw [keyOf_row (hrow a (h5 a ha)).1, keyOf_row (hrow b (h5 b hb)).1] at h
    exact h
  · intro c
    constructor
    · intro hc
      obtain ⟨x, hx, rfl⟩ := List.mem_map.1 hc
      exact List.mem_map.2 ⟨x, h5 x hx, rfl⟩
    · intro hc
      obtain ⟨x, hx, rfl⟩ := List.mem_map.1 hc
      have : x.bytes ∈ m := (h3 _).2 ⟨(hmem _).2 (List.mem_map.2 ⟨x, hx, rfl⟩), by simp⟩
      rw [← h4] at this
      obtain ⟨y, hy, e⟩ := List.mem_map.1 this
      exact List.mem_map.2 ⟨y, hy, (row_inj (hrow y (h5 y hy)) (hrow x hx) e).1⟩

/-- In a record set, equal record data are equal records. -/
theorem same_bytes {name : Bytes} {type cls ttl ttl' : Nat} {rs : List Rr} (h : RrSet name type cls ttl rs) {rows : List Row}
    (hrow : ∀ x ∈ rows, IsRow x ∧ WholeRr x.rr) (he : rows.map (·.rr) = rs.map (canonAt ttl')) :
    ∀ x ∈ rows, ∀ y ∈ rows, x.rd = y.rd → x.bytes = y.bytes := by
  have key : ∀ x ∈ rows, x.rr.name = name.map low ∧ x.rr.type = type ∧ x.rr.cls = cls ∧ x.rr.ttl = ttl' := by
    intro x hx
    have : x.rr ∈ rows.map (·.rr) := List.mem_map.2 ⟨x, hx, rfl⟩
    rw [he] at this
    obtain ⟨r, hr, e⟩ := List.mem_map.1 this
    rw [← e]
    exact ⟨h.name r hr, h.type r hr, h.cls r hr, rfl⟩
  intro x hx y hy e
  obtain ⟨a1, a2, a3, a4⟩ := key x hx
  obtain ⟨b1, b2, b3, b4⟩ := key y hy
  obtain ⟨ls, h3, h4, h5⟩ := (hrow x hx).1.bytes
  obtain ⟨ls', h3', h4', h5'⟩ := (hrow y hy).1.bytes
  have : ls = ls' := text_inj h3.1 h3'.1 (by rw [← h4, ← h4', a1, b1])
  rw [h5, h5', this, a2, a3, a4, b2, b3, b4, e]

theorem signedData_eq {E : Env} (hE : Sorts E.qsort) {s : Rrsig} (hs : SigOk s) {name : Bytes} {type cls ttl : Nat} {rs : List Rr} (h : RrSet name type cls ttl rs)
    (h24 : type ≠ 24) :
    ∃ (d : Bytes) (rows : List Row), signedData E s rs = .ok (d ++ (rows.map (·.bytes)).flatten) ∧ SigBytes s d ∧ (∀ x ∈ rows, IsRow x ∧ WholeRr x.rr) ∧
      rows.Pairwise (fun a b => a.rd < b.rd) ∧ ∀ c, c ∈ rows.map (·.rr) ↔ ∃ r ∈ rs, c = canonAt s.origTtl r := by
  obtain ⟨rows, h1, h2, h3⟩ := rows_exist hs.origTtl rs h.whole (fun r hr => by rw [h.type r hr]; exact h24)
  obtain ⟨out, h4, h5, h6, h7⟩ := signed_rows hE h2 (same_bytes h h2 h3)
  obtain ⟨d, h8, h9⟩ := tbs_eq hs
  refine ⟨d, out, ?_, h9, h5, h6, ?_⟩
  · unfold signedData
    rw [if_neg h.some, h1]
    simp only [Out.bind, h8]
    simp only [Out.bind] at h4
    generalize sortRaw E (rows.map (·.bytes)) = o at h4 ⊢
    cases o with
    | err e => cases h4
    | ub => cases h4
    | ok raw => simp only at h4 ⊢; rw [Out.ok.inj h4]
  · intro c
    rw [h7, h3, List.mem_map]
    constructor <;> rintro ⟨r, hr, e⟩ <;> exact ⟨r, hr, e.symm⟩

/-- Rows can be told apart in their concatenation. -/
theorem flatten_rows : ∀ {p q : List Row}, (∀ x ∈ p, IsRow x ∧ WholeRr x.rr) → (∀ x ∈ q, IsRow x ∧ WholeRr x.rr) →
    (p.map (·.bytes)).flatten = (q.map (·.bytes)).flatten → p.map (·.rr) = q.map (·.rr) := by
  have pos : ∀ {x : Row}, IsRow x → x.bytes ≠ [] := by
    intro x hx
    obtain ⟨ls, _, _, h⟩ := hx.bytes
    intro h0
    have := congrArg List.length (h.symm.trans h0)
    simp at this
  intro p
  induction p with
  | nil =>
    intro q _ hq h
    cases q with
    | nil => rfl
    | cons y q =>
      simp only [List.map_nil, List.flatten_nil, List.map_cons, List.flatten_cons] at h
      exact absurd (List.append_eq_nil_iff.1 h.symm).1 (pos (hq y List.mem_cons_self).1)
  | cons x p ih =>
    intro q hp hq h
    cases q with
    | nil =>
      simp only [List.map_nil, List.flatten_nil, List.map_cons, List.flatten_cons] at h
      exact absurd (List.append_eq_nil_iff.1 h).1 (pos (hp x List.mem_cons_self).1)
    | cons y q =>
      simp only [List.map_cons, List.flatten_cons] at h ⊢
      obtain ⟨x1, x2⟩ := hp x List.mem_cons_self
      obtain ⟨y1, y2⟩ := hq y List.mem_cons_self
      have e1 := readRr_row (r := x.rr) (rd := x.rd) (b := x.bytes) x2 x1 ((p.map (·.bytes)).flatten)
      have e2 := readRr_row (r := y.rr) (rd := y.rd) (b := y.bytes) y2 y1 ((q.map (·.bytes)).flatten)
      rw [h, e2] at e1
      have e := Prod.mk.inj (Out.ok.inj e1)
      rw [e.1, ih (fun z hz => hp z (List.mem_cons_of_mem _ hz)) (fun z hz => hq z (List.mem_cons_of_mem _ hz)) e.2.symm]

/-! ### Key tags -/

theorem tagLoop_spec : ∀ (n : Nat) (b : Bytes) (t : Nat), b.length ≤ n → t + words b < 4294967296 → tagLoop b false t = t + words b
  | 0, b, t, h, _ => by cases b with
    | nil => rfl
    | cons x b => simp at h
  | n + 1, b, t, h, hb => by
    match b, h, hb with
    | [], _, _ => rfl
    | [a], _, hb =>
      simp only [words] at hb
      simp only [tagLoop, words, Bool.false_eq_true, if_false]
      omega
    | a :: c :: b, h, hb =>
      simp only [words] at hb
      simp only [tagLoop, words, Bool.false_eq_true, if_false, Bool.not_false, if_true]
      have e1 : (t + a.toNat * 256) % 4294967296 = t + a.toNat * 256 := by omega
      have e2 : (t + a.toNat * 256 + c.toNat) % 4294967296 = t + a.toNat * 256 + c.toNat := by omega
      rw [e1, e2]
      simp only [Bool.not_true]
      rw [tagLoop_spec n b _ (by simp at h; omega) (by omega)]
      omega

theorem words_le : ∀ (n : Nat) (b : Bytes), b.length ≤ n → words b ≤ 65535 * ((b.length + 1) / 2)
  | 0, b, h => by cases b with
    | nil => simp [words]
    | cons x b => simp at h
  | n + 1, b, h => by
    match b, h with
    | [], _ => simp [words]
    | [a], _ => have := a.toNat_lt; simp only [words, List.length_cons, List.length_nil]; omega
    | a :: c :: b, h =>
      have := a.toNat_lt
      have := c.toNat_lt
      have ih := words_le n b (by simp at h; omega)
      simp only [words, List.length_cons]
      omega

/-! ### A qsort -/

/-- Insertion by record data. -/
def insert (b : Bytes) : List Bytes → List Bytes
  | [] => [b]
  | x :: l => if cmpBytes (keyOf b) (keyOf x) ≤ 0 then b :: x :: l else x :: insert b l

def isort : List Bytes → List Bytes
  | [] => []
  | b :: l => insert b (isort l)

theorem insert_perm (b : Bytes) : ∀ l, (insert b l).Perm (b :: l)
  | [] => .refl _
  | x :: l => by
    unfold insert
    split
    · exact .refl _
    · exact (List.Perm.cons x (insert_perm b l)).trans (List.Perm.swap b x l)

theorem cmp_trans {a b c : Bytes} (h : cmpBytes a b ≤ 0) (h' : cmpBytes b c ≤ 0) : cmpBytes a c ≤ 0 := by
  rcases Int.lt_or_eq_of_le h with h | h
  · rcases Int.lt_or_eq_of_le h' with h' | h'
    · exact Int.le_of_lt (cmp_lt.2 (List.lt_trans (cmp_lt.1 h) (cmp_lt.1 h')))
    · rw [← cmp_zero h']; exact Int.le_of_lt h
  · rw [cmp_zero h]; exact h'

theorem cmp_total {a b : Bytes} (h : ¬ cmpBytes a b ≤ 0) : cmpBytes b a ≤ 0 := by
  induction a generalizing b with
  | nil => cases b <;> simp [cmpBytes] at h
  | cons x xs ih =>
    cases b with
    | nil => simp [cmpBytes]
    | cons y ys =>
      rw [cmpBytes] at h ⊢
      by_cases h1 : x < y
      · rw [if_pos h1] at h; exact absurd (by decide) h
      · rw [if_neg h1] at h
        by_cases h2 : y < x
        · rw [if_pos h2]; decide
        · rw [if_neg h2, if_neg h1]
          rw [if_neg h2] at h
          exact ih h

theorem insert_sorted (b : Bytes) : ∀ l, l.Pairwise (fun a b => cmpBytes (keyOf a) (keyOf b) ≤ 0) → (insert b l).Pairwise fun a b => cmpBytes (keyOf a) (keyOf b) ≤ 0
  | [], _ => by simp [insert]
  | x :: l, h => by
    rw [List.pairwise_cons] at h
    unfold insert
    split
    · rename_i hb
      rw [List.pairwise_cons]
      refine ⟨?_, List.pairwise_cons.2 h⟩
      intro y hy
      rcases List.mem_cons.1 hy with rfl | hy
      · exact hb
      · exact cmp_trans hb (h.1 y hy)
    · rename_i hb
      rw [List.pairwise_cons]
      refine ⟨?_, insert_sorted b l h.2⟩
      intro y hy
      rcases List.mem_cons.1 ((insert_perm b l).mem_iff.1 hy) with rfl | hy
      · exact cmp_total hb
      · exact h.1 y hy

theorem isort_sorts : Sorts isort := by
  intro l hl
  have hp : ∀ l, (isort l).Perm l := by
    intro l
    induction l with
    | nil => exact .refl _
    | cons b l ih => exact (insert_perm b _).trans (List.Perm.cons b ih)
  have hs : ∀ l, (isort l).Pairwise fun a b => cmpBytes (keyOf a) (keyOf b) ≤ 0 := by
    intro l
    induction l with
    | nil => exact List.Pairwise.nil
    | cons b l ih => exact insert_sorted b _ ih
  refine ⟨hp l, List.Pairwise.imp_of_mem ?_ (hs l)⟩
  intro a b ha hb h c hc
  obtain ⟨k, hk⟩ := hl a ((hp l).mem_iff.1 ha)
  obtain ⟨k', hk'⟩ := hl b ((hp l).mem_iff.1 hb)
  unfold rawCmp at hc
  rw [hk, hk'] at hc
  unfold keyOf at h
  rw [hk, hk'] at h
  simp only [Out.bind] at hc
  cases Out.ok.inj hc
  exact h

end Verif.Dnssec
