import Verif.Lemmas.Strict
import Verif.Model.Tld
/-
A quick check that bytes, given as numbers, are a resource.
-/
namespace Verif.Resource
open Verif.Bio Verif.DnsName Verif.Dns Verif.Spec.DnsName Verif.Spec.Resource

/-- `f n`, with `n` evaluated first. -/
def forced {α : Type} (n : Nat) (f : Nat → α) : α :=
  match n with
  | 0 => f 0
  | k + 1 => f (k + 1)

theorem forced_eq {α : Type} (n : Nat) (f : Nat → α) : forced n f = f n := by cases n <;> rfl

/-- The end of the name at `o`. -/
def endName (d : List Nat) : Nat → Nat → Nat → Nat → Option Nat
  | 0, _, _, _ => none
  | f + 1, o, room, ptrs => forced o fun o => forced room fun room =>
    match d.drop o with
    | [] => none
    | c :: r =>
      bif Nat.beq c 0 then some (o + 1)
      else bif Nat.ble c 63 then
        bif Nat.ble (c + 1) room && Nat.ble c r.length then endName d f (o + 1 + c) (room - (c + 1)) ptrs else none
      else bif Nat.ble 192 c then
        match r with
        | [] => none
        | b :: _ => bif Nat.beq ptrs 0 then none else (endName d f ((c - 192) * 256 + b) room (ptrs - 1)).map fun _ => o + 2
      else none

/-- The end of the record at `o`. -/
def endRec (d : List Nat) (o : Nat) : Option Nat :=
  match d.drop o with
  | 0 :: _ :: _ :: _ :: _ :: z :: r => bif Nat.ble z 64 && Nat.ble z r.length then some (o + 6 + z) else none
  | 1 :: _ => endName d 139 (o + 1) 255 10
  | 2 :: _ => (endName d 139 (o + 1) 255 10).bind fun e => bif Nat.ble (e + 4) d.length then some (e + 4) else none
  | 3 :: _ => (endName d 139 (o + 1) 255 10).bind fun e => bif Nat.ble (e + 16) d.length then some (e + 16) else none
  | 4 :: _ => bif Nat.ble (o + 5) d.length then some (o + 5) else none
  | 5 :: _ => bif Nat.ble (o + 17) d.length then some (o + 17) else none
  | _ => none

def quick (d : List Nat) : Nat → Nat → Bool
  | 0, o => Nat.beq o d.length
  | f + 1, o => bif Nat.beq o d.length then true else match endRec d o with
    | none => false
    | some e => forced e fun e => quick d f e

/-- The bytes of a table entry as numbers. -/
def unpackNat : Nat → Nat → List Nat → List Nat
  | 0, _, acc => acc
  | f + 1, n, acc => bif Nat.blt n 256 then acc else forced (n / 256) fun q => forced (n % 256) fun c => unpackNat f q (c :: acc)

theorem unpack_nat : ∀ (f n : Nat) (acc : List Nat), Tld.unpack f n (acc.map UInt8.ofNat) = (unpackNat f n acc).map UInt8.ofNat
  | 0, _, _ => rfl
  | f + 1, n, acc => by
    rw [Tld.unpack, unpackNat]
    simp only [forced_eq]
    by_cases h : n < 256
    · rw [if_pos h, show Nat.blt n 256 = true by rw [Nat.blt_eq]; exact h]; rfl
    · rw [if_neg h, show Nat.blt n 256 = false by rw [Bool.eq_false_iff, ne_eq, Nat.blt_eq]; exact h]
      exact unpack_nat f (n / 256) (n % 256 :: acc)

theorem unpackNat_lt : ∀ (f n : Nat) (acc : List Nat), (∀ x ∈ acc, x < 256) → ∀ x ∈ unpackNat f n acc, x < 256
  | 0, _, _, h => h
  | f + 1, n, acc, h => by
    rw [unpackNat]
    simp only [forced_eq]
    cases Nat.blt n 256 with
    | true => exact h
    | false =>
      refine unpackNat_lt f (n / 256) _ ?_
      intro x hx
      rcases List.mem_cons.1 hx with rfl | hx
      · omega
      · exact h x hx

theorem endName_spec {d : Bytes} : ∀ (f o room ptrs e : Nat), endName (d.map UInt8.toNat) f o room ptrs = some e →
    ∃ ls k, Expands false d o ls e k ∧ k ≤ ptrs ∧ (body ls).length ≤ room ∧ ∀ l ∈ ls, OkLabel l
  | 0, _, _, _, _, h => by cases h
  | f + 1, o, room, ptrs, e, h => by
    rw [endName] at h
    simp only [forced_eq] at h
    rw [← List.map_drop] at h
    cases hs : d.drop o with
    | nil => rw [hs] at h; cases h
    | cons c r =>
      rw [hs] at h
      simp only [List.map_cons] at h
      have hc : d[o]? = some c := by
        have := congrArg List.head? hs
        rwa [List.head?_drop] at this
      have hr : d.drop (o + 1) = r := by rw [← List.drop_drop, hs]; rfl
      cases h1 : Nat.beq c.toNat 0 with
      | true =>
        rw [h1] at h
        cases Option.some.inj h
        have : c = 0 := UInt8.toNat.inj (Nat.eq_of_beq_eq_true h1)
        subst this
        exact ⟨[], 0, .root hc, Nat.zero_le _, by simp [body], by simp⟩
      | false =>
        have n1 : c.toNat ≠ 0 := Nat.ne_of_beq_eq_false h1
        rw [h1] at h
        simp only [cond_false] at h
        cases h2 : Nat.ble c.toNat 63 with
        | true =>
          have n2 := Nat.le_of_ble_eq_true h2
          rw [h2] at h
          simp only [cond_true] at h
          cases h3 : (Nat.ble (c.toNat + 1) room && Nat.ble c.toNat (r.map UInt8.toNat).length) with
          | false => rw [h3] at h; cases h
          | true =>
            rw [h3] at h
            simp only [cond_true] at h
            rw [Bool.and_eq_true] at h3
            have n3 := Nat.le_of_ble_eq_true h3.1
            have n4 := Nat.le_of_ble_eq_true h3.2
            rw [List.length_map] at n4
            obtain ⟨ls, k, k1, k2, k3, k4⟩ := endName_spec f _ _ _ _ h
            have hlen : ((r.take c.toNat).map shown).length = c.toNat := by simp; omega
            have hl : OkLabel ((r.take c.toNat).map shown) := by
              have sh : ∀ b, shown b ≠ 0 ∧ shown b ≠ 0x2e := by
                intro b
                unfold shown
                split
                · decide
                · split
                  · decide
                  · exact ⟨by assumption, by assumption⟩
              refine ⟨by omega, by omega, ?_, ?_⟩
              · intro h0
                obtain ⟨b, _, hb⟩ := List.mem_map.1 h0
                exact (sh b).1 hb
              · intro h0
                obtain ⟨b, _, hb⟩ := List.mem_map.1 h0
                exact (sh b).2 hb
            refine ⟨(r.take c.toNat).map shown :: ls, k, ?_, k2, ?_, ?_⟩
            · refine .label hl ?_ ?_ ?_
              · rw [hlen, hc]; simp
              · rw [hlen, hr]
              · rw [hlen]; exact k1
            · rw [body_cons]
              simp only [List.length_append, hlen, List.length_cons, List.length_nil]
              omega
            · intro l hm
              rcases List.mem_cons.1 hm with rfl | hm
              · exact hl
              · exact k4 l hm
        | false =>
          rw [h2] at h
          simp only [cond_false] at h
          cases h3 : Nat.ble 192 c.toNat with
          | false => rw [h3] at h; cases h
          | true =>
            have n3 := Nat.le_of_ble_eq_true h3
            rw [h3] at h
            simp only [cond_true] at h
            cases r with
            | nil => cases h
            | cons b r =>
              simp only [List.map_cons] at h
              cases h4 : Nat.beq ptrs 0 with
              | true => rw [h4] at h; cases h
              | false =>
                have n4 : ptrs ≠ 0 := Nat.ne_of_beq_eq_false h4
                rw [h4] at h
                simp only [cond_false] at h
                obtain ⟨e', h5, rfl⟩ := Option.map_eq_some_iff.1 h
                obtain ⟨ls, k, k1, k2, k3, k4⟩ := endName_spec f _ _ _ _ h5
                have hb : d[o + 1]? = some b := by
                  have := congrArg List.head? hr
                  rwa [List.head?_drop] at this
                exact ⟨ls, k + 1, .pointer hc hb (by omega) (by simp) k1, by omega, k3, k4⟩

theorem endName_nameAt {d : Bytes} {o e : Nat} (h : endName (d.map UInt8.toNat) 139 o 255 10 = some e) : ∃ n, NameAt d o n e := by
  obtain ⟨ls, k, h1, h2, h3, h4⟩ := endName_spec _ _ _ _ _ h
  refine ⟨text ls, ls, k, h1, h2, ⟨h4, ?_⟩, rfl⟩
  unfold text
  split
  · decide
  · exact h3

theorem bytesAt_take {d : Bytes} {o n : Nat} (h : o + n ≤ d.length) : ((d.drop o).take n).length = n ∧ BytesAt d o ((d.drop o).take n) := by
  have : ((d.drop o).take n).length = n := by rw [List.length_take, List.length_drop]; omega
  refine ⟨this, ?_⟩
  unfold BytesAt
  rw [this]

theorem endRec_spec {d : Bytes} {o e : Nat} (h : endRec (d.map UInt8.toNat) o = some e) : ∃ r, RecAt d o r e := by
  unfold endRec at h
  rw [← List.map_drop] at h
  have first : ∀ {t : Nat} {u : List Nat}, (d.drop o).map UInt8.toNat = t :: u → BytesAt d o [UInt8.ofNat t] := by
    intro t u h
    cases hs : d.drop o with
    | nil => rw [hs] at h; cases h
    | cons c r =>
      rw [hs] at h
      unfold BytesAt
      rw [hs]
      simp only [List.map_cons, List.cons.injEq] at h
      rw [← h.1]
      simp
  have tl : ∀ {t : UInt8} {n : Nat}, BytesAt d o [t] → o + 1 + n ≤ d.length → BytesAt d o (t :: (d.drop (o + 1)).take n) ∧ ((d.drop (o + 1)).take n).length = n := by
    intro t n h1 h2
    obtain ⟨h3, _⟩ := bytesAt_take h2
    refine ⟨?_, h3⟩
    have := bytesAt_split h1
    unfold BytesAt
    rw [List.length_cons, h3, this]
    simp
  split at h
  · rename_i a b c dd z r hs
    cases hz : (Nat.ble z 64 && Nat.ble z r.length) with
    | false => rw [hz] at h; cases h
    | true =>
      rw [hz] at h
      cases Option.some.inj h
      rw [Bool.and_eq_true] at hz
      have z1 := Nat.le_of_ble_eq_true hz.1
      have z2 := Nat.le_of_ble_eq_true hz.2
      match hd : d.drop o, hs with
      | t :: a' :: b' :: c' :: d' :: z' :: r', hs =>
        simp only [List.map_cons, List.cons.injEq] at hs
        obtain ⟨k0, k1, k2, k3, k4, k5, k6⟩ := hs
        have t0 : t = 0 := UInt8.toNat.inj k0
        subst t0
        have hr : r'.length = r.length := by rw [← k6, List.length_map]
        have a1 := a'.toNat_lt
        have b1 := b'.toNat_lt
        have hl : (r'.take z).length = z := by rw [List.length_take]; omega
        refine ⟨.ds (a'.toNat * 256 + b'.toNat) c'.toNat d'.toNat (r'.take z), ?_⟩
        have he : o + 6 + z = o + 6 + (r'.take z).length := by rw [hl]
        rw [he]
        refine .ds (by omega) c'.toNat_lt d'.toNat_lt (by omega) ?_
        have h1 : UInt8.ofNat (a'.toNat * 256 + b'.toNat) = b' := by apply UInt8.toNat.inj; simp
        have h2 : UInt8.ofNat ((a'.toNat * 256 + b'.toNat) / 256) = a' := by apply UInt8.toNat.inj; simp; omega
        have hz' : UInt8.ofNat z = z' := by rw [← k5]; simp
        unfold BytesAt
        rw [hd, hl]
        simp [beBytes, leBytes, h1, h2, hl, hz']
      | [], hs => cases hs
      | [_], hs => simp at hs
      | [_, _], hs => simp at hs
      | [_, _, _], hs => simp at hs
      | [_, _, _, _], hs => simp at hs
      | [_, _, _, _, _], hs => simp at hs
  · rename_i hs
    obtain ⟨n, hn⟩ := endName_nameAt h
    exact ⟨_, .ns (first hs) hn⟩
  · rename_i hs
    obtain ⟨e', h1, h⟩ := Option.bind_eq_some_iff.1 h
    obtain ⟨n, hn⟩ := endName_nameAt h1
    cases hz : Nat.ble (e' + 4) (d.map UInt8.toNat).length with
    | false => rw [hz] at h; cases h
    | true =>
      rw [hz] at h
      cases Option.some.inj h
      have := Nat.le_of_ble_eq_true hz
      rw [List.length_map] at this
      obtain ⟨k1, k2⟩ := bytesAt_take this
      exact ⟨_, .glue4 (first hs) hn k1 k2⟩
  · rename_i hs
    obtain ⟨e', h1, h⟩ := Option.bind_eq_some_iff.1 h
    obtain ⟨n, hn⟩ := endName_nameAt h1
    cases hz : Nat.ble (e' + 16) (d.map UInt8.toNat).length with
    | false => rw [hz] at h; cases h
    | true =>
      rw [hz] at h
      cases Option.some.inj h
      have := Nat.le_of_ble_eq_true hz
      rw [List.length_map] at this
      obtain ⟨k1, k2⟩ := bytesAt_take this
      exact ⟨_, .glue6 (first hs) hn k1 k2⟩
  · rename_i hs
    cases hz : Nat.ble (o + 5) (d.map UInt8.toNat).length with
    | false => rw [hz] at h; cases h
    | true =>
      rw [hz] at h
      cases Option.some.inj h
      have := Nat.le_of_ble_eq_true hz
      rw [List.length_map] at this
      obtain ⟨k1, k2⟩ := tl (first hs) (n := 4) (by omega)
      exact ⟨_, .synth4 k2 k1⟩
  · rename_i hs
    cases hz : Nat.ble (o + 17) (d.map UInt8.toNat).length with
    | false => rw [hz] at h; cases h
    | true =>
      rw [hz] at h
      cases Option.some.inj h
      have := Nat.le_of_ble_eq_true hz
      rw [List.length_map] at this
      obtain ⟨k1, k2⟩ := tl (first hs) (n := 16) (by omega)
      exact ⟨_, .synth6 k2 k1⟩
  · cases h

theorem quick_spec {d : Bytes} : ∀ (f o : Nat), quick (d.map UInt8.toNat) f o = true → ∃ rs, RecsAt d o rs ∧ rs.length ≤ f
  | 0, o, h => by
    have := Nat.eq_of_beq_eq_true h
    rw [List.length_map] at this
    subst this
    exact ⟨[], .nil, by simp⟩
  | f + 1, o, h => by
    rw [quick] at h
    cases h1 : Nat.beq o (d.map UInt8.toNat).length with
    | true =>
      have := Nat.eq_of_beq_eq_true h1
      rw [List.length_map] at this
      subst this
      exact ⟨[], .nil, by simp⟩
    | false =>
      rw [h1] at h
      simp only [cond_false] at h
      cases h2 : endRec (d.map UInt8.toNat) o with
      | none => rw [h2] at h; cases h
      | some e =>
        rw [h2] at h
        simp only [forced_eq] at h
        obtain ⟨r, h3⟩ := endRec_spec h2
        obtain ⟨rs, h4, h5⟩ := quick_spec f e h
        exact ⟨r :: rs, .cons h3 h4, by simp; omega⟩

/-- One table entry. -/
def entryOk (n : Nat) : Bool :=
  match unpackNat 500 n [] with
  | _ :: _ :: 0 :: s => quick (0 :: s) 200 1
  | _ => false

theorem entryOk_spec {n : Nat} (h : entryOk n = true) : ∃ rs, Encodes ((Tld.unpack 500 n []).drop 2) rs ∧ rs.length ≤ 255 := by
  have hu := unpack_nat 500 n []
  have hlt := unpackNat_lt 500 n [] (by simp)
  rw [List.map_nil] at hu
  rw [hu]
  unfold entryOk at h
  split at h
  · rename_i a b s hs
    rw [hs] at hlt ⊢
    simp only [List.map_cons, List.drop_succ_cons, List.drop_zero]
    have e : ((UInt8.ofNat 0 :: s.map UInt8.ofNat).map UInt8.toNat) = 0 :: s := by
      simp only [List.map_cons, List.map_map]
      congr 1
      have : ∀ x ∈ s, x < 256 := fun x hx => hlt x (by simp [hx])
      clear hlt hs h hu
      induction s with
      | nil => rfl
      | cons x s ih =>
        rw [List.map_cons, ih fun y hy => this y (List.mem_cons_of_mem _ hy)]
        have := this x List.mem_cons_self
        congr 1
        simp
        omega
    rw [← e] at h
    obtain ⟨rs, h1, h2⟩ := quick_spec 200 1 h
    exact ⟨rs, ⟨rfl, h1⟩, by omega⟩
  · cases h

/-! The same with the bytes looked up by place, in a number. -/

def endNameAt (g : Nat → Nat) (L : Nat) : Nat → Nat → Nat → Nat → Option Nat
  | 0, _, _, _ => none
  | f + 1, o, room, ptrs => forced o fun o => forced room fun room =>
    bif Nat.ble L o then none else forced (g o) fun c =>
      bif Nat.beq c 0 then some (o + 1)
      else bif Nat.ble c 63 then
        bif Nat.ble (c + 1) room && Nat.ble (o + 1 + c) L then endNameAt g L f (o + 1 + c) (room - (c + 1)) ptrs else none
      else bif Nat.ble 192 c then
        bif Nat.ble L (o + 1) then none
        else bif Nat.beq ptrs 0 then none else (endNameAt g L f ((c - 192) * 256 + g (o + 1)) room (ptrs - 1)).map fun _ => o + 2
      else none

def endRecAt (g : Nat → Nat) (L o : Nat) : Option Nat :=
  bif Nat.ble L o then none else
  match g o with
  | 0 => bif Nat.ble (o + 6) L && Nat.ble (g (o + 5)) 64 && Nat.ble (o + 6 + g (o + 5)) L then some (o + 6 + g (o + 5)) else none
  | 1 => endNameAt g L 139 (o + 1) 255 10
  | 2 => (endNameAt g L 139 (o + 1) 255 10).bind fun e => bif Nat.ble (e + 4) L then some (e + 4) else none
  | 3 => (endNameAt g L 139 (o + 1) 255 10).bind fun e => bif Nat.ble (e + 16) L then some (e + 16) else none
  | 4 => bif Nat.ble (o + 5) L then some (o + 5) else none
  | 5 => bif Nat.ble (o + 17) L then some (o + 17) else none
  | _ => none

def quickAt (g : Nat → Nat) (L : Nat) : Nat → Nat → Bool
  | 0, o => Nat.beq o L
  | f + 1, o => bif Nat.beq o L then true else match endRecAt g L o with
    | none => false
    | some e => forced e fun e => quickAt g L f e

section
variable {g : Nat → Nat} {L : Nat} {d : List Nat} (hL : d.length = L) (hg : ∀ o, o < L → d[o]? = some (g o))
include hL hg

theorem drop_at {o : Nat} (h : o < L) : d.drop o = g o :: d.drop (o + 1) := by
  have h1 := hg o h
  have h2 : o < d.length := by omega
  rw [List.drop_eq_getElem_cons h2]
  rw [List.getElem?_eq_getElem h2] at h1
  rw [Option.some.inj h1]

theorem endNameAt_eq : ∀ f o room ptrs, endNameAt g L f o room ptrs = endName d f o room ptrs
  | 0, _, _, _ => rfl
  | f + 1, o, room, ptrs => by
    rw [endNameAt, endName]
    simp only [forced_eq]
    by_cases h : o < L
    · rw [drop_at hL hg h]
      have : Nat.ble L o = false := by rw [Bool.eq_false_iff, ne_eq, Nat.ble_eq]; omega
      rw [this]
      simp only [cond_false]
      have e1 : Nat.ble (o + 1 + g o) L = Nat.ble (g o) (d.drop (o + 1)).length := by
        rw [Bool.eq_iff_iff, Nat.ble_eq, Nat.ble_eq, List.length_drop]; omega
      rw [e1, endNameAt_eq f]
      congr 1
      congr 1
      congr 1
      by_cases h2 : o + 1 < L
      · rw [drop_at hL hg h2]
        have : Nat.ble L (o + 1) = false := by rw [Bool.eq_false_iff, ne_eq, Nat.ble_eq]; omega
        rw [this]
        simp only [cond_false]
        rw [endNameAt_eq f]
      · rw [List.drop_eq_nil_of_le (by omega)]
        have : Nat.ble L (o + 1) = true := by rw [Nat.ble_eq]; omega
        rw [this]
        rfl
    · rw [List.drop_eq_nil_of_le (by omega)]
      have : Nat.ble L o = true := by rw [Nat.ble_eq]; omega
      rw [this]
      rfl

theorem endRecAt_eq (o : Nat) {e : Nat} (h : endRecAt g L o = some e) : endRec d o = some e := by
  unfold endRecAt at h
  by_cases ho : o < L
  · have : Nat.ble L o = false := by rw [Bool.eq_false_iff, ne_eq, Nat.ble_eq]; omega
    rw [this, cond_false] at h
    unfold endRec
    have hd := drop_at hL hg ho
    split at h
    · rename_i h0
      cases hc : (Nat.ble (o + 6) L && Nat.ble (g (o + 5)) 64 && Nat.ble (o + 6 + g (o + 5)) L) with
      | false => rw [hc] at h; cases h
      | true =>
        rw [hc, cond_true] at h
        rw [Bool.and_eq_true, Bool.and_eq_true, Nat.ble_eq, Nat.ble_eq, Nat.ble_eq] at hc
        rw [hd, drop_at hL hg (show o + 1 < L by omega), drop_at hL hg (show o + 2 < L by omega), drop_at hL hg (show o + 3 < L by omega), drop_at hL hg (show o + 4 < L by omega),
          drop_at hL hg (show o + 5 < L by omega), h0]
        try dsimp only
        have : (Nat.ble (g (o + 5)) 64 && Nat.ble (g (o + 5)) (d.drop (o + 6)).length) = true := by
          rw [Bool.and_eq_true, Nat.ble_eq, Nat.ble_eq, List.length_drop]; omega
        show (bif Nat.ble (g (o + 5)) 64 && Nat.ble (g (o + 5)) (d.drop (o + 6)).length then some (o + 6 + g (o + 5)) else none) = some e
        rw [this]
        exact h
    all_goals first
      | cases h; done
      | rename_i h0
        rw [hd, h0]
        try dsimp only
        simp only [endNameAt_eq hL hg] at h
        rw [hL]
        exact h
      | rename_i h0
        rw [hd, h0]
        try dsimp only
        rw [endNameAt_eq hL hg] at h
        exact h
      | rename_i h0
        rw [hd, h0]
        try dsimp only
        rw [hL]
        exact h
  · have : Nat.ble L o = true := by rw [Nat.ble_eq]; omega
    rw [this] at h
    cases h

theorem quickAt_eq : ∀ (f o : Nat), quickAt g L f o = true → quick d f o = true
  | 0, o, h => by rw [quick, hL]; exact h
  | f + 1, o, h => by
    rw [quickAt] at h
    rw [quick, hL]
    cases hc : Nat.beq o L with
    | true => rfl
    | false =>
      rw [hc, cond_false] at h
      rw [cond_false]
      cases he : endRecAt g L o with
      | none => rw [he] at h; cases h
      | some e =>
        rw [he] at h
        rw [endRecAt_eq hL hg o he]
        simp only [forced_eq] at h ⊢
        exact quickAt_eq f e h

end

/-- How many bytes an entry has. -/
def countNat : Nat → Nat → Nat → Nat
  | 0, _, k => k
  | f + 1, n, k => bif Nat.blt n 256 then k else forced (Nat.div n 256) fun q => forced (Nat.succ k) fun k => countNat f q k

/-- The byte `j` places before the last. -/
def byteNat (n L o : Nat) : Nat := Nat.mod (Nat.shiftRight n (Nat.mul 8 (Nat.sub (Nat.sub L 1) o))) 256

def entryFast (n : Nat) : Bool :=
  forced (countNat 500 n 0) fun L => forced (Nat.sub L 2) fun L =>
    bif Nat.ble 1 L && Nat.beq (byteNat n L 0) 0 then quickAt (byteNat n L) L 200 1 else false

theorem unpackNat_append : ∀ (f n : Nat) (acc : List Nat), unpackNat f n acc = unpackNat f n [] ++ acc
  | 0, _, _ => rfl
  | f + 1, n, acc => by
    rw [unpackNat, unpackNat]
    simp only [forced_eq]
    cases Nat.blt n 256 with
    | true => rfl
    | false =>
      rw [cond_false, cond_false, unpackNat_append f _ (_ :: acc), unpackNat_append f _ [_]]
      simp

theorem countNat_eq : ∀ (f n k : Nat), countNat f n k = (unpackNat f n []).length + k
  | 0, _, _ => by simp [countNat, unpackNat]
  | f + 1, n, k => by
    rw [unpackNat, countNat]
    simp only [forced_eq]
    cases Nat.blt n 256 with
    | true => simp
    | false =>
      rw [cond_false, cond_false, unpackNat_append f _ [_], countNat_eq f]
      simp only [List.length_append, List.length_cons, List.length_nil]
      show (unpackNat f (n / 256) []).length + (k + 1) = _
      omega

theorem unpackNat_get : ∀ (f n o : Nat), o < (unpackNat f n []).length → (unpackNat f n [])[o]? = some (byteNat n (unpackNat f n []).length o)
  | 0, _, _, h => absurd h (Nat.not_lt_zero _)
  | f + 1, n, o, h => by
    rw [unpackNat] at h ⊢
    simp only [forced_eq] at h ⊢
    cases hb : Nat.blt n 256 with
    | true => rw [hb] at h; exact absurd h (Nat.not_lt_zero _)
    | false =>
      rw [hb] at h
      rw [cond_false, unpackNat_append f _ [_]] at h ⊢
      simp only [List.length_append, List.length_cons, List.length_nil] at h ⊢
      by_cases ho : o < (unpackNat f (n / 256) []).length
      · rw [List.getElem?_append_left ho, unpackNat_get f (n / 256) o ho]
        unfold byteNat
        show some ((n / 256) >>> (8 * ((unpackNat f (n / 256) []).length - 1 - o)) % 256) = some (n >>> (8 * ((unpackNat f (n / 256) []).length + (0 + 1) - 1 - o)) % 256)
        rw [Nat.shiftRight_eq_div_pow, Nat.shiftRight_eq_div_pow, Nat.div_div_eq_div_mul]
        have : 256 * 2 ^ (8 * ((unpackNat f (n / 256) []).length - 1 - o)) = 2 ^ (8 * ((unpackNat f (n / 256) []).length + (0 + 1) - 1 - o)) := by
          generalize (unpackNat f (n / 256) []).length = q at *
          rw [show 256 = 2 ^ 8 from rfl, ← Nat.pow_add]
          congr 1
          omega
        rw [this]
      · have : o = (unpackNat f (n / 256) []).length := by omega
        subst this
        rw [List.getElem?_append_right (Nat.le_refl _)]
        simp only [Nat.sub_self, List.getElem?_cons_zero]
        unfold byteNat
        show some (n % 256) = some (n >>> (8 * ((unpackNat f (n / 256) []).length + (0 + 1) - 1 - (unpackNat f (n / 256) []).length)) % 256)
        rw [show (unpackNat f (n / 256) []).length + (0 + 1) - 1 - (unpackNat f (n / 256) []).length = 0 by omega]
        rfl

theorem entryFast_ok {n : Nat} (h : entryFast n = true) : entryOk n = true := by
  unfold entryFast at h
  simp only [forced_eq] at h
  rw [countNat_eq] at h
  have key := unpackNat_get 500 n
  unfold entryOk
  generalize unpackNat 500 n [] = l at h key
  match l, h, key with
  | [], h, _ => cases h
  | [_], h, _ => cases h
  | [_, _], h, _ => cases h
  | a :: b :: c :: s, h, key =>
    have hL : Nat.sub ((a :: b :: c :: s).length + 0) 2 = (c :: s).length := rfl
    rw [hL] at h
    cases hc : (Nat.ble 1 (c :: s).length && Nat.beq (byteNat n (c :: s).length 0) 0) with
    | false => rw [hc] at h; cases h
    | true =>
      rw [hc, cond_true] at h
      rw [Bool.and_eq_true] at hc
      have h0 := Nat.eq_of_beq_eq_true hc.2
      have hg : ∀ o, o < (c :: s).length → (c :: s)[o]? = some (byteNat n (c :: s).length o) := by
        intro o ho
        have := key (o + 2) (by simp at ho ⊢; omega)
        rw [List.getElem?_cons_succ, List.getElem?_cons_succ] at this
        rw [this]
        unfold byteNat
        congr 3
        show 8 * ((c :: s).length + 1 + 1 - 1 - (o + 2)) = 8 * ((c :: s).length - 1 - o)
        omega
      have hc0 : c = 0 := by
        have := hg 0 (by simp)
        rw [h0] at this
        exact Option.some.inj this
      subst hc0
      exact quickAt_eq rfl hg 200 1 h

end Verif.Resource
