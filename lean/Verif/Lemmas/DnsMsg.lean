import Verif.Lemmas.DnsFit
import Verif.Spec.Dns
/-
Reading back what was written.
-/
namespace Verif.Dns
open Verif.Bio Verif.DnsName Verif.Spec.DnsName Verif.Spec.Dns

/-- What `g` writes, at most `n` bytes, is read by `rd` as `v`, in whatever message it
becomes part of; `tail` says that what follows may be read too. -/
def GoodAt {α : Type} (tail : Bool) (g : Wr) (n : Nat) (rd : Option Bytes → Bytes → Rd α) (v : α) (pre : Bytes) (t : Table) : Prop :=
    ∃ x t2, g pre.length t = .ok (x.length, x, t2) ∧ x.length ≤ n ∧ TableOk (pre ++ x) t2 ∧
      ∀ suf w, w <+: suf → (tail = false → w = []) → rd (some (pre ++ x ++ suf)) (x ++ w) = .ok (v, w)

def Good {α : Type} (k : Sink) (tail : Bool) (g : Wr) (n : Nat) (rd : Option Bytes → Bytes → Rd α) (v : α) : Prop :=
  ∀ pre t, 0 < pre.length → TableOk pre t → pre.length + n ≤ k.cap → GoodAt tail g n rd v pre t

theorem Good.weaken {α : Type} {k : Sink} {g : Wr} {n : Nat} {rd : Option Bytes → Bytes → Rd α} {v : α} (h : Good k true g n rd v) {tail : Bool} :
    Good k tail g n rd v := by
  intro pre t h1 h2 h3
  obtain ⟨x, t2, e1, e2, e3, e4⟩ := h pre t h1 h2 h3
  exact ⟨x, t2, e1, e2, e3, fun suf w hw _ => e4 suf w hw (by simp)⟩

theorem tableOk_append {pre : Bytes} {t : Table} (h : TableOk pre t) (x : Bytes) : TableOk (pre ++ x) t := fun s o hg => (h s o hg).append x

theorem good_bytes {α : Type} {k : Sink} {tail : Bool} {b : Bytes} {rd : Option Bytes → Bytes → Rd α} {v : α}
    (h : ∀ m w, (tail = false → w = []) → rd m (b ++ w) = .ok (v, w)) : Good k tail (wBytes (some k) b) b.length rd v := by
  intro pre t _ ht hc
  exact ⟨b, t, by simp [wBytes, hc], Nat.le_refl _, tableOk_append ht b, fun suf w _ hw => h _ w hw⟩

theorem goodAt_name {k : Sink} {ls : List Bytes} (hok : OkName ls) {pre : Bytes} {t : Table} (hl : ls.length ≤ 10 ∨ t = []) (hp : 0 < pre.length) (ht : TableOk pre t)
    (hc : pre.length + drySize (text ls) ≤ k.cap) : GoodAt true (wName (some k) (text ls)) (drySize (text ls)) parse (text ls) pre t := by
  rw [drySize_text hok] at hc ⊢
  obtain ⟨cap, cmp⟩ := k
  cases cmp with
  | false =>
    refine ⟨wire ls, t, ?_, Nat.le_refl _, tableOk_append ht _, fun suf w _ _ => parse_wire _ hok w⟩
    simp only [wName, Option.map_some]
    rw [serialize_plain hok t hc]
    rfl
  | true =>
    obtain ⟨x, t2, dd, e1, e2, e3, e4, e6, e5⟩ := serialize_cmp (cap := cap) rfl hp hok ht hc
    refine ⟨x, t2, ?_, e2, e5, ?_⟩
    · simp only [wName, Option.map_some]
      rw [e1]
      rfl
    · rintro suf w ⟨w', rfl⟩ _
      have := parse_at (e3.append (w ++ w')) (hl.elim (fun h => by omega) fun h => by have := e6 h; omega) hok (n := x.length + w.length) (by omega)
      have hw : (x ++ (w ++ w')).take (x.length + w.length) = x ++ w := by
        rw [← List.append_assoc]; exact List.take_left' (by simp)
      rw [List.append_assoc, List.drop_left, Nat.add_sub_cancel_left, hw, List.drop_left] at this
      rwa [List.append_assoc]

theorem good_name {k : Sink} {s : Bytes} (h : GoodName s) : Good k true (wName (some k) s) (drySize s) parse s := by
  obtain ⟨ls, hok, hl, rfl⟩ := h
  exact fun pre t hp ht hc => goodAt_name hok (.inl hl) hp ht hc

/-- One after another. -/
theorem GoodAt.seq {α β : Type} {k : Sink} {tail : Bool} {f g : Wr} {n m : Nat} {rd : Option Bytes → Bytes → Rd α} {rd' : α → Option Bytes → Bytes → Rd β}
    {v : α} {v' : β} {pre : Bytes} {t : Table} (hf : GoodAt true f n rd v pre t) (hg : Good k tail g m (rd' v) v') (hp : 0 < pre.length) (hc : pre.length + (n + m) ≤ k.cap) :
    GoodAt tail (wSeq f g) (n + m) (fun msg s => (rd msg s).bind fun a => rd' a.1 msg a.2) v' pre t := by
  obtain ⟨x, t2, e1, e2, e3, e4⟩ := hf
  obtain ⟨y, t3, f1, f2, f3, f4⟩ := hg (pre ++ x) t2 (by simp; omega) e3 (by simp; omega)
  refine ⟨x ++ y, t3, ?_, by simp; omega, by rwa [← List.append_assoc], ?_⟩
  · simp only [wSeq]
    rw [e1]
    simp only [Out.bind]
    rw [List.length_append] at f1
    rw [f1]
    simp
  · intro suf w hw hwt
    have h1 := e4 (y ++ suf) (y ++ w) ((List.prefix_append_right_inj y).2 hw) (by simp)
    have h2 := f4 suf w hw hwt
    have hM : pre ++ x ++ y ++ suf = pre ++ x ++ (y ++ suf) := by simp
    rw [hM] at h2
    rw [show pre ++ (x ++ y) ++ suf = pre ++ x ++ (y ++ suf) by simp, List.append_assoc x y w]
    simp only [h1, Out.bind, h2]

theorem Good.seq {α β : Type} {k : Sink} {tail : Bool} {f g : Wr} {n m : Nat} {rd : Option Bytes → Bytes → Rd α} {rd' : α → Option Bytes → Bytes → Rd β}
    {v : α} {v' : β} (hf : Good k true f n rd v) (hg : Good k tail g m (rd' v) v') :
    Good k tail (wSeq f g) (n + m) (fun msg s => (rd msg s).bind fun a => rd' a.1 msg a.2) v' :=
  fun pre t hp ht hc => (hf pre t hp ht (by omega)).seq hg hp hc

theorem Good.map {α β : Type} {k : Sink} {tail : Bool} {g : Wr} {n : Nat} {rd : Option Bytes → Bytes → Rd α} {v : α} (h : Good k tail g n rd v) (c : α → β) :
    Good k tail g n (fun m s => (rd m s).bind fun a => .ok (c a.1, a.2)) (c v) := by
  intro pre t hp ht hc
  obtain ⟨x, t2, e1, e2, e3, e4⟩ := h pre t hp ht hc
  exact ⟨x, t2, e1, e2, e3, fun suf w hw hwt => by simp only [e4 suf w hw hwt, Out.bind]⟩

theorem good_u16 {k : Sink} {n : Nat} (h : n < 65536) : Good k true (wBytes (some k) (writeU16be n)) 2 (fun _ => readU16be) n := by
  have := good_bytes (k := k) (tail := true) (b := writeU16be n) (rd := fun _ => readU16be) (v := n) (fun _ w _ => readU16be_append h)
  rwa [be_length] at this

theorem good_u32 {k : Sink} {n : Nat} (h : n < 4294967296) : Good k true (wBytes (some k) (writeU32be n)) 4 (fun _ => readU32be) n := by
  have := good_bytes (k := k) (tail := true) (b := writeU32be n) (rd := fun _ => readU32be) (v := n) (fun _ w _ => readU32be_append h)
  rwa [u32_length] at this

theorem good_u8 {k : Sink} {n : Nat} (h : n < 256) : Good k true (wBytes (some k) (writeU8 n)) 1 (fun _ => readU8) n := by
  have := good_bytes (k := k) (tail := true) (b := writeU8 n) (rd := fun _ => readU8) (v := n) (fun _ w _ => readU8_append h)
  rwa [u8_length] at this

/-- A string with its length. -/
theorem txt_read {b : Bytes} (h : b.length ≤ 255) (w : Bytes) :
    ((readU8 (writeU8 b.length ++ b ++ w)).bind fun n => readBytes n.1 n.2) = .ok (b, w) := by
  rw [List.append_assoc, writeU8, readU8_append (by omega)]
  simp only [Out.bind]
  exact readBytes_append' rfl

theorem txt_bytes {k : Sink} (b : Bytes) :
    wSeq (wBytes (some k) (writeU8 b.length)) (wBytes (some k) b) = wBytes (some k) (writeU8 b.length ++ b) := by
  funext off t
  simp only [wSeq, wBytes, u8_length]
  by_cases h : off + 1 ≤ k.cap
  · rw [if_pos h]
    simp only [Out.bind, u8_length]
    by_cases h2 : off + 1 + b.length ≤ k.cap
    · rw [if_pos h2, if_pos (by simp [u8_length]; omega)]
      simp [u8_length]
    · rw [if_neg h2, if_neg (by simp [u8_length]; omega)]
  · rw [if_neg h, if_neg (by simp [u8_length]; omega)]
    rfl

def txtsBytes (ts : List Bytes) : Bytes := (ts.map fun b => writeU8 b.length ++ b).flatten

theorem wSeq_bytes {k : Sink} (a b : Bytes) : wSeq (wBytes (some k) a) (wBytes (some k) b) = wBytes (some k) (a ++ b) := by
  funext off t
  simp only [wSeq, wBytes]
  by_cases h : off + a.length ≤ k.cap
  · rw [if_pos h]
    simp only [Out.bind]
    by_cases h2 : off + a.length + b.length ≤ k.cap
    · rw [if_pos h2, if_pos (by simp; omega)]
      simp
    · rw [if_neg h2, if_neg (by simp; omega)]
  · rw [if_neg h, if_neg (by simp; omega)]
    rfl

theorem wAll_txts {k : Sink} (ts : List Bytes) (off : Nat) (t : Table) (h : off + (txtsBytes ts).length ≤ k.cap) :
    wAll (ts.map fun b => wSeq (wBytes (some k) (writeU8 b.length)) (wBytes (some k) b)) off t = .ok ((txtsBytes ts).length, txtsBytes ts, t) := by
  induction ts generalizing off with
  | nil => rfl
  | cons b ts ih =>
    have he : txtsBytes (b :: ts) = writeU8 b.length ++ b ++ txtsBytes ts := by simp [txtsBytes]
    rw [he] at h ⊢
    simp only [List.length_append] at h
    rw [List.map_cons, wAll, txt_bytes]
    simp only [wSeq, wBytes]
    rw [if_pos (by simp; omega)]
    simp only [Out.bind]
    rw [ih _ (by simp; omega)]
    simp [Nat.add_assoc]

theorem readTxts_write (ts : List Bytes) (h : ∀ b ∈ ts, b.length ≤ 255) : ∀ (fuel : Nat) (acc : List Bytes), acc.length + ts.length ≤ 255 →
    (txtsBytes ts).length ≤ fuel → readTxts fuel (txtsBytes ts) acc = .ok (acc ++ ts, []) := by
  induction ts with
  | nil => intro fuel acc _ _; cases fuel <;> simp [readTxts, txtsBytes]
  | cons b ts ih =>
    intro fuel acc ha hf
    have he : txtsBytes (b :: ts) = writeU8 b.length ++ b ++ txtsBytes ts := by simp [txtsBytes]
    rw [he] at hf ⊢
    simp only [List.length_append, u8_length] at hf
    cases fuel with
    | zero => omega
    | succ fuel =>
      rw [readTxts, if_pos (by simp only [List.length_append, u8_length]; omega)]
      have hb := h b List.mem_cons_self
      rw [List.append_assoc, writeU8, readU8_append (by omega)]
      simp only [Out.bind]
      rw [readBytes_append' rfl]
      dsimp only
      simp only [List.length_cons] at ha
      rw [if_neg (by omega), ih (fun x hx => h x (List.mem_cons_of_mem _ hx)) fuel _ (by simp; omega) (by omega)]
      simp

/-! ### Fields -/

def greedy : Field → Bool
  | .rest | .txts => true
  | _ => false

theorem size_eq {f : Field} {v : Val} (h : GoodVal f v) : fieldSize f v = valSize f v := by
  cases f <;> cases v <;> simp only [GoodVal] at h <;> try rfl
  obtain ⟨ls, hok, _, rfl⟩ := h
  simp only [fieldSize, valSize]
  rw [drySize_text hok, wire_length]
  by_cases hls : ls = []
  · subst hls; rfl
  · have h2 := two_le_body' hok.1 hls
    have : text ls = body ls := by unfold text; rw [if_neg hls]
    rw [this, if_neg]
    intro e
    rw [e] at h2
    simp at h2

theorem sizes_eq {fs : List Field} {vs : List Val} (h : GoodVals fs vs) : fieldsSize fs vs = valsSize fs vs := by
  induction fs generalizing vs with
  | nil => rfl
  | cons f fs ih =>
    cases vs with
    | nil => rfl
    | cons v vs => simp only [fieldsSize, valsSize]; rw [size_eq h.1, ih h.2]

theorem good_field {k : Sink} {f : Field} {v : Val} (h : GoodVal f v) : Good k (!greedy f) (wField (some k) f v) (fieldSize f v) (fun m => readField m f) v := by
  cases f <;> cases v <;> simp only [GoodVal] at h
  · exact (good_u8 h).map Val.num
  · exact (good_u16 h).map Val.num
  · exact (good_u32 h).map Val.num
  · exact (good_name h).map Val.name
  · rename_i n b
    simp only [wField, fieldSize]
    have := good_bytes (k := k) (tail := true) (b := b) (rd := fun m => readField m (.fixed n)) (v := .bytes b) (fun _ w _ => by
      simp only [readField]; rw [readBytes_append' h]; rfl)
    rw [h] at this
    rwa [List.take_of_length_le (by omega)]
  · rename_i b
    refine good_bytes (k := k) fun _ w hw => ?_
    rw [hw rfl, List.append_nil]
    simp only [readField]
    have := readBytes_append b []
    rw [List.append_nil] at this
    rw [this]
    rfl
  · rename_i ts
    intro pre t hp ht hc
    have hsz : (txtsBytes ts).length = fieldSize .txts (.txts ts) := by
      simp only [fieldSize, txtsBytes, List.length_flatten, List.map_map]
      congr 2
      funext b
      simp [u8_length]
    rw [← hsz] at hc ⊢
    refine ⟨txtsBytes ts, t, wAll_txts ts _ t hc, Nat.le_refl _, tableOk_append ht _, ?_⟩
    intro suf w _ hw
    rw [hw rfl, List.append_nil]
    simp only [readField]
    rw [readTxts_write ts h.2 _ [] (by simpa using h.1) (Nat.le_refl _)]
    rfl
  · rename_i b
    simp only [wField, txt_bytes, fieldSize]
    have := good_bytes (k := k) (tail := true) (b := writeU8 b.length ++ b) (rd := fun m => readField m .data8) (v := .bytes b) (fun _ w _ => by
      simp only [readField]
      have := txt_read h w
      rw [List.append_assoc, writeU8, readU8_append (by omega)] at this ⊢
      simp only [Out.bind] at this ⊢
      rw [this])
    rwa [List.length_append, u8_length] at this

/-- Fields that read everything come last. -/
def greedyLast : List Field → Bool
  | [] => true
  | [_] => true
  | f :: fs => !greedy f && greedyLast fs

theorem good_fields {k : Sink} {fs : List Field} {vs : List Val} (h : GoodVals fs vs) (hg : greedyLast fs = true) :
    Good k false (wFields (some k) fs vs) (fieldsSize fs vs) (fun m => readFields m fs) vs := by
  induction fs generalizing vs with
  | nil =>
    cases vs with
    | nil =>
      intro pre t _ ht _
      exact ⟨[], t, rfl, Nat.le_refl _, tableOk_append ht _, fun suf w _ _ => rfl⟩
    | cons v vs => cases h
  | cons f fs ih =>
    cases vs with
    | nil => cases h
    | cons v vs =>
      cases fs with
      | nil =>
        cases vs with
        | cons v' vs => exact absurd h.2 (by simp [GoodVals])
        | nil =>
          intro pre t hp ht hc
          simp only [fieldsSize, Nat.add_zero] at hc ⊢
          obtain ⟨x, t2, e1, e2, e3, e4⟩ := (good_field (k := k) h.1) pre t hp ht hc
          refine ⟨x, t2, ?_, e2, e3, ?_⟩
          · simp only [wFields, wSeq]
            rw [e1]
            simp [Out.bind, wNone]
          · intro suf w hw hwt
            have : readField (some (pre ++ x ++ suf)) f (x ++ w) = .ok (v, w) := e4 suf w hw (fun _ => hwt rfl)
            simp only [readFields]
            rw [this]
            rfl
      | cons f' fs =>
        simp only [greedyLast, Bool.and_eq_true, Bool.not_eq_true'] at hg
        have h1 := good_field (k := k) h.1
        rw [hg.1] at h1
        exact h1.seq ((ih h.2 hg.2).map (List.cons v)) (rd' := fun a m s => (readFields m (f' :: fs) s).bind fun vs => .ok (a :: vs.1, vs.2))

theorem layout_eq (type : Nat) : writeLayout type = readLayout type := rfl

theorem if_pd {p : Prop} [Decidable p] {a b : List Field} (ha : greedyLast a = true) (hb : greedyLast b = true) :
    greedyLast (if p then a else b) = true := by
  split <;> assumption

theorem greedyLast_layout (type : Nat) : greedyLast (readLayout type) = true := by
  unfold readLayout
  iterate 21 refine if_pd rfl ?_
  rfl

/-! ### Records -/

theorem good_len {α β : Type} {k : Sink} {g : Wr} {n : Nat} (hn : n < 65536) {rd : Option Bytes → Bytes → Rd α} {v : α} (h : Good k false g n rd v) {c : α → β} :
    Good k true (wLen (some k) g) (2 + n) (fun msg s => (readU16be s).bind fun q => if q.2.length < q.1 then .err () else
      (memSlice q.2 0 q.1).bind fun w => (rd msg w).bind fun a => .ok (c a.1, q.2.drop q.1)) (c v) := by
  intro pre t hp ht hc
  obtain ⟨x, t2, e1, e2, -, -⟩ := h (pre ++ [0, 0]) t (by simp) (tableOk_append ht _) (by simp; omega)
  obtain ⟨x', t2', e1', -, e3, e4⟩ := h (pre ++ writeU16be x.length) t (by simp [be_length]) (tableOk_append ht _) (by simp [be_length]; omega)
  simp only [List.length_append, be_length, List.length_cons, List.length_nil] at e1 e1'
  rw [e1] at e1'
  have hx := Out.ok.inj e1'
  simp only [Prod.mk.injEq] at hx
  obtain ⟨-, rfl, rfl⟩ := hx
  refine ⟨writeU16be x.length ++ x, t2, ?_, by simp [be_length]; omega, by rwa [← List.append_assoc], ?_⟩
  · simp only [wLen]
    rw [e1]
    simp only [Out.bind, wBytes, be_length]
    rw [if_pos (by omega)]
    simp [be_length]
  · intro suf w hw _
    have := e4 suf [] (List.nil_prefix) (by simp)
    rw [List.append_nil, show pre ++ writeU16be x.length ++ x ++ suf = pre ++ (writeU16be x.length ++ x) ++ suf by simp] at this
    have hr : readU16be (writeU16be x.length ++ x ++ w) = .ok (x.length, x ++ w) := by
      rw [List.append_assoc]; exact readU16be_append (by omega)
    simp only [hr, Out.bind]
    rw [if_neg (by simp), memSlice_ok (by simp)]
    simp only [List.drop_zero, List.take_left, this, List.drop_left]

theorem goodName_sane {s : Bytes} (h : GoodName s) : Sane s := by
  obtain ⟨ls, hok, _, rfl⟩ := h
  exact sane_of_okName hok

theorem good_qs {k : Sink} {q : Qs} (h : GoodQs q) : Good k true (wQs (some k) q) (qsSize q) readQs q := by
  have := (good_name (k := k) h.name).seq (rd' := fun n _ s => (readU16be s).bind fun t => (readU16be t.2).bind fun c => .ok ((⟨n, t.1, c.1⟩ : Qs), c.2))
    ((good_u16 h.type).seq (rd' := fun t _ s => (readU16be s).bind fun c => .ok ((⟨q.name, t, c.1⟩ : Qs), c.2)) ((good_u16 h.cls).map (Qs.mk q.name q.type)))
  exact this

theorem good_qs_first {k : Sink} {q : Qs} (h : FirstQs q) {pre : Bytes} (hp : 0 < pre.length) (ht : TableOk pre []) (hc : pre.length + qsSize q ≤ k.cap) :
    GoodAt true (wQs (some k) q) (qsSize q) readQs q pre [] := by
  obtain ⟨ls, hok, hn⟩ := h.name
  have hq : qsSize q = drySize q.name + (2 + 2) := rfl
  rw [hq] at hc
  have h1 := goodAt_name (k := k) hok (.inr rfl) hp ht (by rw [hn] at hc; omega)
  rw [← hn] at h1
  have := h1.seq (k := k) (rd' := fun n _ s => (readU16be s).bind fun t => (readU16be t.2).bind fun c => .ok ((⟨n, t.1, c.1⟩ : Qs), c.2))
    ((good_u16 h.type).seq (rd' := fun t _ s => (readU16be s).bind fun c => .ok ((⟨q.name, t, c.1⟩ : Qs), c.2)) ((good_u16 h.cls).map (Qs.mk q.name q.type))) hp hc
  exact this

theorem good_rr {k : Sink} {r : Rr} (h : GoodRr r) : Good k true (wRr (some k) r) (rrSize r) readRr r := by
  obtain ⟨vs, hvs, hg, hsz⟩ := h.rd
  have hrd := good_len (k := k) (c := fun v => (⟨r.name, r.type, r.cls, r.ttl, some v⟩ : Rr)) (by rw [← sizes_eq hg] at hsz; exact hsz)
    (good_fields (k := k) hg (greedyLast_layout _))
  have := (good_name (k := k) h.name).seq (rd' := fun n m s => (readU16be s).bind fun t => (readU16be t.2).bind fun c => (readU32be c.2).bind fun l =>
      (readU16be l.2).bind fun k => if k.2.length < k.1 then .err ()
      else (memSlice k.2 0 k.1).bind fun w => (readRd m t.1 w).bind fun v => .ok ((⟨n, t.1, c.1, l.1, some v.1⟩ : Rr), k.2.drop k.1))
    ((good_u16 h.type).seq (rd' := fun t m s => (readU16be s).bind fun c => (readU32be c.2).bind fun l =>
      (readU16be l.2).bind fun k => if k.2.length < k.1 then .err ()
      else (memSlice k.2 0 k.1).bind fun w => (readRd m t w).bind fun v => .ok ((⟨r.name, t, c.1, l.1, some v.1⟩ : Rr), k.2.drop k.1))
    ((good_u16 h.cls).seq (rd' := fun c m s => (readU32be s).bind fun l =>
      (readU16be l.2).bind fun k => if k.2.length < k.1 then .err ()
      else (memSlice k.2 0 k.1).bind fun w => (readRd m r.type w).bind fun v => .ok ((⟨r.name, r.type, c, l.1, some v.1⟩ : Rr), k.2.drop k.1))
    ((good_u32 h.ttl).seq (rd' := fun l m s =>
      (readU16be s).bind fun k => if k.2.length < k.1 then .err ()
      else (memSlice k.2 0 k.1).bind fun w => (readRd m r.type w).bind fun v => .ok ((⟨r.name, r.type, r.cls, l, some v.1⟩ : Rr), k.2.drop k.1))
    hrd)))
  have hs : rrSize r = drySize r.name + (2 + (2 + (4 + (2 + fieldsSize (readLayout r.type) vs)))) := by
    rw [rrSize, rdSize, hvs]
    simp only [layout_eq]
    omega
  have hw : wRr (some k) r = wSeq (wName (some k) r.name) (wSeq (wBytes (some k) (writeU16be r.type)) (wSeq (wBytes (some k) (writeU16be r.cls))
        (wSeq (wBytes (some k) (writeU32be r.ttl)) (wLen (some k) (wFields (some k) (readLayout r.type) vs))))) := by
    unfold wRr
    rw [hvs]
    rfl
  have hr : r = ⟨r.name, r.type, r.cls, r.ttl, some vs⟩ := by rw [← hvs]
  rw [hs, hw]
  rw [← hr] at this
  exact this

/-! ### Questions and records in a row -/

abbrev Item := Qs ⊕ Rr

def wItem (d : Option Sink) : Item → Wr
  | .inl q => wQs d q
  | .inr r => wRr d r

def readItem (msg : Option Bytes) : Item → Bytes → Bytes → Prop
  | .inl q, s, s' => readQs msg s = .ok (q, s')
  | .inr r, s, s' => readRr msg s = .ok (r, s')

def GoodItem : Item → Prop
  | .inl q => GoodQs q
  | .inr r => GoodRr r

def itemSize : Item → Nat
  | .inl q => qsSize q
  | .inr r => rrSize r

inductive Reads (msg : Option Bytes) : List Item → Bytes → Bytes → Prop
  | nil {s : Bytes} : Reads msg [] s s
  | cons {i : Item} {l : List Item} {s s1 s2 : Bytes} (h : readItem msg i s s1) (hr : Reads msg l s1 s2) : Reads msg (i :: l) s s2

theorem Reads.append {msg : Option Bytes} {a b : List Item} {s s1 s2 : Bytes} (h : Reads msg a s s1) (h' : Reads msg b s1 s2) : Reads msg (a ++ b) s s2 := by
  induction h with
  | nil => exact h'
  | cons h _ ih => exact .cons h (ih h')

theorem Reads.split {msg : Option Bytes} {a b : List Item} {s s2 : Bytes} (h : Reads msg (a ++ b) s s2) : ∃ s1, Reads msg a s s1 ∧ Reads msg b s1 s2 := by
  induction a generalizing s with
  | nil => exact ⟨s, .nil, h⟩
  | cons i a ih =>
    cases h with
    | cons h hr =>
      obtain ⟨s1, h1, h2⟩ := ih hr
      exact ⟨s1, .cons h h1, h2⟩

theorem good_item {k : Sink} {i : Item} (h : GoodItem i) (pre : Bytes) (t : Table) (hp : 0 < pre.length) (ht : TableOk pre t) (hc : pre.length + itemSize i ≤ k.cap) :
    ∃ x t2, wItem (some k) i pre.length t = .ok (x.length, x, t2) ∧ x.length ≤ itemSize i ∧ TableOk (pre ++ x) t2 ∧
      ∀ suf w, w <+: suf → readItem (some (pre ++ x ++ suf)) i (x ++ w) w := by
  cases i with
  | inl q =>
    obtain ⟨x, t2, e1, e2, e3, e4⟩ := good_qs (k := k) h pre t hp ht hc
    exact ⟨x, t2, e1, e2, e3, fun suf w hw => e4 suf w hw (by simp)⟩
  | inr r =>
    obtain ⟨x, t2, e1, e2, e3, e4⟩ := good_rr (k := k) h pre t hp ht hc
    exact ⟨x, t2, e1, e2, e3, fun suf w hw => e4 suf w hw (by simp)⟩

theorem good_items {k : Sink} {l : List Item} (h : ∀ i ∈ l, GoodItem i) (pre : Bytes) (t : Table) (hp : 0 < pre.length) (ht : TableOk pre t)
    (hc : pre.length + (l.map itemSize).sum ≤ k.cap) :
    ∃ x t2, wAll (l.map (wItem (some k))) pre.length t = .ok (x.length, x, t2) ∧ x.length ≤ (l.map itemSize).sum ∧ TableOk (pre ++ x) t2 ∧
      ∀ suf w, w <+: suf → Reads (some (pre ++ x ++ suf)) l (x ++ w) w := by
  induction l generalizing pre t with
  | nil => exact ⟨[], t, rfl, Nat.le_refl _, tableOk_append ht _, fun suf w _ => .nil⟩
  | cons i l ih =>
    simp only [List.map_cons, List.sum_cons] at hc ⊢
    obtain ⟨x, t2, e1, e2, e3, e4⟩ := good_item (k := k) (h i List.mem_cons_self) pre t hp ht (by omega)
    obtain ⟨y, t3, f1, f2, f3, f4⟩ := ih (fun j hj => h j (List.mem_cons_of_mem _ hj)) (pre ++ x) t2 (by simp; omega) e3 (by simp; omega)
    refine ⟨x ++ y, t3, ?_, by simp; omega, by rwa [← List.append_assoc], ?_⟩
    · simp only [wAll, wSeq]
      rw [e1]
      simp only [Out.bind]
      rw [List.length_append] at f1
      rw [f1]
      simp
    · intro suf w hw
      have h1 := e4 (y ++ suf) (y ++ w) ((List.prefix_append_right_inj y).2 hw)
      have h2 := f4 suf w hw
      have hM : pre ++ x ++ y ++ suf = pre ++ x ++ (y ++ suf) := by simp
      rw [hM] at h2
      rw [show pre ++ (x ++ y) ++ suf = pre ++ x ++ (y ++ suf) by simp, List.append_assoc x y w]
      exact .cons h1 h2

def FirstItem : Item → Prop
  | .inl q => FirstQs q
  | .inr r => GoodRr r

theorem GoodItem.first {i : Item} (h : GoodItem i) : FirstItem i := by
  cases i with
  | inl q =>
    obtain ⟨ls, h1, -, h3⟩ := h.name
    exact ⟨⟨ls, h1, h3⟩, h.type, h.cls⟩
  | inr r => exact h

/-- Items that can be written one after another into a message. -/
def GoodList (l : List Item) : Prop := (∀ i ∈ l.take 1, FirstItem i) ∧ ∀ i ∈ l.drop 1, GoodItem i

theorem goodList_of_all {l : List Item} (h : ∀ i ∈ l, GoodItem i) : GoodList l :=
  ⟨fun i hi => (h i (List.mem_of_mem_take hi)).first, fun i hi => h i (List.mem_of_mem_drop hi)⟩

theorem GoodList.left {a b : List Item} (h : GoodList (a ++ b)) : GoodList a := by
  cases a with
  | nil => exact ⟨by simp, by simp⟩
  | cons i a =>
    refine ⟨by simpa using h.1, fun j hj => h.2 j ?_⟩
    simp only [List.drop_succ_cons, List.drop_zero, List.cons_append, List.mem_append] at hj ⊢
    exact .inl hj

/-- The first one, without a table. -/
theorem good_first {k : Sink} {i : Item} (h : FirstItem i) (pre : Bytes) (hp : 0 < pre.length) (ht : TableOk pre []) (hc : pre.length + itemSize i ≤ k.cap) :
    ∃ x t2, wItem (some k) i pre.length [] = .ok (x.length, x, t2) ∧ x.length ≤ itemSize i ∧ TableOk (pre ++ x) t2 ∧
      ∀ suf w, w <+: suf → readItem (some (pre ++ x ++ suf)) i (x ++ w) w := by
  cases i with
  | inl q =>
    obtain ⟨x, t2, e1, e2, e3, e4⟩ := good_qs_first (k := k) h hp ht hc
    exact ⟨x, t2, e1, e2, e3, fun suf w hw => e4 suf w hw (by simp)⟩
  | inr r => exact good_item (i := .inr r) h pre [] hp ht hc

theorem good_list {k : Sink} {l : List Item} (h : GoodList l) (pre : Bytes) (hp : 0 < pre.length) (ht : TableOk pre [])
    (hc : pre.length + (l.map itemSize).sum ≤ k.cap) :
    ∃ x t2, wAll (l.map (wItem (some k))) pre.length [] = .ok (x.length, x, t2) ∧ x.length ≤ (l.map itemSize).sum ∧ TableOk (pre ++ x) t2 ∧
      ∀ suf w, w <+: suf → Reads (some (pre ++ x ++ suf)) l (x ++ w) w := by
  cases l with
  | nil => exact ⟨[], [], rfl, Nat.le_refl _, tableOk_append ht _, fun suf w _ => .nil⟩
  | cons i l =>
    simp only [List.map_cons, List.sum_cons] at hc ⊢
    obtain ⟨x, t2, e1, e2, e3, e4⟩ := good_first (k := k) (h.1 i (by simp)) pre hp ht (by omega)
    obtain ⟨y, t3, f1, f2, f3, f4⟩ := good_items (k := k) (l := l) (fun j hj => h.2 j (by simpa using hj)) (pre ++ x) t2 (by simp; omega) e3 (by simp; omega)
    refine ⟨x ++ y, t3, ?_, by simp; omega, by rwa [← List.append_assoc], ?_⟩
    · simp only [wAll, wSeq]
      rw [e1]
      simp only [Out.bind]
      rw [List.length_append] at f1
      rw [f1]
      simp
    · intro suf w hw
      have h1 := e4 (y ++ suf) (y ++ w) ((List.prefix_append_right_inj y).2 hw)
      have h2 := f4 suf w hw
      have hM : pre ++ x ++ y ++ suf = pre ++ x ++ (y ++ suf) := by simp
      rw [hM] at h2
      rw [show pre ++ (x ++ y) ++ suf = pre ++ x ++ (y ++ suf) by simp, List.append_assoc x y w]
      exact .cons h1 h2

theorem wSeq_assoc (f g h : Wr) : wSeq (wSeq f g) h = wSeq f (wSeq g h) := by
  funext off t
  simp only [wSeq]
  cases f off t with
  | err e => rfl
  | ub => rfl
  | ok a =>
    simp only [Out.bind]
    cases g (off + a.2.1.length) a.2.2 with
    | err e => rfl
    | ub => rfl
    | ok b =>
      simp only [Out.bind, List.length_append]
      rw [← Nat.add_assoc]
      cases h (off + a.2.1.length + b.2.1.length) b.2.2 with
      | err e => rfl
      | ub => rfl
      | ok c => simp [Nat.add_assoc]

theorem wAll_append (a b : List Wr) : wAll (a ++ b) = wSeq (wAll a) (wAll b) := by
  induction a with
  | nil =>
    funext off t
    simp only [List.nil_append, wAll, wSeq, wNone, Out.bind, Nat.add_zero]
    cases wAll b off t with
    | err e => rfl
    | ub => rfl
    | ok c => simp
  | cons f a ih => rw [List.cons_append, wAll, wAll, ih, wSeq_assoc]

def items (m : Msg) : List Item := m.qd.map .inl ++ (m.an.map .inr ++ (m.ns.map .inr ++ (m.ar.map .inr ++ (optRr m).toList.map .inr)))

theorem wMsg_items (d : Option Sink) (m : Msg) : wMsg d m = wSeq (wBytes d (header m)) (wAll ((items m).map (wItem d))) := by
  unfold wMsg items
  simp only [List.map_append, List.map_map, wAll_append]
  rfl

theorem sizeOf_items (m : Msg) : sizeOf m = 12 + ((items m).map itemSize).sum := by
  unfold sizeOf items
  simp only [List.map_append, List.map_map, List.sum_append]
  rfl

/-! ### Reading of a whole message -/

theorem item_ne {msg : Option Bytes} {i : Item} {s s' : Bytes} (h : readItem msg i s s') : s.length ≠ 0 := by
  intro hs
  have : s = [] := List.length_eq_zero_iff.1 hs
  subst this
  have hp : parse msg [] = .err () := rfl
  cases i <;> simp only [readItem, readQs, readRr] at h <;> rw [hp] at h <;> cases h

theorem readSection_qs {msg : Option Bytes} {l : List Qs} {s s' : Bytes} (h : Reads msg (l.map .inl) s s') (acc : List Qs) (hl : acc.length + l.length ≤ 255) :
    readSection (readQs msg) l.length s acc = .ok (acc ++ l, s') := by
  induction l generalizing s acc with
  | nil => cases h; simp [readSection]
  | cons q l ih =>
    cases h with
    | cons h hr =>
      simp only [List.length_cons] at hl ⊢
      rw [readSection, if_neg (item_ne h)]
      simp only [readItem] at h
      rw [h]
      simp only [Out.bind, push]
      rw [if_neg (by omega), ih hr _ (by simp; omega)]
      simp

theorem readSection_rr {msg : Option Bytes} {l : List Rr} {s s' : Bytes} (h : Reads msg (l.map .inr) s s') (acc : List Rr) (hl : acc.length + l.length ≤ 255) :
    readSection (readRr msg) l.length s acc = .ok (acc ++ l, s') := by
  induction l generalizing s acc with
  | nil => cases h; simp [readSection]
  | cons q l ih =>
    cases h with
    | cons h hr =>
      simp only [List.length_cons] at hl ⊢
      rw [readSection, if_neg (item_ne h)]
      simp only [readItem] at h
      rw [h]
      simp only [Out.bind, push]
      rw [if_neg (by omega), ih hr _ (by simp; omega)]
      simp

theorem readExtra_rr {msg : Option Bytes} {l : List Rr} {s s' : Bytes} (h : Reads msg (l.map .inr) s s') (e : Extra) :
    readExtra (readRr msg) l.length s e = .ok (l.foldl addExtra e, s') := by
  induction l generalizing s e with
  | nil => cases h; rfl
  | cons q l ih =>
    cases h with
    | cons h hr =>
      simp only [List.length_cons]
      rw [readExtra, if_neg (item_ne h)]
      simp only [readItem] at h
      rw [h]
      simp only [Out.bind]
      rw [ih hr]
      rfl

theorem foldl_plain (l : List Rr) (h : ∀ r ∈ l, r.type ≠ 41) (e : Extra) (hl : e.ar.length + l.length ≤ 255) :
    l.foldl addExtra e = { e with ar := e.ar ++ l } := by
  induction l generalizing e with
  | nil => simp
  | cons r l ih =>
    rw [List.length_cons] at hl
    rw [List.foldl_cons, addExtra, if_neg (by have := h r List.mem_cons_self; exact this), push, if_neg (by omega), ih (fun r hr => h r (List.mem_cons_of_mem _ hr)) _ (by simp; omega)]
    simp

def head6 (a b c d e f : Nat) : Bytes := writeU16be a ++ writeU16be b ++ writeU16be c ++ writeU16be d ++ writeU16be e ++ writeU16be f

theorem decode_of_reads {id fl : Nat} {qd : List Qs} {an ns ar : List Rr} {x s' : Bytes} (hid : id < 65536) (hfl : fl < 65536)
    (hq : qd.length ≤ 255) (ha : an.length ≤ 255) (hn : ns.length ≤ 255) (hr : ar.length < 65536)
    (h : Reads (some (head6 id fl qd.length an.length ns.length ar.length ++ x)) (qd.map .inl ++ (an.map .inr ++ (ns.map .inr ++ ar.map .inr))) x s') :
    decode (head6 id fl qd.length an.length ns.length ar.length ++ x) =
      .ok ⟨id, fl / 2048 % 16, (ar.foldl addExtra ⟨[], ednsInit, fl % 16⟩).code, fl, qd, an, ns, (ar.foldl addExtra ⟨[], ednsInit, fl % 16⟩).ar,
        (ar.foldl addExtra ⟨[], ednsInit, fl % 16⟩).edns⟩ := by
  obtain ⟨s1, h1, h⟩ := h.split
  obtain ⟨s2, h2, h⟩ := h.split
  obtain ⟨s3, h3, h4⟩ := h.split
  have r1 := readSection_qs h1 [] (by simpa using hq)
  have r2 := readSection_rr h2 [] (by simpa using ha)
  have r3 := readSection_rr h3 [] (by simpa using hn)
  have r4 := readExtra_rr h4 ⟨[], ednsInit, fl % 16⟩
  rw [List.nil_append] at r1 r2 r3
  generalize hM : head6 id fl qd.length an.length ns.length ar.length ++ x = M at *
  have c1 : readU16be M = .ok (id, writeU16be fl ++ (writeU16be qd.length ++ (writeU16be an.length ++ (writeU16be ns.length ++ (writeU16be ar.length ++ x))))) := by
    rw [← hM]; simp only [head6, List.append_assoc]; exact readU16be_append hid
  have c2 := readU16be_append (v := fl) (r := writeU16be qd.length ++ (writeU16be an.length ++ (writeU16be ns.length ++ (writeU16be ar.length ++ x)))) hfl
  have c3 := readU16be_append (v := qd.length) (r := writeU16be an.length ++ (writeU16be ns.length ++ (writeU16be ar.length ++ x))) (by omega)
  have c4 := readU16be_append (v := an.length) (r := writeU16be ns.length ++ (writeU16be ar.length ++ x)) (by omega)
  have c5 := readU16be_append (v := ns.length) (r := writeU16be ar.length ++ x) (by omega)
  have c6 := readU16be_append (v := ar.length) (r := x) (by omega)
  simp only [writeU16be] at c1 c2 c3 c4 c5
  unfold decode
  simp only [c1, c2, c3, c4, c5, c6, r1, r2, r3, r4, Out.bind]

/-! ### Writing of a whole message -/

theorem goodRr_opt {m : Msg} (h : GoodMsg m) {r : Rr} (hr : r ∈ (optRr m).toList) : GoodRr r := by
  have he := h.edns
  unfold optRr at hr
  dsimp only at hr
  split at hr
  · simp only [Option.toList_some, List.mem_singleton] at hr
    have key : m.edns.version < 256 ∧ m.edns.flags < 65536 ∧ m.edns.size < 65536 ∧ m.edns.rd.length < 65536 := by
      cases hen : m.edns.enabled with
      | true => rw [hen, if_pos rfl] at he; omega
      | false =>
        rw [hen] at he
        simp only [Bool.false_eq_true, if_false] at he
        rw [he.1]
        decide
    subst hr
    refine ⟨⟨[], ?_, ?_, rfl⟩, ?_, ?_, ?_, ⟨_, rfl, ⟨trivial, trivial⟩, ?_⟩⟩
    · exact ⟨by simp, by decide⟩
    · simp
    · dsimp only [typeOpt]; omega
    · exact key.2.2.1
    · dsimp only
      generalize (if m.code > 15 then m.code / 16 else m.edns.code) = c
      omega
    · exact key.2.2.2
  · simp at hr

theorem goodRecords {m : Msg} (h : GoodMsg m) :
    ∀ i ∈ (m.an.map .inr ++ (m.ns.map .inr ++ (m.ar.map .inr ++ (optRr m).toList.map .inr)) : List Item), GoodItem i := by
  intro i hi
  simp only [List.mem_append, List.mem_map] at hi
  rcases hi with ⟨r, hr, rfl⟩ | ⟨r, hr, rfl⟩ | ⟨r, hr, rfl⟩ | ⟨r, hr, rfl⟩
  · exact h.an.2 r hr
  · exact h.ns.2 r hr
  · exact (h.ar.2 r hr).1
  · exact goodRr_opt h hr

theorem goodItems {m : Msg} (h : GoodMsg m) : GoodList (items m) := by
  have hq := h.qd.2
  have hr := goodRecords h
  unfold items
  cases hm : m.qd with
  | nil => exact goodList_of_all hr
  | cons q l =>
    rw [hm] at hq
    refine ⟨?_, ?_⟩
    · intro i hi
      simp only [List.map_cons, List.cons_append, List.take_succ_cons, List.take_zero, List.mem_singleton] at hi
      subst hi
      exact hq.1 q (by simp)
    · intro i hi
      simp only [List.map_cons, List.cons_append, List.drop_succ_cons, List.drop_zero] at hi
      rcases List.mem_append.1 hi with hi | hi
      · obtain ⟨q', hq', rfl⟩ := List.mem_map.1 hi
        exact hq.2 q' (by simpa using hq')
      · exact hr i hi

theorem sane_qs {m : Msg} (h : GoodMsg m) {q : Qs} (hq : q ∈ m.qd) : Sane q.name := by
  rw [← List.take_append_drop 1 m.qd] at hq
  rcases List.mem_append.1 hq with hq | hq
  · obtain ⟨ls, h1, h2⟩ := (h.qd.2.1 q hq).name
    rw [h2]
    exact sane_of_okName h1
  · exact goodName_sane (h.qd.2.2 q hq).name

theorem hasKinds_good {fs : List Field} {vs : List Val} (h : GoodVals fs vs) : HasKinds fs vs := by
  induction fs generalizing vs with
  | nil => cases vs with
    | nil => trivial
    | cons v vs => exact h
  | cons f fs ih => cases vs with
    | nil => exact h
    | cons v vs =>
      refine ⟨?_, ih h.2⟩
      have h1 := h.1
      cases f <;> cases v <;> first | exact h1 | exact goodName_sane h1

theorem saneRr_good {r : Rr} (h : GoodRr r) : SaneRr r := by
  refine ⟨goodName_sane h.name, ?_⟩
  intro vs hv
  obtain ⟨ws, hw, hg, -⟩ := h.rd
  rw [hw] at hv
  cases hv
  exact hasKinds_good hg

theorem saneMsg_good {m : Msg} (h : GoodMsg m) : SaneMsg m :=
  ⟨fun q hq => sane_qs h hq, fun r hr => saneRr_good (h.an.2 r hr), fun r hr => saneRr_good (h.ns.2 r hr),
    fun r hr => saneRr_good (h.ar.2 r hr).1⟩

theorem tableOk_nil (pre : Bytes) : TableOk pre [] := by
  intro s o h
  simp at h

/-- The sections, behind a header of twelve bytes. -/
theorem body_items {k : Sink} {l : List Item} (h : GoodList l) (hc : 12 + (l.map itemSize).sum ≤ k.cap) :
    ∃ x t2, wAll (l.map (wItem (some k))) 12 [] = .ok (x.length, x, t2) ∧
      ∀ hdr : Bytes, hdr.length = 12 → ∀ suf w, w <+: suf → Reads (some (hdr ++ x ++ suf)) l (x ++ w) w := by
  obtain ⟨x, t2, e1, -⟩ := good_list h (List.replicate 12 0) (by simp) (tableOk_nil _) (by simpa using hc)
  rw [List.length_replicate] at e1
  refine ⟨x, t2, e1, ?_⟩
  intro hdr hh suf w hw
  obtain ⟨x', t2', e1', -, -, e4⟩ := good_list (k := k) h hdr (by omega) (tableOk_nil _) (by rw [hh]; exact hc)
  rw [hh, e1] at e1'
  have hx := Out.ok.inj e1'
  simp only [Prod.mk.injEq] at hx
  obtain ⟨-, rfl, rfl⟩ := hx
  exact e4 suf w hw

/-- An encoded message: header and sections, where any number of the first items can be read behind any header. -/
theorem encode_items {m : Msg} (h : GoodMsg m) : ∃ x, encode m = .ok (header m ++ x) ∧
    ∀ l1 l2, items m = l1 ++ l2 → ∃ x1 x2 t2, x = x1 ++ x2 ∧ wAll (l1.map (wItem (some ⟨sizeOf m, true⟩))) 12 [] = .ok (x1.length, x1, t2) ∧ (l2 = [] → x2 = []) ∧
      ∀ hdr : Bytes, hdr.length = 12 → ∀ suf w, w <+: suf → Reads (some (hdr ++ x1 ++ suf)) l1 (x1 ++ w) w := by
  have hg := goodItems h
  obtain ⟨x, t2, e1, e2⟩ := body_items (k := ⟨sizeOf m, true⟩) hg (Nat.le_of_eq (sizeOf_items m).symm)
  have hs := (fits_msg (saneMsg_good h)).1 0 []
  refine ⟨x, ?_, ?_⟩
  · unfold encode msgSize
    dsimp only at hs
    rw [hs]
    simp only [Out.bind]
    rw [wMsg_items]
    simp only [wSeq, wBytes, header_length]
    rw [if_pos (by rw [sizeOf_items]; omega)]
    simp only [Out.bind, header_length, Nat.zero_add]
    rw [e1]
    dsimp only
    rw [memSlice_ok (by simp [header_length])]
    simp only [List.drop_zero]
    rw [List.take_of_length_le (by simp [header_length])]
  · intro l1 l2 hl
    have hsz := sizeOf_items m
    rw [hl] at e1 hg hsz
    rw [List.map_append, List.sum_append] at hsz
    obtain ⟨x1, t3, f1, f2⟩ := body_items (k := ⟨sizeOf m, true⟩) hg.left (by show _ ≤ sizeOf m; omega)
    rw [List.map_append, wAll_append, wSeq, f1] at e1
    simp only [Out.bind] at e1
    cases hw : wAll (List.map (wItem (some ⟨sizeOf m, true⟩)) l2) (12 + x1.length) t3 with
    | ub => rw [hw] at e1; cases e1
    | err e => rw [hw] at e1; cases e1
    | ok r =>
      rw [hw] at e1
      have := Out.ok.inj e1
      simp only [Prod.mk.injEq] at this
      refine ⟨x1, r.2.1, t3, this.2.1.symm, f1, ?_, f2⟩
      rintro rfl
      rw [← Out.ok.inj hw]

theorem wireFlags_good {m : Msg} (h : GoodMsg m) : wireFlags m = m.flags := by
  have h1 := h.opcode
  have h2 := h.code
  have h3 := h.flags
  unfold wireFlags
  rw [← h2, ← h1]
  omega

theorem optRr_length {m : Msg} (h : GoodMsg m) : (optRr m).toList.length = if m.edns.enabled then 1 else 0 := by
  have he := h.edns
  unfold optRr
  cases hen : m.edns.enabled with
  | true => simp
  | false =>
    rw [hen] at he
    simp only [Bool.false_eq_true, if_false] at he
    simp
    omega

theorem header_good {m : Msg} (h : GoodMsg m) :
    header m = head6 m.id m.flags m.qd.length m.an.length m.ns.length (m.ar ++ (optRr m).toList).length := by
  unfold header head6
  rw [wireFlags_good h, List.length_append, optRr_length h]

theorem extra_good {m : Msg} (h : GoodMsg m) : (m.ar ++ (optRr m).toList).foldl addExtra ⟨[], ednsInit, m.flags % 16⟩ = ⟨m.ar, m.edns, m.code⟩ := by
  rw [List.foldl_append, foldl_plain _ (fun r hr => (h.ar.2 r hr).2) _ (by simpa using h.ar.1)]
  have he := h.edns
  have hc := h.code
  unfold optRr
  dsimp only
  cases hen : m.edns.enabled with
  | true =>
    rw [hen, if_pos rfl] at he
    obtain ⟨v1, v2, v3, v4, v5, v6⟩ := he
    have hec : (if m.code > 15 then m.code / 16 else m.edns.code) % 256 = m.edns.code := by split <;> omega
    rw [hec, if_pos (.inl rfl)]
    simp only [Option.toList_some, List.foldl_cons, List.foldl_nil, addExtra, if_true, typeOpt, List.nil_append, Extra.mk.injEq, true_and]
    have t1 : (m.edns.code * 16777216 + m.edns.version * 65536 + m.edns.flags) / 65536 % 256 = m.edns.version := by omega
    have t2 : (m.edns.code * 16777216 + m.edns.version * 65536 + m.edns.flags) % 65536 = m.edns.flags := by omega
    have t3 : (m.edns.code * 16777216 + m.edns.version * 65536 + m.edns.flags) / 16777216 % 256 = m.edns.code := by omega
    rw [t1, t2, t3]
    refine ⟨by rw [← hen], ?_⟩
    have := Nat.two_pow_add_eq_or_of_lt (i := 4) (b := m.flags % 16) (by omega) m.edns.code
    rw [show (2 : Nat) ^ 4 = 16 from rfl] at this
    rw [Nat.or_comm, Nat.mul_comm]
    omega
  | false =>
    rw [hen, if_neg (by simp)] at he
    rw [if_neg (by simp; omega)]
    simp only [Option.toList_none, List.foldl_nil, List.nil_append, Extra.mk.injEq, true_and]
    exact ⟨he.1.symm, by omega⟩

theorem decode_encode {m : Msg} (h : GoodMsg m) : ∃ b, encode m = .ok b ∧ decode b = .ok m := by
  obtain ⟨x, e1, e2⟩ := encode_items h
  refine ⟨_, e1, ?_⟩
  obtain ⟨x1, x2, t2, hx, -, hn, hr⟩ := e2 (items m) [] (by simp)
  rw [hn rfl, List.append_nil] at hx
  subst hx
  have hr := hr (header m) (header_length m) [] [] (List.nil_prefix)
  rw [List.append_nil, List.append_nil] at hr
  have hi : items m = m.qd.map .inl ++ (m.an.map .inr ++ (m.ns.map .inr ++ (m.ar ++ (optRr m).toList).map .inr)) := by
    simp [items]
  rw [hi] at hr
  rw [header_good h] at hr ⊢
  rw [decode_of_reads h.id h.flags h.qd.1 h.an.1 h.ns.1 (by rw [List.length_append, optRr_length h]; have := h.ar.1; split <;> omega) hr]
  rw [extra_good h]
  have ho := h.opcode
  dsimp only
  rw [ho]

end Verif.Dns
