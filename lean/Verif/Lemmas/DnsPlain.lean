import Verif.Lemmas.DnsMsg
import Verif.Lemmas.DnsDecode
import Verif.Spec.Dnssec
/-
Records written without compression.
-/
namespace Verif.Dns
open Verif.Bio Verif.DnsName Verif.Spec.DnsName Verif.Spec.Dns Verif.Spec.Dnssec

/-- A writer that puts down `b`, wherever it is, if there is room. -/
def Plain (g : Option Sink → Wr) (b : Bytes) : Prop :=
  (∀ off t, g none off t = .ok (b.length, [], t)) ∧ ∀ cap off t, off + b.length ≤ cap → g (some ⟨cap, false⟩) off t = .ok (b.length, b, t)

theorem plain_bytes (b : Bytes) : Plain (fun d => wBytes d b) b :=
  ⟨fun _ _ => rfl, fun cap off t h => by simp only [wBytes]; rw [if_pos h]⟩

theorem plain_none : Plain (fun _ => wNone) [] := ⟨fun _ _ => rfl, fun _ _ _ _ => rfl⟩

theorem plain_name {ls : List Bytes} (h : OkName ls) : Plain (fun d => wName d (text ls)) (wire ls) := by
  constructor
  · intro off t
    simp only [wName, Option.map_none]
    rw [serialize_dry h t]
    rfl
  · intro cap off t hc
    simp only [wName, Option.map_some]
    rw [serialize_plain h t hc]
    rfl

theorem Plain.seq {f g : Option Sink → Wr} {a b : Bytes} (hf : Plain f a) (hg : Plain g b) : Plain (fun d => wSeq (f d) (g d)) (a ++ b) := by
  constructor
  · intro off t
    simp only [wSeq]
    rw [hf.1]
    simp only [Out.bind]
    rw [hg.1]
    simp
  · intro cap off t hc
    rw [List.length_append] at hc
    simp only [wSeq]
    rw [hf.2 cap off t (by omega)]
    simp only [Out.bind]
    rw [hg.2 cap _ t (by omega)]
    simp

theorem Plain.len {g : Option Sink → Wr} {b : Bytes} (h : Plain g b) : Plain (fun d => wLen d (g d)) (writeU16be b.length ++ b) := by
  constructor
  · intro off t
    simp only [wLen]
    rw [h.1]
    simp only [Out.bind, wBytes, be_length, List.length_append, List.append_nil]
  · intro cap off t hc
    rw [List.length_append, be_length] at hc
    simp only [wLen]
    rw [h.2 cap (off + 2) t (by omega)]
    simp only [Out.bind, wBytes, be_length]
    rw [if_pos (by omega)]
    simp [be_length]

theorem plain_all {α : Type} {f : Option Sink → α → Wr} {b : α → Bytes} : ∀ (l : List α), (∀ a ∈ l, Plain (fun d => f d a) (b a)) →
    Plain (fun d => wAll (l.map (f d))) (l.map b).flatten
  | [], _ => plain_none
  | a :: l, h => by
    have := (h a List.mem_cons_self).seq (plain_all l fun x hx => h x (List.mem_cons_of_mem _ hx))
    simpa [wAll] using this

/-- What can be read has a form in bytes, which is what is written. -/
theorem plain_field {f : Field} {v : Val} (h : ReadVal f v) : ∃ b, ValBytes f v b ∧ Plain (fun d => wField d f v) b := by
  cases f <;> cases v <;> simp only [ReadVal] at h
  · exact ⟨_, rfl, plain_bytes _⟩
  · exact ⟨_, rfl, plain_bytes _⟩
  · exact ⟨_, rfl, plain_bytes _⟩
  · obtain ⟨ls, hok, rfl⟩ := h
    exact ⟨_, ⟨ls, hok, rfl, rfl⟩, plain_name hok⟩
  · rename_i n b
    refine ⟨b, rfl, ?_⟩
    have := plain_bytes (b.take n)
    have e : b.take n = b := List.take_of_length_le (by omega)
    have e2 : (fun d => wField d (.fixed n) (.bytes b)) = fun d => wBytes d (b.take n) := by funext d; rfl
    rw [e2]
    rw [e] at this ⊢
    exact this
  · exact ⟨_, rfl, plain_bytes _⟩
  · rename_i ts
    refine ⟨_, rfl, ?_⟩
    refine plain_all ts (f := fun d b => wSeq (wBytes d (writeU8 b.length)) (wBytes d b)) (b := fun t => UInt8.ofNat t.length :: t) fun b _ => ?_
    exact (plain_bytes (writeU8 b.length)).seq (plain_bytes b)
  · rename_i b
    exact ⟨_, rfl, (plain_bytes (writeU8 b.length)).seq (plain_bytes b)⟩

theorem plain_fields {fs : List Field} {vs : List Val} (h : ReadVals fs vs) : ∃ b, ValsBytes fs vs b ∧ Plain (fun d => wFields d fs vs) b := by
  induction fs generalizing vs with
  | nil =>
    cases vs with
    | nil => exact ⟨[], rfl, plain_none⟩
    | cons v vs => cases h
  | cons f fs ih =>
    cases vs with
    | nil => cases h
    | cons v vs =>
      obtain ⟨x, h1, h2⟩ := plain_field h.1
      obtain ⟨y, h3, h4⟩ := ih h.2
      exact ⟨x ++ y, ⟨x, y, h1, h3, rfl⟩, h2.seq h4⟩

theorem valBytes_unique {f : Field} {v : Val} {a b : Bytes} (ha : ValBytes f v a) (hb : ValBytes f v b) : a = b := by
  cases f <;> cases v <;> simp only [ValBytes] at ha hb
  case name.name s =>
    obtain ⟨ls, h1, h2, h3⟩ := ha
    obtain ⟨ls', h4, h5, h6⟩ := hb
    have := text_inj h1.1 h4.1 (h2.symm.trans h5)
    rw [h3, h6, this]
  all_goals rw [ha, hb]

theorem valsBytes_unique {fs : List Field} {vs : List Val} {a b : Bytes} (ha : ValsBytes fs vs a) (hb : ValsBytes fs vs b) : a = b := by
  induction fs generalizing vs a b with
  | nil =>
    cases vs with
    | nil => exact ha.trans hb.symm
    | cons v vs => cases ha
  | cons f fs ih =>
    cases vs with
    | nil => cases ha
    | cons v vs =>
      obtain ⟨x, y, h1, h2, rfl⟩ := ha
      obtain ⟨x', y', h3, h4, rfl⟩ := hb
      rw [valBytes_unique h1 h3, ih h2 h4]

theorem valBytes_length {f : Field} {v : Val} {b : Bytes} (hr : ReadVal f v) (h : ValBytes f v b) : b.length = valSize f v := by
  cases f <;> cases v <;> simp only [ValBytes, ReadVal] at h hr
  case name.name s =>
    obtain ⟨ls, h1, rfl, rfl⟩ := h
    rw [wire_length]
    simp only [valSize]
    by_cases hls : ls = []
    · subst hls; rfl
    · have h2 := two_le_body' h1.1 hls
      have : text ls = body ls := by unfold text; rw [if_neg hls]
      rw [this, if_neg]
      intro e
      rw [e] at h2
      simp at h2
  case txts.txts ts =>
    rw [h]
    simp only [valSize, List.length_flatten, List.map_map]
    congr 2
    funext b
    simp
    omega
  all_goals
    rw [h]
    simp [valSize, hr]
  all_goals omega

theorem valsBytes_length {fs : List Field} {vs : List Val} {b : Bytes} (hr : ReadVals fs vs) (h : ValsBytes fs vs b) : b.length = valsSize fs vs := by
  induction fs generalizing vs b with
  | nil =>
    cases vs with
    | nil => have : b = [] := h; rw [this]; rfl
    | cons v vs => cases h
  | cons f fs ih =>
    cases vs with
    | nil => cases h
    | cons v vs =>
      obtain ⟨x, y, h1, h2, rfl⟩ := h
      rw [List.length_append, valBytes_length hr.1 h1, ih hr.2 h2]
      rfl

/-! ### Reading back -/

theorem readField_plain {f : Field} {v : Val} {b : Bytes} (hr : ReadVal f v) (h : ValBytes f v b) (w : Bytes) (hw : greedy f = true → w = []) :
    readField none f (b ++ w) = .ok (v, w) := by
  cases f <;> cases v <;> simp only [ValBytes, ReadVal] at h hr
  · subst h
    have := readU8_append (r := w) hr
    simp only [readField]
    rw [show ∀ n : Nat, [UInt8.ofNat n] = leBytes 1 n from fun _ => rfl, this]
    rfl
  · subst h
    have := readU16be_append (r := w) hr
    simp only [readField]
    rw [this]
    rfl
  · subst h
    have := readU32be_append (r := w) hr
    simp only [readField]
    rw [this]
    rfl
  · obtain ⟨ls, h1, rfl, rfl⟩ := h
    simp only [readField]
    rw [parse_wire none h1 w]
    rfl
  · subst h
    simp only [readField]
    rw [readBytes_append' hr]
    rfl
  · rename_i x
    subst h
    rw [hw rfl, List.append_nil]
    simp only [readField]
    have := readBytes_append b []
    rw [List.append_nil] at this
    rw [this]
    rfl
  · rename_i ts
    rw [hw rfl, List.append_nil]
    have h' : b = txtsBytes ts := h
    rw [h']
    simp only [readField]
    rw [readTxts_write ts hr.2 _ [] (by simpa using hr.1) (Nat.le_refl _)]
    rfl
  · rename_i x
    subst h
    simp only [readField]
    have := txt_read hr w
    have e : writeU8 x.length ++ x ++ w = (UInt8.ofNat x.length :: x) ++ w := rfl
    rw [e] at this
    generalize (UInt8.ofNat x.length :: x) ++ w = s at *
    cases h8 : readU8 s with
    | ok a => rw [h8] at this; simp only [Out.bind] at this ⊢; rw [this]
    | err e => rw [h8] at this; cases this
    | ub => rw [h8] at this; cases this

theorem readFields_plain {fs : List Field} {vs : List Val} {b : Bytes} (hg : greedyLast fs = true) (hr : ReadVals fs vs) (h : ValsBytes fs vs b) :
    readFields none fs b = .ok (vs, []) := by
  induction fs generalizing vs b with
  | nil =>
    cases vs with
    | nil => have : b = [] := h; rw [this]; rfl
    | cons v vs => cases h
  | cons f fs ih =>
    cases vs with
    | nil => cases h
    | cons v vs =>
      obtain ⟨x, y, h1, h2, rfl⟩ := h
      cases fs with
      | nil =>
        cases vs with
        | cons v' vs => cases h2
        | nil =>
          have : y = [] := h2
          subst this
          simp only [readFields]
          rw [readField_plain hr.1 h1 [] (fun _ => rfl)]
          rfl
      | cons f' fs =>
        simp only [greedyLast, Bool.and_eq_true, Bool.not_eq_true'] at hg
        rw [readFields, readField_plain hr.1 h1 y (fun e => by rw [hg.1] at e; cases e)]
        simp only [Out.bind]
        rw [ih hg.2 hr.2 h2]

/-! ### Records -/

theorem wholeRr_row {r : Rr} (h : WholeRr r) : ∃ rd b, IsRow ⟨r, rd, b⟩ := by
  obtain ⟨ls, h1, h2⟩ := h.read.name
  obtain ⟨vs, h3, h4⟩ := h.read.rd
  obtain ⟨x, h5, _⟩ := plain_fields h4
  exact ⟨x, wire ls ++ beBytes 2 r.type ++ beBytes 2 r.cls ++ beBytes 4 r.ttl ++ beBytes 2 x.length ++ x, ⟨⟨vs, h3, h5⟩, ⟨ls, h1, h2, rfl⟩⟩⟩

theorem isRow_unique {r : Rr} {rd rd' b b' : Bytes} (h : IsRow ⟨r, rd, b⟩) (h' : IsRow ⟨r, rd', b'⟩) : rd = rd' ∧ b = b' := by
  obtain ⟨⟨vs, h1, h2⟩, ⟨ls, h3, h4, h5⟩⟩ := h
  obtain ⟨⟨vs', h1', h2'⟩, ⟨ls', h3', h4', h5'⟩⟩ := h'
  dsimp only at *
  rw [h1] at h1'
  cases Option.some.inj h1'
  have hrd := valsBytes_unique h2 h2'
  have := text_inj h3.1 h3'.1 (h4.symm.trans h4')
  subst this
  exact ⟨hrd, by rw [h5, h5', hrd]⟩

theorem encodeRr_row {r : Rr} (h : WholeRr r) {rd b : Bytes} (hb : IsRow ⟨r, rd, b⟩) : encodeRr r = .ok b := by
  obtain ⟨⟨vs, h1, h2⟩, ⟨ls, h3, h4, h5⟩⟩ := hb
  dsimp only at *
  obtain ⟨vs', h6, h7⟩ := h.read.rd
  rw [h1] at h6
  cases Option.some.inj h6
  obtain ⟨x, h8, h9⟩ := plain_fields h7
  have := valsBytes_unique h2 h8
  subst this
  have hp : Plain (fun d => wRr d r) b := by
    have := (plain_name h3).seq ((plain_bytes (writeU16be r.type)).seq ((plain_bytes (writeU16be r.cls)).seq ((plain_bytes (writeU32be r.ttl)).seq h9.len)))
    have e : b = wire ls ++ (writeU16be r.type ++ (writeU16be r.cls ++ (writeU32be r.ttl ++ (writeU16be rd.length ++ rd)))) := by
      rw [h5]; simp [writeU16be, writeU32be]
    rw [← e, ← h4] at this
    have e2 : (fun d => wRr d r) = (fun d => wSeq (wName d r.name) (wSeq (wBytes d (writeU16be r.type)) (wSeq (wBytes d (writeU16be r.cls))
        (wSeq (wBytes d (writeU32be r.ttl)) (wLen d (wFields d (readLayout r.type) vs)))))) := by
      funext d
      unfold wRr
      rw [h1]
      rfl
    rw [e2]
    exact this
  unfold encodeRr
  have p1 := hp.1 0 []
  have p2 := hp.2 b.length 0 [] (by omega)
  dsimp only at p1 p2
  rw [p1]
  simp only [Out.bind]
  rw [p2]
  simp only
  rw [memSlice_ok (by simp)]
  simp

theorem readRr_row {r : Rr} (h : WholeRr r) {rd b : Bytes} (hb : IsRow ⟨r, rd, b⟩) (w : Bytes) : readRr none (b ++ w) = .ok (r, w) := by
  obtain ⟨⟨vs, h1, h2⟩, ⟨ls, h3, h4, h5⟩⟩ := hb
  dsimp only at *
  obtain ⟨vs', h6, h7⟩ := h.read.rd
  rw [h1] at h6
  cases Option.some.inj h6
  have hl := valsBytes_length h7 h2
  have hs := h.size vs h1
  have e : b ++ w = wire ls ++ (beBytes 2 r.type ++ (beBytes 2 r.cls ++ (beBytes 4 r.ttl ++ (beBytes 2 rd.length ++ (rd ++ w))))) := by
    rw [h5]; simp
  unfold readRr
  rw [e, parse_wire none h3]
  simp only [Out.bind]
  rw [readU16be_append h.read.type]
  simp only
  rw [readU16be_append h.read.cls]
  simp only
  rw [readU32be_append h.read.ttl]
  simp only
  rw [readU16be_append (by omega)]
  simp only
  rw [if_neg (by simp), memSlice_ok (by simp)]
  simp only [List.drop_zero, List.take_left, List.drop_left]
  unfold readRd
  rw [readFields_plain (greedyLast_layout _) h7 h2]
  simp only
  rw [← h4, ← h1]

theorem cloneRr_eq {r : Rr} (h : WholeRr r) : (encodeRr r).bind (fun b => decodeRr b) = .ok r := by
  obtain ⟨rd, b, hb⟩ := wholeRr_row h
  rw [encodeRr_row h hb]
  simp only [Out.bind]
  unfold decodeRr
  have := readRr_row h hb []
  rw [List.append_nil] at this
  rw [this]
  rfl

end Verif.Dns
