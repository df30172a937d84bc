import Verif.Lemmas.DnsSer
import Verif.Model.Dns
import Verif.Lemmas.Bio
/-
What a writer stores is no more than its dry run counts.
-/
namespace Verif.DnsName
open Verif.Spec.DnsName

/-- The dry run goes on from where it is. -/
theorem serLoop_mono (s : Bytes) : ∀ (i : Nat) (cur : Bytes) (dot : Bool) (off : Nat) (out : Bytes) (t : Table) (r : Ser),
    serLoop none s i cur dot off out t = .ok r → off ≤ r.len ∧ r.out = out ∧ r.table = t := by
  induction s with
  | nil =>
    intro i cur dot off out t r h
    rw [serLoop, finish] at h
    split at h
    · rw [← Out.ok.inj h]; simp
    · split at h
      · rw [← Out.ok.inj h]; simp
      · split at h
        · rw [← Out.ok.inj h]; simp
        · rw [← Out.ok.inj h]; simp
  | cons c s ih =>
    intro i cur dot off out t r h
    rw [serLoop] at h
    split at h
    · exact ih _ _ _ _ _ _ _ h
    · split at h
      · rw [← Out.ok.inj h]; simp
      · split at h
        · rw [← Out.ok.inj h]; simp
        · have := ih _ _ _ _ _ _ _ h
          exact ⟨by omega, this.2⟩

theorem serLoop_success (s : Bytes) : ∀ (i : Nat) (cur : Bytes) (dot : Bool) (off : Nat) (out : Bytes) (t : Table) (r : Ser),
    serLoop none s i cur dot off out t = .ok r → r.ok = true → i + s.length ≠ 1 → off + 1 ≤ r.len := by
  induction s with
  | nil =>
    intro i cur dot off out t r h hr hi
    rw [serLoop, finish] at h
    split at h
    · rw [← Out.ok.inj h] at hr; simp at hr
    · split at h
      · rw [← Out.ok.inj h] at hr; simp at hr
      · split at h
        · simp at hi; omega
        · rw [← Out.ok.inj h]; simp
  | cons c s ih =>
    intro i cur dot off out t r h hr hi
    rw [serLoop] at h
    split at h
    · exact ih _ _ _ _ _ _ _ h hr (by simp at hi; omega)
    · split at h
      · rw [← Out.ok.inj h] at hr; simp at hr
      · split at h
        · rw [← Out.ok.inj h] at hr; simp at hr
        · have := ih _ _ _ _ _ _ _ h hr (by simp at hi; omega)
          omega

theorem serLoop_fits {base cap : Nat} {cmp : Bool} (s : Bytes) : ∀ (i : Nat) (cur : Bytes) (dot : Bool) (off : Nat) (out : Bytes) (t t0 : Table) (r0 : Ser),
    serLoop none s i cur dot off [] t0 = .ok r0 → out.length = off → i = off + cur.length → (dot = true → cur = []) → (dot = false → cur = [] → i = 0) →
    i + s.length ≤ 255 → (i = 0 → r0.ok = true ∨ s.head? ≠ some 0x2e) → base + r0.len ≤ cap →
    ∃ r, serLoop (some ⟨base, cap, cmp⟩) s i cur dot off out t = .ok r ∧ r.out.length = r.len ∧ r.len ≤ r0.len ∧ (cmp = false → r.len = r0.len) := by
  induction s with
  | nil =>
    intro i cur dot off out t t0 r0 h0 ho hi hd hd2 hlen hhead hcap
    rw [serLoop, finish] at h0
    rw [serLoop, finish]
    simp only [List.length_nil, Nat.add_zero] at hlen
    rw [if_neg (by omega)] at h0 ⊢
    split at h0
    · rename_i hc
      rw [if_pos hc]
      rw [← Out.ok.inj h0]
      exact ⟨_, rfl, ho, by simp, by simp⟩
    · rename_i hc
      rw [if_neg hc]
      split at h0
      · rename_i h1
        rw [if_pos h1, ← Out.ok.inj h0]
        exact ⟨_, rfl, ho, by simp, by simp⟩
      · rename_i h1
        rw [if_neg h1]
        have hr := Out.ok.inj h0
        rw [← hr] at hcap
        dsimp only at hcap
        rw [if_neg (by omega), store_ok (by dsimp only; omega), ← hr]
        exact ⟨_, rfl, by simp [ho], by simp, by simp⟩
  | cons c s ih =>
    intro i cur dot off out t t0 r0 h0 ho hi hd hd2 hlen hhead hcap
    simp only [List.length_cons] at hlen
    by_cases hc : c = 0x2e
    · subst hc
      by_cases hdot : dot = true
      · subst hdot
        rw [serLoop, if_neg (by simp), if_pos rfl] at h0
        rw [serLoop, if_neg (by simp), if_pos rfl]
        rw [← Out.ok.inj h0]
        exact ⟨_, rfl, ho, by simp, by simp⟩
      · have hdot : dot = false := by simpa using hdot
        subst hdot
        by_cases h63 : cur.length > 63
        · rw [serLoop, if_neg (by simp), if_neg (by simp), if_pos h63] at h0
          rw [serLoop, if_neg (by simp), if_neg (by simp), if_pos h63]
          rw [← Out.ok.inj h0]
          exact ⟨_, rfl, ho, by simp, by simp⟩
        · rw [serLoop_dot_none _ _ _ _ _ _ (by omega)] at h0
          rw [serLoop_dot_some _ _ _ _ _ _ (by omega), if_neg (by omega)]
          have hm := serLoop_mono _ _ _ _ _ _ _ _ h0
          rw [store_ok (by dsimp only; omega)]
          dsimp only [Out.bind]
          by_cases hf : find (some ⟨base, cap, cmp⟩) t (cur ++ 0x2e :: s) = 0
          · rw [if_neg (by simp [hf]), store_ok (by dsimp only; omega)]
            dsimp only [Out.bind]
            obtain ⟨r, h1, h2, h3, h4⟩ := ih (i + 1) [] true (off + 1 + cur.length) (out ++ UInt8.ofNat cur.length :: cur.map unesc)
              (remember (some ⟨base, cap, cmp⟩) t (cur ++ 0x2e :: s) off) t0 r0 h0 (by simp [ho]; omega) (by simp; omega) (by simp) (by simp) (by omega) (by omega) hcap
            exact ⟨r, h1, h2, h3, h4⟩
          · rw [if_pos hf]
            have hcmp : cmp = true ∧ cur ++ 0x2e :: s ≠ [0x2e] := by
              unfold find at hf
              dsimp only at hf
              split at hf
              · rename_i hx; exact hx
              · exact absurd rfl hf
            rw [finishPtr, if_neg (by omega)]
            by_cases hl : (cur ++ 0x2e :: s).getLast? ≠ some 0x2e
            · rw [if_pos hl]
              exact ⟨_, rfl, ho, by dsimp only; omega, fun e => by rw [hcmp.1] at e; cases e⟩
            · rw [if_neg hl, if_neg (by omega)]
              have h2 : off + 2 ≤ r0.len := by
                by_cases hcur : cur = []
                · subst hcur
                  have hi0 := hd2 rfl rfl
                  rcases hhead hi0 with hok | hne
                  · have hs : s ≠ [] := by
                      intro e; apply hcmp.2; rw [e]; rfl
                    have := List.length_pos_iff.2 hs
                    have := serLoop_success _ _ _ _ _ _ _ _ h0 hok (by omega)
                    simp only [List.length_nil] at this
                    omega
                  · simp at hne
                · have := List.length_pos_iff.2 hcur
                  omega
              rw [store_ok (by dsimp only; omega)]
              dsimp only [Out.bind]
              exact ⟨_, rfl, by simp [ho], by dsimp only; omega, fun e => by rw [hcmp.1] at e; cases e⟩
    · rw [serLoop_char _ hc] at h0 ⊢
      exact ih (i + 1) (cur ++ [c]) false off out t t0 r0 h0 ho (by simp; omega) (by simp) (by simp) (by omega) (by omega) hcap

/-- The texts for which the dry run is an upper bound: not those with a leading dot that the
serialiser refuses. -/
def Sane (s : Bytes) : Prop := s.length ≤ 255 ∧ (s.head? ≠ some 0x2e ∨ ∃ r, serialize none s [] = .ok r ∧ r.ok = true)

theorem serialize_none (s : Bytes) : ∃ r : Ser, ∀ t, serialize none s t = .ok ⟨r.ok, r.len, [], t⟩ := by
  have key : ∀ (s : Bytes) (i : Nat) (cur : Bytes) (dot : Bool) (off : Nat), ∃ (b : Bool) (n : Nat), ∀ t, serLoop none s i cur dot off [] t = .ok ⟨b, n, [], t⟩ := by
    intro s
    induction s with
    | nil =>
      intro i cur dot off
      simp only [serLoop, finish]
      split
      · exact ⟨_, _, fun t => rfl⟩
      · split
        · exact ⟨_, _, fun t => rfl⟩
        · split
          · exact ⟨_, _, fun t => rfl⟩
          · exact ⟨_, _, fun t => rfl⟩
    | cons c s ih =>
      intro i cur dot off
      simp only [serLoop]
      split
      · exact ih _ _ _ _
      · split
        · exact ⟨_, _, fun t => rfl⟩
        · split
          · exact ⟨_, _, fun t => rfl⟩
          · exact ih _ _ _ _
  obtain ⟨b, n, h⟩ := key s 0 [] false 0
  exact ⟨⟨b, n, [], []⟩, h⟩

/-- Size of the dry run. -/
def drySize (s : Bytes) : Nat := match serialize none s [] with | .ok r => r.len | _ => 0

theorem serialize_dry' (s : Bytes) (t : Table) : ∃ b, serialize none s t = .ok ⟨b, drySize s, [], t⟩ := by
  obtain ⟨r, h⟩ := serialize_none s
  refine ⟨r.ok, ?_⟩
  rw [h t, drySize, h []]

theorem serialize_fits {base cap : Nat} {cmp : Bool} {s : Bytes} (h : Sane s) (t : Table) (hc : base + drySize s ≤ cap) :
    ∃ r, serialize (some ⟨base, cap, cmp⟩) s t = .ok r ∧ r.out.length = r.len ∧ r.len ≤ drySize s ∧ (cmp = false → r.len = drySize s) := by
  obtain ⟨b, hb⟩ := serialize_dry' s []
  refine serLoop_fits s 0 [] false 0 [] t [] ⟨b, drySize s, [], []⟩ hb rfl rfl (by simp) (by simp) (by have := h.1; omega) ?_ hc
  intro _
  rcases h.2 with h1 | ⟨r, h1, h2⟩
  · exact .inr h1
  · rw [hb] at h1
    have := Out.ok.inj h1
    rw [← this] at h2
    exact .inl h2

theorem sane_of_okName {ls : List Bytes} (h : OkName ls) : Sane (text ls) := ⟨h.2, .inr ⟨_, serialize_dry h [], rfl⟩⟩

theorem drySize_text {ls : List Bytes} (h : OkName ls) : drySize (text ls) = (wire ls).length := by rw [drySize, serialize_dry h []]

end Verif.DnsName

namespace Verif.Dns
open Verif.Bio Verif.DnsName Verif.Spec.DnsName

/-- The dry run counts `n` bytes; with a buffer no more are stored, and as many if names are
not compressed. -/
def Fits (g : Option Sink → Wr) (n : Nat) : Prop :=
  (∀ off t, g none off t = .ok (n, [], t)) ∧
    ∀ cap cmp off t, off + n ≤ cap → ∃ x t2, g (some ⟨cap, cmp⟩) off t = .ok (x.length, x, t2) ∧ x.length ≤ n ∧ (cmp = false → x.length = n)

theorem fits_bytes (b : Bytes) : Fits (fun d => wBytes d b) b.length :=
  ⟨fun _ _ => rfl, fun cap cmp off t h => ⟨b, t, by simp [wBytes, h], by simp, by simp⟩⟩

theorem fits_none : Fits (fun _ => wNone) 0 := ⟨fun _ _ => rfl, fun cap cmp off t h => ⟨[], t, rfl, by simp, by simp⟩⟩

theorem fits_name {s : Bytes} (h : Sane s) : Fits (fun d => wName d s) (drySize s) := by
  constructor
  · intro off t
    obtain ⟨b, hb⟩ := serialize_dry' s t
    simp only [wName, Option.map_none]
    rw [hb]
    rfl
  · intro cap cmp off t hc
    obtain ⟨r, h1, h2, h3, h4⟩ := serialize_fits (cmp := cmp) h t hc
    simp only [wName, Option.map_some]
    rw [h1]
    exact ⟨r.out, r.table, by simp [Out.bind, h2], by omega, fun e => by rw [h2]; exact h4 e⟩

theorem Fits.seq {f g : Option Sink → Wr} {n m : Nat} (hf : Fits f n) (hg : Fits g m) : Fits (fun d => wSeq (f d) (g d)) (n + m) := by
  constructor
  · intro off t
    simp only [wSeq]
    rw [hf.1]
    simp only [Out.bind, List.length_nil, Nat.add_zero]
    rw [hg.1]
    simp
  · intro cap cmp off t hc
    obtain ⟨x, t2, h1, h2, h3⟩ := hf.2 cap cmp off t (by omega)
    obtain ⟨y, t3, h4, h5, h6⟩ := hg.2 cap cmp (off + x.length) t2 (by omega)
    refine ⟨x ++ y, t3, ?_, by simp; omega, fun e => by simp [h3 e, h6 e]⟩
    simp only [wSeq]
    rw [h1]
    simp only [Out.bind]
    rw [h4]
    simp

theorem fits_all {α : Type} {f : Option Sink → α → Wr} {n : α → Nat} : ∀ (l : List α), (∀ a ∈ l, Fits (fun d => f d a) (n a)) →
    Fits (fun d => wAll (l.map (f d))) (l.map n).sum := by
  intro l
  induction l with
  | nil => intro _; exact fits_none
  | cons a l ih =>
    intro h
    simp only [List.map_cons, List.sum_cons]
    exact (h a List.mem_cons_self).seq (ih fun b hb => h b (List.mem_cons_of_mem _ hb))

theorem be_length (n : Nat) : (writeU16be n).length = 2 := by simp [writeU16be, beBytes, leBytes]

theorem Fits.len {g : Option Sink → Wr} {n : Nat} (h : Fits g n) : Fits (fun d => wLen d (g d)) (2 + n) := by
  constructor
  · intro off t
    simp only [wLen]
    rw [h.1]
    simp [Out.bind, wBytes]
  · intro cap cmp off t hc
    obtain ⟨x, t2, h1, h2, h3⟩ := h.2 cap cmp (off + 2) t (by omega)
    refine ⟨writeU16be x.length ++ x, t2, ?_, by simp [be_length]; omega, fun e => by simp [be_length, h3 e]⟩
    simp only [wLen]
    rw [h1]
    simp only [Out.bind, wBytes, be_length]
    rw [if_pos (by omega)]
    simp [be_length]

/-! ### Sizes of the parts of a message -/

/-- A value that the struct field can hold. -/
def HasKind : Field → Val → Prop
  | .u8, .num n => n < 256
  | .u16, .num n => n < 65536
  | .u32, .num n => n < 4294967296
  | .name, .name s => Sane s
  | .fixed n, .bytes b => b.length = n
  | .rest, .bytes _ => True
  | .txts, .txts ts => ts.length ≤ 255 ∧ ∀ b ∈ ts, b.length ≤ 255
  | .data8, .bytes b => b.length ≤ 255
  | _, _ => False

def fieldSize : Field → Val → Nat
  | .u8, _ => 1
  | .u16, _ => 2
  | .u32, _ => 4
  | .name, .name s => drySize s
  | .fixed n, _ => n
  | .rest, .bytes b => b.length
  | .txts, .txts ts => (ts.map fun b => 1 + b.length).sum
  | .data8, .bytes b => 1 + b.length
  | _, _ => 0

theorem u8_length (n : Nat) : (writeU8 n).length = 1 := by simp [writeU8, leBytes]
theorem u32_length (n : Nat) : (writeU32be n).length = 4 := by simp [writeU32be, beBytes, leBytes]

theorem fits_txt (b : Bytes) : Fits (fun d => wSeq (wBytes d (writeU8 b.length)) (wBytes d b)) (1 + b.length) := by
  have h := (fits_bytes (writeU8 b.length)).seq (fits_bytes b)
  rwa [u8_length] at h

theorem fits_field {f : Field} {v : Val} (h : HasKind f v) : Fits (fun d => wField d f v) (fieldSize f v) := by
  cases f <;> cases v <;> simp only [HasKind] at h
  · have := fits_bytes (writeU8 ‹Nat›); rwa [u8_length] at this
  · have := fits_bytes (writeU16be ‹Nat›); rwa [be_length] at this
  · have := fits_bytes (writeU32be ‹Nat›); rwa [u32_length] at this
  · exact fits_name h
  · rename_i n b
    have := fits_bytes (b.take n)
    rwa [List.length_take, h, Nat.min_self] at this
  · exact fits_bytes _
  · exact fits_all _ fun b _ => fits_txt b
  · exact fits_txt _

/-- Values that a record-data struct can hold. -/
def HasKinds : List Field → List Val → Prop
  | [], [] => True
  | f :: fs, v :: vs => HasKind f v ∧ HasKinds fs vs
  | _, _ => False

def fieldsSize : List Field → List Val → Nat
  | f :: fs, v :: vs => fieldSize f v + fieldsSize fs vs
  | _, _ => 0

theorem fits_fields {fs : List Field} {vs : List Val} (h : HasKinds fs vs) : Fits (fun d => wFields d fs vs) (fieldsSize fs vs) := by
  induction fs generalizing vs with
  | nil =>
    cases vs with
    | nil => exact fits_none
    | cons v vs => cases h
  | cons f fs ih =>
    cases vs with
    | nil => cases h
    | cons v vs => exact (fits_field h.1).seq (ih h.2)

def rdSize (r : Rr) : Nat := match r.rd with | none => 0 | some vs => fieldsSize (writeLayout r.type) vs

structure SaneRr (r : Rr) : Prop where
  name : Sane r.name
  rd : ∀ vs, r.rd = some vs → HasKinds (writeLayout r.type) vs

def rrSize (r : Rr) : Nat := drySize r.name + (10 + rdSize r)

theorem fits_rr {r : Rr} (h : SaneRr r) : Fits (fun d => wRr d r) (rrSize r) := by
  have e : rrSize r = drySize r.name + ((writeU16be r.type).length + ((writeU16be r.cls).length + ((writeU32be r.ttl).length + (2 + rdSize r)))) := by
    rw [rrSize, be_length, be_length, u32_length]; omega
  rw [e]
  refine (fits_name h.name).seq ((fits_bytes _).seq ((fits_bytes _).seq ((fits_bytes _).seq ?_)))
  unfold rdSize
  cases hr : r.rd with
  | none => have := fits_bytes (writeU16be 0); rwa [be_length] at this
  | some vs => exact (fits_fields (h.rd vs hr)).len

def qsSize (q : Qs) : Nat := drySize q.name + 4

theorem fits_qs {q : Qs} (h : Sane q.name) : Fits (fun d => wQs d q) (qsSize q) := by
  have e : qsSize q = drySize q.name + ((writeU16be q.type).length + (writeU16be q.cls).length) := by
    rw [qsSize, be_length, be_length]
  rw [e]
  exact (fits_name h).seq ((fits_bytes _).seq (fits_bytes _))

/-- A message as the program can hold it: names without a refused leading dot. -/
structure SaneMsg (m : Msg) : Prop where
  qd : ∀ q ∈ m.qd, Sane q.name
  an : ∀ r ∈ m.an, SaneRr r
  ns : ∀ r ∈ m.ns, SaneRr r
  ar : ∀ r ∈ m.ar, SaneRr r

theorem header_length (m : Msg) : (header m).length = 12 := by simp [header, be_length]

def sizeOf (m : Msg) : Nat :=
  12 + ((m.qd.map qsSize).sum + ((m.an.map rrSize).sum + ((m.ns.map rrSize).sum + ((m.ar.map rrSize).sum + ((optRr m).toList.map rrSize).sum))))

theorem sane_root : Sane [0x2e] := ⟨by simp, .inr ⟨⟨true, 1, [], []⟩, rfl, rfl⟩⟩

theorem saneRr_opt {m : Msg} {r : Rr} (h : r ∈ (optRr m).toList) : SaneRr r := by
  unfold optRr at h
  dsimp only at h
  split at h
  · simp only [Option.toList_some, List.mem_singleton] at h
    subst h
    refine ⟨sane_root, ?_⟩
    intro vs hv
    simp only [Option.some.injEq] at hv
    subst hv
    exact ⟨trivial, trivial⟩
  · simp at h

theorem fits_msg {m : Msg} (h : SaneMsg m) : Fits (fun d => wMsg d m) (sizeOf m) := by
  unfold sizeOf
  rw [← header_length m]
  exact (fits_bytes _).seq ((fits_all _ fun q hq => fits_qs (h.qd q hq)).seq ((fits_all _ fun r hr => fits_rr (h.an r hr)).seq
    ((fits_all _ fun r hr => fits_rr (h.ns r hr)).seq ((fits_all _ fun r hr => fits_rr (h.ar r hr)).seq (fits_all _ fun r hr => fits_rr (saneRr_opt hr))))))

end Verif.Dns
