import Verif.Lemmas.Resource
import Verif.Lemmas.Service
import Verif.Lemmas.Req
import Verif.Lemmas.Dnssec
import Verif.Lemmas.Base32
import Verif.Props.Dnssec
/-
Responses made of resources.
-/
namespace Verif.Resource
open Verif.Bio Verif.DnsName Verif.Dns Verif.Label Verif.Req Verif.Dnssec Verif.Spec.DnsName Verif.Spec.Dns Verif.Spec.Dnssec Verif.Spec.Req Verif.Spec.Resource
open Verif.Props.Dnssec (GoodKey C45_key_tag)

/-! ### Synthesised names -/

/-- The labels of a synthesised name. -/
def synthLabels (ip : Bytes) : List Bytes := [0x5f :: Spec.Base32.text Base32.charsetHex ip false, [0x5f, 0x73, 0x79, 0x6e, 0x74, 0x68]]

theorem b32_length (ip : Bytes) : (Spec.Base32.text Base32.charsetHex ip false).length = (8 * ip.length + 4) / 5 := by
  unfold Spec.Base32.text
  simp only [Bool.false_eq_true, if_false, List.append_nil, List.length_map]
  rw [Base32.groups_length, Base32.bits_length]

theorem b32_char {ip : Bytes} {c : UInt8} (h : c ∈ Spec.Base32.text Base32.charsetHex ip false) : c ∈ Base32.charsetHex := by
  unfold Spec.Base32.text at h
  simp only [Bool.false_eq_true, if_false, List.append_nil, List.mem_map] at h
  obtain ⟨i, hi, rfl⟩ := h
  have := Base32.groups_lt _ (Base32.isBits_bits ip) i hi
  have h32 : Base32.charsetHex.length = 32 := rfl
  rw [List.getD_eq_getElem?_getD, List.getElem?_eq_getElem (by omega), Option.getD_some]
  exact List.getElem_mem _

theorem b32_clean : ∀ c ∈ Base32.charsetHex, (0x21 ≤ c.toNat ∧ c.toNat ≤ 0x7e ∧ c ∉ ([0x28, 0x29, 0x3b, 0x40, 0x22, 0x5c] : List UInt8)) ∧ c ≠ 0 ∧ c ≠ 0x2e := by decide

theorem synth_text (ip : Bytes) : synthOf ip = text (synthLabels ip) := by
  simp [synthOf, synthLabels, text, body]

theorem synth_ok {ip : Bytes} (h : ip.length ≤ 16) : OkName (synthLabels ip) ∧ Clean (synthOf ip) ∧ (synthOf ip).length ≤ 35 := by
  have hl := b32_length ip
  have hlen : (synthOf ip).length ≤ 35 := by unfold synthOf; simp; omega
  refine ⟨⟨?_, by rw [← synth_text]; omega⟩, ?_, hlen⟩
  · intro l hm
    rcases List.mem_cons.1 hm with rfl | hm
    · refine ⟨by simp, by simp; omega, ?_, ?_⟩
      · intro h0
        rcases List.mem_cons.1 h0 with h0 | h0
        · cases h0
        · exact (b32_clean _ (b32_char h0)).2.1 rfl
      · intro h0
        rcases List.mem_cons.1 h0 with h0 | h0
        · cases h0
        · exact (b32_clean _ (b32_char h0)).2.2 rfl
    · rcases List.mem_singleton.1 hm with rfl
      unfold OkLabel
      decide
  · intro c hc
    unfold synthOf at hc
    simp only [List.mem_append] at hc
    rcases hc with (hc | hc) | hc
    · revert c; decide
    · exact (b32_clean _ (b32_char hc)).1
    · revert c; decide

theorem synthName_eq {ip : Bytes} (h : ip.length ≤ 16) : synthName ip = .ok (synthOf ip) := by
  unfold synthName
  rw [(Base32.encode2_eq Base32.codecHex.size ip false).1]
  simp only [Out.bind]
  rw [if_neg (by rw [b32_length]; omega)]
  simp [synthOf, synthEnd]

/-! ### Names -/

/-- What is stored for a name: ".", if it has other characters. -/
def kept (s : Bytes) : Bytes := if Clean s then s else dot

theorem setName_kept {ls : List Bytes} (h : OkName ls) : setName (text ls) = .ok (kept (text ls)) := setName_text h

theorem kept_name {ls : List Bytes} (h : OkName ls) : ∃ ks, OkName ks ∧ kept (text ls) = text ks := by
  unfold kept
  split
  · exact ⟨ls, h, rfl⟩
  · exact ⟨[], by simp only [OkName, OkLabel]; decide, rfl⟩

theorem fqdn_text (ls : List Bytes) : isFqdn (text ls) = true := by
  unfold isFqdn
  rw [decide_eq_true_eq]
  unfold text
  split
  · rfl
  · rename_i h
    have := List.dropLast_concat_getLast h
    rw [← this]
    simp [body]

theorem body_text {ls : List Bytes} (h : ls ≠ []) : body ls = text ls := by unfold text; rw [if_neg h]

theorem inZone_iff {p c : List Bytes} (hp : OkName p) (hc : OkName c) (hne : p ≠ []) : inZone (text p) (text c) = true ↔ p <:+ c := by
  unfold inZone
  simp only [Bool.or_eq_true, decide_eq_true_eq]
  rw [← body_text hne]
  have hpos : 0 < (body p).length := by
    have := two_le_body hp.1
    have : 0 < p.length := List.length_pos_iff.2 hne
    omega
  constructor
  · rintro (h | h)
    · rw [body_text hne] at h
      rw [text_inj hc.1 hp.1 h]
      exact List.suffix_refl _
    · by_cases hn : c = []
      · subst hn
        have := h.length_le
        simp [text] at this
        simp [this] at hpos
      · rw [← body_text hn] at h
        replace hc := hc.1
        clear hn
        induction c with
        | nil =>
          have := h.length_le
          simp [body] at this
        | cons l c ih =>
          obtain ⟨x, hx⟩ := h
          rw [body_cons] at hx
          have hl := (hc l List.mem_cons_self).2.2.2
          have hc' : ∀ l ∈ c, OkLabel l := fun y hy => hc y (List.mem_cons_of_mem _ hy)
          have hx' : x ++ 0x2e :: body p = l ++ (0x2e :: body c) := by simpa using hx
          rcases List.append_eq_append_iff.1 hx' with ⟨a, h1, h2⟩ | ⟨a, h1, h2⟩
          · cases a with
            | nil =>
              simp only [List.nil_append, List.cons.injEq, true_and] at h2
              rw [body_inj hp.1 hc' h2]
              exact List.suffix_cons _ _
            | cons y a =>
              simp only [List.cons_append, List.cons.injEq] at h2
              exact absurd (by rw [h1, ← h2.1]; simp) hl
          · cases a with
            | nil =>
              simp only [List.nil_append, List.cons.injEq, true_and] at h2
              rw [← body_inj hc' hp.1 h2]
              exact List.suffix_cons _ _
            | cons y a =>
              simp only [List.cons_append, List.cons.injEq] at h2
              exact (ih ⟨a, h2.2.symm⟩ hc').trans (List.suffix_cons _ _)
  · rintro ⟨q, rfl⟩
    by_cases hq : q = []
    · subst hq
      left
      rw [body_text hne]
      rfl
    · right
      have hne' : q ++ p ≠ [] := by simp [hq]
      rw [← body_text hne']
      have e : body (q ++ p) = body q ++ body p := by simp [body]
      rw [e]
      have := List.dropLast_concat_getLast hq
      rw [← this]
      refine ⟨body q.dropLast ++ q.getLast hq, ?_⟩
      simp [body]

theorem isSubdomain_zone {p c : List Bytes} (hp : OkName p) (hc : OkName c) (hne : p ≠ []) : isSubdomain (text p) (text c) = .ok (inZone (text p) (text c)) := by
  obtain ⟨b, h1, h2⟩ := isSubdomain_text hp hc
  rw [h1]
  congr 1
  have := (inZone_iff hp hc hne).trans h2.symm
  exact (Bool.eq_iff_iff.2 this).symm

/-! ### Sections -/

theorem push_eq {sec : List Rr} {r : Rr} (h : sec.length < 255) : push sec r = sec ++ [r] := by unfold push; rw [if_neg (by omega)]

theorem target_eq {r : Rec} (h : GoodRec r) : target r = .ok (targetOf r) := by
  have nm : ∀ {n : Bytes}, (∃ ls, OkName ls ∧ n = text ls) → (if (!isFqdn n) = true then .ub else if n.length + 1 > 256 then .ub else .ok (some n) : Out Unit (Option Bytes)) = .ok (some n) := by
    rintro n ⟨ls, h1, rfl⟩
    have := h1.2
    rw [fqdn_text]
    rw [if_neg (by simp), if_neg (by omega)]
  cases r with
  | ds => rfl
  | ns n => exact nm h
  | glue4 n ip => exact nm h.1
  | glue6 n ip => exact nm h.1
  | synth4 ip => have h : ip.length = 4 := h; unfold target; simp only; rw [synthName_eq (by omega)]; rfl
  | synth6 ip => have h : ip.length = 16 := h; unfold target; simp only; rw [synthName_eq (by omega)]; rfl
  | txt => rfl

theorem toNs_eq {ls : List Bytes} (hls : OkName ls) : ∀ (rs : List Rec) (sec : List Rr), (∀ r ∈ rs, GoodRec r) → sec.length + rs.length ≤ 255 →
    toNs (text ls) rs sec = .ok (sec ++ nsSet (kept (text ls)) rs)
  | [], sec, _, _ => by simp [toNs, nsSet]
  | r :: rs, sec, hg, hl => by
    rw [List.length_cons] at hl
    rw [toNs, target_eq (hg r List.mem_cons_self)]
    simp only [Out.bind]
    have hg' : ∀ x ∈ rs, GoodRec x := fun x hx => hg x (List.mem_cons_of_mem _ hx)
    cases ht : targetOf r with
    | none =>
      simp only
      rw [toNs_eq hls rs sec hg' (by omega)]
      simp [nsSet, ht]
    | some t =>
      simp only
      rw [setName_kept hls]
      simp only
      rw [push_eq (by omega), toNs_eq hls rs _ hg' (by simp; omega)]
      simp [nsSet, ht]

theorem toDs_eq {ls : List Bytes} (hls : OkName ls) : ∀ (rs : List Rec) (sec : List Rr), sec.length + (dsSet (kept (text ls)) rs).length ≤ 255 →
    toDs (text ls) rs sec = .ok (sec ++ dsSet (kept (text ls)) rs)
  | [], sec, _ => by simp [toDs, dsSet]
  | r :: rs, sec, hl => by
    cases r
    case ds tag alg dt dig =>
      have e : dsSet (kept (text ls)) (.ds tag alg dt dig :: rs) = ⟨kept (text ls), 43, 1, 21600, some [.num tag, .num alg, .num dt, .bytes dig]⟩ :: dsSet (kept (text ls)) rs := rfl
      rw [e, List.length_cons] at hl
      rw [toDs, setName_kept hls]
      simp only [Out.bind]
      rw [push_eq (by omega), toDs_eq hls rs _ (by simp; omega), e]
      simp
    all_goals
      rw [toDs, toDs_eq hls rs sec hl]
      · rfl
      all_goals (intros; rename_i h; cases h)

theorem toTxt_eq {ls : List Bytes} (hls : OkName ls) : ∀ (rs : List Rec) (sec : List Rr), (∀ r ∈ rs, GoodRec r) → sec.length + rs.length ≤ 255 →
    toTxt (text ls) rs sec = .ok (sec ++ txtSet (kept (text ls)) rs)
  | [], sec, _, _ => by simp [toTxt, txtSet]
  | r :: rs, sec, hg, hl => by
    rw [List.length_cons] at hl
    have hg' : ∀ x ∈ rs, GoodRec x := fun x hx => hg x (List.mem_cons_of_mem _ hx)
    cases r
    case txt ts whole =>
      obtain ⟨hw, _⟩ : whole = true ∧ _ := hg _ List.mem_cons_self
      subst hw
      rw [toTxt, setName_kept hls]
      simp only [Out.bind]
      rw [if_neg (by simp), push_eq (by omega), toTxt_eq hls rs _ hg' (by simp; omega)]
      simp [txtSet]
    all_goals
      rw [toTxt, toTxt_eq hls rs sec hg' (by omega)]
      · rfl
      all_goals (intros; rename_i h; cases h)

/-- Addresses, with names as they are stored. -/
def glueKept (owner : Bytes) (rs : List Rec) : List Rr := rs.filterMap fun
  | .glue4 n ip => if inZone owner n then some ⟨kept n, 1, 1, 21600, some [.bytes ip]⟩ else none
  | .glue6 n ip => if inZone owner n then some ⟨kept n, 28, 1, 21600, some [.bytes ip]⟩ else none
  | .synth4 ip => some ⟨synthOf ip, 1, 1, 21600, some [.bytes ip]⟩
  | .synth6 ip => some ⟨synthOf ip, 28, 1, 21600, some [.bytes ip]⟩
  | _ => none

theorem glueKept_eq {owner : Bytes} {rs : List Rec} (h : CleanGlue owner rs) : glueKept owner rs = glueSet owner rs := by
  have fm : ∀ {f g : Rec → Option Rr} (l : List Rec), (∀ r ∈ l, f r = g r) → l.filterMap f = l.filterMap g := by
    intro f g l
    induction l with
    | nil => intro _; rfl
    | cons r l ih =>
      intro h
      rw [List.filterMap_cons, List.filterMap_cons, h r List.mem_cons_self, ih fun x hx => h x (List.mem_cons_of_mem _ hx)]
  unfold glueKept glueSet
  refine fm rs fun r hr => ?_
  have := h r hr
  cases r with
  | glue4 n ip =>
    simp only at this ⊢
    split
    · rename_i hz; unfold kept; rw [if_pos (this hz)]
    · rfl
  | glue6 n ip =>
    simp only at this ⊢
    split
    · rename_i hz; unfold kept; rw [if_pos (this hz)]
    · rfl
  | _ => rfl

theorem toGlue_eq {ls : List Bytes} (hls : OkName ls) (hne : ls ≠ []) : ∀ (rs : List Rec) (sec : List Rr), (∀ r ∈ rs, GoodRec r) → sec.length + rs.length ≤ 255 →
    toGlue (text ls) rs sec = .ok (sec ++ glueKept (text ls) rs)
  | [], sec, _, _ => by simp [toGlue, glueKept]
  | r :: rs, sec, hg, hl => by
    rw [List.length_cons] at hl
    have hg' : ∀ x ∈ rs, GoodRec x := fun x hx => hg x (List.mem_cons_of_mem _ hx)
    have hr := hg r List.mem_cons_self
    have skip := toGlue_eq hls hne rs sec hg' (by omega)
    have more := fun x => toGlue_eq hls hne rs (sec ++ [x]) hg' (by simp; omega)
    rw [toGlue]
    cases r with
    | ds => unfold glue; simp only [Out.bind]; rw [skip]; rfl
    | ns => unfold glue; simp only [Out.bind]; rw [skip]; rfl
    | txt => unfold glue; simp only [Out.bind]; rw [skip]; rfl
    | synth4 ip =>
      have h : ip.length = 4 := hr
      unfold glue
      simp only [Out.bind]
      rw [synthName_eq (by omega)]
      simp only
      rw [push_eq (by omega), more]
      simp [glueKept]
    | synth6 ip =>
      have h : ip.length = 16 := hr
      unfold glue
      simp only [Out.bind]
      rw [synthName_eq (by omega)]
      simp only
      rw [push_eq (by omega), more]
      simp [glueKept]
    | glue4 n ip =>
      obtain ⟨⟨ns, hn, rfl⟩, hi⟩ := hr
      unfold glue
      simp only [Out.bind]
      rw [isSubdomain_zone hls hn hne]
      simp only
      cases hz : inZone (text ls) (text ns) with
      | false =>
        simp only [Bool.not_false, if_true]
        rw [skip]
        simp [glueKept, hz]
      | true =>
        simp only [Bool.not_true, Bool.false_eq_true, if_false]
        rw [setName_kept hn]
        simp only
        rw [push_eq (by omega), more]
        simp [glueKept, hz]
    | glue6 n ip =>
      obtain ⟨⟨ns, hn, rfl⟩, hi⟩ := hr
      unfold glue
      simp only [Out.bind]
      rw [isSubdomain_zone hls hn hne]
      simp only
      cases hz : inZone (text ls) (text ns) with
      | false =>
        simp only [Bool.not_false, if_true]
        rw [skip]
        simp [glueKept, hz]
      | true =>
        simp only [Bool.not_true, Bool.false_eq_true, if_false]
        rw [setName_kept hn]
        simp only
        rw [push_eq (by omega), more]
        simp [glueKept, hz]

theorem sets_length (a b : Bytes) (rs : List Rec) : (nsSet a rs).length + (dsSet b rs).length ≤ rs.length := by
  induction rs with
  | nil => simp [nsSet, dsSet]
  | cons r rs ih =>
    rw [List.length_cons]
    cases r
    case ds => show (nsSet a rs).length + (_ :: dsSet b rs).length ≤ _; rw [List.length_cons]; omega
    case txt => show (nsSet a rs).length + (dsSet b rs).length ≤ _; omega
    all_goals show (_ :: nsSet a rs).length + (dsSet b rs).length ≤ _; rw [List.length_cons]; omega

/-! ### Records that can be signed -/

theorem whole_mk {n : Bytes} {type ttl : Nat} {vs : List Val} (hn : ∃ ls, OkName ls ∧ n = text ls) (ht : type < 65536) (hl : ttl < 4294967296)
    (hv : ReadVals (readLayout type) vs) (hs : valsSize (readLayout type) vs < 65536) : WholeRr ⟨n, type, 1, ttl, some vs⟩ :=
  ⟨⟨hn, ht, (by decide : 1 < 65536), hl, ⟨vs, rfl, hv⟩⟩, by intro v h; cases Option.some.inj h; exact hs⟩

theorem nameSize_le {n : Bytes} {ls : List Bytes} (h : OkName ls) (e : n = text ls) : valSize .name (.name n) ≤ 256 := by
  subst e
  have := h.2
  show (if text ls = [0x2e] then 1 else (text ls).length + 1) ≤ 256
  split <;> omega

theorem target_name {r : Rec} (h : GoodRec r) {t : Bytes} (ht : targetOf r = some t) : ∃ ls, OkName ls ∧ t = text ls := by
  cases r with
  | ds => cases ht
  | txt => cases ht
  | ns n => cases Option.some.inj ht; exact h
  | glue4 n ip => cases Option.some.inj ht; exact h.1
  | glue6 n ip => cases Option.some.inj ht; exact h.1
  | synth4 ip =>
    have hl : ip.length = 4 := h
    cases Option.some.inj ht
    exact ⟨_, (synth_ok (by omega)).1, synth_text ip⟩
  | synth6 ip =>
    have hl : ip.length = 16 := h
    cases Option.some.inj ht
    exact ⟨_, (synth_ok (by omega)).1, synth_text ip⟩

theorem nsSet_whole {owner : Bytes} (ho : ∃ ls, OkName ls ∧ owner = text ls) {rs : List Rec} (hg : ∀ r ∈ rs, GoodRec r) : ∀ x ∈ nsSet owner rs, WholeRr x := by
  intro x hx
  obtain ⟨r, hr, e⟩ := List.mem_filterMap.1 hx
  obtain ⟨t, ht, rfl⟩ := Option.map_eq_some_iff.1 e
  obtain ⟨ns, h1, h2⟩ := target_name (hg r hr) ht
  refine whole_mk ho (by decide) (by decide) ⟨⟨ns, h1, h2⟩, trivial⟩ ?_
  have := nameSize_le h1 h2
  show valSize .name (.name t) + 0 < 65536
  omega

theorem dsSet_whole {owner : Bytes} (ho : ∃ ls, OkName ls ∧ owner = text ls) {rs : List Rec} (hg : ∀ r ∈ rs, GoodRec r) : ∀ x ∈ dsSet owner rs, WholeRr x := by
  intro x hx
  obtain ⟨r, hr, e⟩ := List.mem_filterMap.1 hx
  cases r with
  | ds tag alg dt dig =>
    obtain ⟨h1, h2, h3, h4⟩ := hg _ hr
    cases Option.some.inj e
    refine whole_mk ho (by decide) (by decide) ⟨h1, h2, h3, trivial, trivial⟩ ?_
    show 2 + (1 + (1 + (dig.length + 0))) < 65536
    omega
  | _ => cases e

theorem sum_le (ts : List Bytes) (h : ∀ t ∈ ts, t.length ≤ 255) : (ts.map fun b => 1 + b.length).sum ≤ 256 * ts.length := by
  induction ts with
  | nil => simp
  | cons t ts ih =>
    have := ih fun x hx => h x (List.mem_cons_of_mem _ hx)
    have := h t List.mem_cons_self
    simp only [List.map_cons, List.sum_cons, List.length_cons]
    omega

theorem txtSet_whole {owner : Bytes} (ho : ∃ ls, OkName ls ∧ owner = text ls) {rs : List Rec} (hg : ∀ r ∈ rs, GoodRec r) : ∀ x ∈ txtSet owner rs, WholeRr x := by
  intro x hx
  obtain ⟨r, hr, e⟩ := List.mem_filterMap.1 hx
  cases r with
  | txt ts whole =>
    obtain ⟨_, h1, h2⟩ := hg _ hr
    cases Option.some.inj e
    refine whole_mk ho (by decide) (by decide) ⟨⟨h1, h2⟩, trivial⟩ ?_
    have := sum_le ts h2
    show (ts.map fun b => 1 + b.length).sum + 0 < 65536
    omega
  | _ => cases e

theorem root_name : ∃ ls, OkName ls ∧ dot = text ls := ⟨[], by simp only [OkName, OkLabel]; decide, rfl⟩

theorem soa_whole (E : Env) : WholeRr (soa E) := by
  refine whole_mk root_name (by decide) (by decide)
    ⟨root_name, root_name, (Nat.mod_lt _ (by decide) : serial E.now < 4294967296), (by decide : 1800 < 4294967296), (by decide : 900 < 4294967296), (by decide : 604800 < 4294967296),
      (by decide : 86400 < 4294967296), trivial⟩ ?_
  show (1 + (1 + (4 + (4 + (4 + (4 + (4 + 0))))))) < 65536
  decide

theorem nsec_whole {n : Bytes} (hn : ∃ ls, OkName ls ∧ n = text ls) {map : Bytes} (h : map.length ≤ 100) : WholeRr ⟨n, 47, 1, 86400, some [.name dot, .bytes map]⟩ := by
  refine whole_mk hn (by decide) (by decide) ⟨root_name, trivial, trivial⟩ ?_
  show 1 + (map.length + 0) < 65536
  omega

/-! ### Signing is safe -/

theorem signedData_ok (E : Env) {s : Rrsig} (hs : SigOk s) {rs : List Rr} (hne : rs ≠ []) (hw : ∀ r ∈ rs, WholeRr r) (h24 : ∀ r ∈ rs, r.type ≠ 24) :
    ∃ d, signedData E s rs = .ok d := by
  obtain ⟨rows, h1, h2, _⟩ := rows_exist hs.origTtl rs hw h24
  obtain ⟨d, h3, _⟩ := tbs_eq hs
  unfold signedData
  rw [if_neg hne, h1]
  simp only [Out.bind]
  unfold sortRaw
  rw [if_neg]
  · simp only [h3]
    exact ⟨_, rfl⟩
  · rintro ⟨_, h⟩
    obtain ⟨b, hb, h⟩ := List.any_eq_true.1 h
    obtain ⟨x, hx, rfl⟩ := List.mem_map.1 hb
    rw [rawKey_row (r := x.rr) (rd := x.rd) (b := x.bytes) (h2 x hx).1] at h
    simp at h

/-- What signing adds. -/
theorem signType_shape (E : Env) {rs : List Rr} {type : Nat} (h24 : type ≠ 24) (hw : ∀ r ∈ rs, r.type = type → WholeRr r) {key : Rr} {alg tag : Nat} (hk : GoodKey key alg tag)
    (priv : Bytes) : ∃ sg, signType E rs type key priv = .ok (rs ++ sg) ∧ (sg = [] ∨ ∃ r ∈ rs, ∃ (s : Rrsig) (d g : Bytes), r.type = type ∧ SigOk s ∧ s.signer = lowered key.name ∧
      E.ecdsa priv d = some g ∧ sg = [⟨lowered r.name, 46, key.cls, key.ttl, some { s with signature := g }.vals⟩]) := by
  unfold signType
  split
  · exact ⟨[], by simp, .inl rfl⟩
  · obtain ⟨flags, proto, pub, kb, k1, k2, k3⟩ := hk.rd
    obtain ⟨vs, k4, k5⟩ := hk.whole.read.rd
    rw [k1] at k4
    cases Option.some.inj k4
    have ksz := hk.whole.size _ k1
    rw [hk.type] at k5 ksz
    have htag := C45_key_tag k5 k2 (by rw [valsBytes_length k5 k2]; exact ksz)
    rw [← k3] at htag
    obtain ⟨kls, k6, k7⟩ := hk.whole.read.name
    have halg : alg < 256 := k5.2.2.1
    have hw' : ∀ r ∈ rs.filter (fun r => r.type = type), WholeRr r := by
      intro r hr
      have := List.mem_filter.1 hr
      exact hw r this.1 (by simpa using this.2)
    have h24' : ∀ r ∈ rs.filter (fun r => r.type = type), r.type ≠ 24 := by
      intro r hr
      have := (List.mem_filter.1 hr).2
      simp only [decide_eq_true_eq] at this
      rw [this]
      exact h24
    have hmem : ∀ r ∈ rs.filter (fun r => r.type = type), r ∈ rs ∧ r.type = type := by
      intro r hr
      have := List.mem_filter.1 hr
      exact ⟨this.1, by simpa using this.2⟩
    generalize (rs.filter fun r => r.type = type) = cov at *
    match cov, hw', h24' with
    | [], _, _ => exact ⟨[], by simp [signRrset], .inl rfl⟩
    | r :: cov, hw', h24' =>
      have hwr := (hw' r List.mem_cons_self).read
      obtain ⟨ns, n1, n2⟩ := hwr.name
      have h127 := okName_labels n1
      have hs : SigOk ⟨r.type, alg, count r.name, r.ttl, ((E.now + 1209600) % 4294967296).toNat, ((E.now - 1209600) % 4294967296).toNat, tag, lowered key.name, []⟩ := by
        refine ⟨hwr.type, halg, by dsimp only; rw [n2, count_text n1]; omega, hwr.ttl, by dsimp only; omega, by dsimp only; omega, by dsimp only; omega, ⟨_, okName_low k6, ?_⟩⟩
        dsimp only
        rw [lowered_low, k7, text_low]
      obtain ⟨d, hd⟩ := signedData_ok E hs (by simp) hw' h24'
      unfold signRrset
      rw [hk.type, k1]
      simp only [htag, Out.bind, signRrsig]
      rw [hd]
      simp only
      cases hg : E.ecdsa priv (E.H d) with
      | none => exact ⟨[], by simp, .inl rfl⟩
      | some g => exact ⟨_, rfl, .inr ⟨r, (hmem r List.mem_cons_self).1, _, _, g, (hmem r List.mem_cons_self).2, hs, rfl, hg, rfl⟩⟩

theorem signType_ok (E : Env) {rs : List Rr} {type : Nat} (h24 : type ≠ 24) (hw : ∀ r ∈ rs, r.type = type → WholeRr r) {key : Rr} {alg tag : Nat} (hk : GoodKey key alg tag)
    (priv : Bytes) : ∃ sg, signType E rs type key priv = .ok (rs ++ sg) ∧ sg.length ≤ 1 ∧ ∀ r ∈ sg, r.type = 46 := by
  obtain ⟨sg, h1, h2⟩ := signType_shape E h24 hw hk priv
  refine ⟨sg, h1, ?_⟩
  rcases h2 with rfl | ⟨r, _, s, d, g, _, _, _, _, rfl⟩
  · simp
  · exact ⟨by simp, by intro x hx; rcases List.mem_singleton.1 hx with rfl; rfl⟩

/-! ### Responses -/

theorem has_ds (owner : Bytes) (rs : List Rec) : has rs 0 = true ↔ dsSet owner rs ≠ [] := by
  unfold has dsSet
  rw [List.any_eq_true, ← List.length_pos_iff, List.length_pos_iff_exists_mem]
  constructor
  · rintro ⟨r, hr, h⟩
    cases r with
    | ds tag alg dt dig => exact ⟨_, List.mem_filterMap.2 ⟨_, hr, rfl⟩⟩
    | _ => simp [Rec.type] at h
  · rintro ⟨x, hx⟩
    obtain ⟨r, hr, e⟩ := List.mem_filterMap.1 hx
    cases r with
    | ds tag alg dt dig => exact ⟨_, hr, rfl⟩
    | _ => cases e

theorem hasNs_iff (rs : List Rec) : hasNs rs = true ↔ HasNs rs := by
  unfold hasNs HasNs
  rw [List.any_eq_true]
  constructor <;> rintro ⟨r, hr, h⟩ <;> refine ⟨r, hr, ?_⟩ <;> cases r <;> simp_all [Rec.type, targetOf]

/-- The key of the zone can sign. -/
theorem signZsk_ok {E : Env} (hE : KeyOk E) {rs : List Rr} {type : Nat} (h24 : type ≠ 24) (hw : ∀ r ∈ rs, r.type = type → WholeRr r) : ∃ sg, Signs E rs type sg := by
  obtain ⟨pub, h1, h2⟩ := hE.zsk
  unfold Signs signZsk zsk dnskeyCreate
  rw [h1]
  simp only [Option.map_some, Out.bind]
  have key : ∃ tag, GoodKey ⟨[0x2e], 48, 1, 10800, some [.num 0x100, .num 3, .num 13, .bytes pub]⟩ 13 tag := ?_
  · obtain ⟨tag, hk⟩ := key
    exact signType_ok E h24 hw hk zskPriv
  have hv : ReadVals (readLayout 48) [.num 0x100, .num 3, .num 13, .bytes pub] := ⟨(by decide : 0x100 < 65536), (by decide : 3 < 256), (by decide : 13 < 256), trivial, trivial⟩
  refine ⟨_, whole_mk root_name (by decide) (by decide) hv ?_, rfl, ⟨_, _, _, _, rfl, ⟨_, _, rfl, ⟨_, _, rfl, ⟨_, _, rfl, ⟨_, _, rfl, rfl, rfl⟩, rfl⟩, rfl⟩, rfl⟩, rfl⟩⟩
  show 2 + (1 + (1 + (pub.length + 0))) < 65536
  omega

theorem nsSet_type {owner : Bytes} {rs : List Rec} : ∀ x ∈ nsSet owner rs, x.type = 2 := by
  intro x hx
  obtain ⟨r, _, e⟩ := List.mem_filterMap.1 hx
  obtain ⟨t, _, rfl⟩ := Option.map_eq_some_iff.1 e
  rfl

theorem referral_eq {E : Env} (hE : KeyOk E) {ls : List Bytes} (hls : OkName ls) (hne : ls ≠ []) {rs : List Rec} (hg : ∀ r ∈ rs, GoodRec r) (hl : rs.length ≤ 255) :
    ∃ sg, referral E rs (text ls) [] = .ok (nsSet (kept (text ls)) rs ++ dsSet (kept (text ls)) rs ++ sg, glueKept (text ls) rs) ∧
      Signs E (nsSet (kept (text ls)) rs ++ dsSet (kept (text ls)) rs) (if dsSet (kept (text ls)) rs ≠ [] then 43 else 2) sg := by
  have ho := kept_name hls
  have hw : ∀ x ∈ nsSet (kept (text ls)) rs ++ dsSet (kept (text ls)) rs, WholeRr x := by
    intro x hx
    rcases List.mem_append.1 hx with hx | hx
    · exact nsSet_whole ho hg x hx
    · exact dsSet_whole ho hg x hx
  have ht : (if dsSet (kept (text ls)) rs ≠ [] then 43 else 2) ≠ 24 := by split <;> decide
  obtain ⟨sg, hs⟩ := signZsk_ok hE ht (fun r hr _ => hw r hr)
  refine ⟨sg, ?_, hs⟩
  have hlen := sets_length (kept (text ls)) (kept (text ls)) rs
  unfold referral
  rw [toNs_eq hls rs [] hg (by simpa using hl)]
  simp only [Out.bind, List.nil_append]
  rw [toDs_eq hls rs _ (by omega)]
  simp only
  rw [toGlue_eq hls hne rs [] hg (by simpa using hl)]
  simp only [List.nil_append]
  have e : (if has rs 0 = true then 43 else 2) = if dsSet (kept (text ls)) rs ≠ [] then 43 else 2 := by
    by_cases h : has rs 0 = true
    · rw [if_pos h, if_pos ((has_ds _ _).1 h)]
    · rw [if_neg h, if_neg fun h' => h ((has_ds _ _).2 h')]
  rw [e, hs.1]

theorem denial_eq {E : Env} (hE : KeyOk E) {ls : List Bytes} (hls : OkName ls) :
    ∃ sg sg', denial E (text ls) = .ok ([nsecOf (kept (text ls)) []] ++ sg ++ [soaOf (serial E.now)] ++ sg') ∧ Signs E [nsecOf (kept (text ls)) []] 47 sg ∧
      Signs E ([nsecOf (kept (text ls)) []] ++ sg ++ [soaOf (serial E.now)]) 6 sg' := by
  have ho := kept_name hls
  obtain ⟨sg, hs⟩ := signZsk_ok (rs := [nsecOf (kept (text ls)) []]) (type := 47) hE (by decide)
    (fun r hr _ => by rcases List.mem_singleton.1 hr with rfl; exact nsec_whole ho (by decide))
  obtain ⟨sg', hs'⟩ := signZsk_ok (rs := [nsecOf (kept (text ls)) []] ++ sg ++ [soaOf (serial E.now)]) (type := 6) hE (by decide)
    (fun r hr ht => by
      rcases List.mem_append.1 hr with hr | hr
      · rcases List.mem_append.1 hr with hr | hr
        · rcases List.mem_singleton.1 hr with rfl; cases ht
        · rw [hs.2.2 r hr] at ht; cases ht
      · rcases List.mem_singleton.1 hr with rfl; exact soa_whole E)
  refine ⟨sg, sg', ?_, hs, hs'⟩
  unfold denial empty
  rw [setName_kept hls]
  simp only [Out.bind]
  have e1 : signZsk E [⟨kept (text ls), 47, 1, 86400, some [.name dot, .bytes []]⟩] 47 = .ok ([nsecOf (kept (text ls)) []] ++ sg) := hs.1
  rw [e1]
  simp only
  rw [push_eq (by have := hs.2.1; simp; omega)]
  exact hs'.1

theorem fallback_eq {E : Env} (hE : KeyOk E) {ls : List Bytes} (hls : OkName ls) (hne : ls ≠ []) {rs : List Rec} (hg : ∀ r ∈ rs, GoodRec r) (hl : rs.length ≤ 255) :
    ∃ ns ar, fallback E rs (text ls) [] = .ok (ns, ar) ∧ Authority E (kept (text ls)) (glueKept (text ls) rs) rs ns ar := by
  unfold fallback
  by_cases h : hasNs rs = true
  · rw [if_pos h]
    obtain ⟨sg, h1, h2⟩ := referral_eq hE hls hne hg hl
    exact ⟨_, _, h1, .inl ⟨(hasNs_iff rs).1 h, sg, h2, rfl, rfl⟩⟩
  · rw [if_neg h]
    obtain ⟨sg, sg', h1, h2, h3⟩ := denial_eq hE hls
    rw [h1]
    exact ⟨_, _, rfl, .inr ⟨fun h' => h ((hasNs_iff rs).2 h'), sg, sg', h2, h3, rfl, rfl⟩⟩

theorem signs_nil {E : Env} (hE : KeyOk E) {type : Nat} {sg : List Rr} (h : Signs E [] type sg) : sg = [] := by
  obtain ⟨pub, h1, _⟩ := hE.zsk
  have := h.1
  unfold signZsk zsk dnskeyCreate at this
  rw [h1] at this
  simp only [Option.map_some, Out.bind] at this
  rw [Props.Dnssec.C45_nothing E (.inr (by simp))] at this
  simpa using (Out.ok.inj this).symm

theorem single_eq {E : Env} (hE : KeyOk E) {ls : List Bytes} (hls : OkName ls) (hne : ls ≠ []) {rs : List Rec} (hg : ∀ r ∈ rs, GoodRec r) (hl : rs.length ≤ 255) (type : Nat) :
    ∃ m, single E rs (text ls) type = .ok m ∧ Direct E (kept (text ls)) (glueKept (text ls) rs) rs type m := by
  have ho := kept_name hls
  obtain ⟨fns, far, hf, ha⟩ := fallback_eq hE hls hne hg hl
  have hlen := sets_length (kept (text ls)) (kept (text ls)) rs
  have pos : ∀ {a sg : List Rr}, a ≠ [] → 0 < (a ++ sg).length := by
    intro a sg h
    have := List.length_pos_iff.2 h
    simp; omega
  unfold single direct
  by_cases h43 : type = 43
  · subst h43
    rw [if_pos rfl, toDs_eq hls rs [] (by simp; omega)]
    simp only [Out.bind, List.nil_append]
    obtain ⟨sg, hs⟩ := signZsk_ok (rs := dsSet (kept (text ls)) rs) (type := 43) hE (by decide) (fun r hr _ => dsSet_whole ho hg r hr)
    rw [hs.1]
    simp only
    by_cases hd : dsSet (kept (text ls)) rs = []
    · have hsg : sg = [] := signs_nil hE (hd ▸ hs)
      rw [hd, hsg]
      simp only [List.append_nil, List.length_nil, and_self, if_true, hf]
      exact ⟨_, rfl, .inr ⟨fun h => h.2 hd, fun h => absurd h.1 (by decide), fun h => absurd h.1 (by decide), rfl, rfl, rfl, ha⟩⟩
    · have hp := pos (sg := sg) hd
      rw [if_neg (by omega), if_pos hp]
      exact ⟨_, rfl, .inl (.inl ⟨rfl, hd, sg, hs, rfl, rfl, rfl, rfl, rfl⟩)⟩
  · rw [if_neg h43]
    by_cases h2 : type = 2
    · subst h2
      rw [if_pos rfl, toNs_eq hls rs [] hg (by simpa using hl)]
      simp only [Out.bind, List.nil_append]
      rw [toGlue_eq hls hne rs [] hg (by simpa using hl)]
      simp only [List.nil_append]
      obtain ⟨sg, hs⟩ := signZsk_ok (rs := nsSet (kept (text ls)) rs) (type := 2) hE (by decide) (fun r hr _ => nsSet_whole ho hg r hr)
      rw [hs.1]
      simp only
      by_cases hd : nsSet (kept (text ls)) rs = []
      · have hsg : sg = [] := signs_nil hE (hd ▸ hs)
        have hno : glueKept (text ls) rs = [] := by
          rw [List.eq_nil_iff_forall_not_mem]
          intro x hx
          obtain ⟨r, hr, e⟩ := List.mem_filterMap.1 hx
          have : ∀ t, targetOf r ≠ some t := by
            intro t ht
            have : (⟨kept (text ls), 2, 1, 21600, some [.name t]⟩ : Rr) ∈ nsSet (kept (text ls)) rs := List.mem_filterMap.2 ⟨r, hr, by rw [ht]; rfl⟩
            rw [hd] at this
            cases this
          cases r with
          | ds => cases e
          | txt => cases e
          | ns => cases e
          | _ => exact this _ rfl
        rw [hd, hsg, hno]
        simp only [List.append_nil, List.length_nil, and_self, if_true, hf]
        exact ⟨_, rfl, .inr ⟨fun h => absurd h.1 (by decide), fun h => absurd h.1 (by decide), fun h => h.2 hd, rfl, rfl, rfl, by rw [hno] at ha; exact ha⟩⟩
      · have hp := pos (sg := sg) hd
        rw [if_neg (by simp only [List.length_nil, true_and]; omega), if_neg (by simp)]
        exact ⟨_, rfl, .inl (.inr (.inr ⟨rfl, hd, sg, hs, rfl, rfl, rfl, rfl, rfl⟩))⟩
    · rw [if_neg h2]
      by_cases h16 : type = 16
      · subst h16
        rw [if_pos rfl, toTxt_eq hls rs [] hg (by simpa using hl)]
        simp only [Out.bind, List.nil_append]
        obtain ⟨sg, hs⟩ := signZsk_ok (rs := txtSet (kept (text ls)) rs) (type := 16) hE (by decide) (fun r hr _ => txtSet_whole ho hg r hr)
        rw [hs.1]
        simp only
        by_cases hd : txtSet (kept (text ls)) rs = []
        · have hsg : sg = [] := signs_nil hE (hd ▸ hs)
          rw [hd, hsg]
          simp only [List.append_nil, List.length_nil, and_self, if_true, hf]
          exact ⟨_, rfl, .inr ⟨fun h => absurd h.1 (by decide), fun h => h.2 hd, fun h => absurd h.1 (by decide), rfl, rfl, rfl, ha⟩⟩
        · have hp := pos (sg := sg) hd
          rw [if_neg (by omega), if_pos hp]
          exact ⟨_, rfl, .inl (.inr (.inl ⟨rfl, hd, sg, hs, rfl, rfl, rfl, rfl, rfl⟩))⟩
      · rw [if_neg h16]
        simp only [Out.bind, List.length_nil, and_self, if_true, hf]
        exact ⟨_, rfl, .inr ⟨fun h => h43 h.1, fun h => h16 h.1, fun h => h2 h.1, rfl, rfl, rfl, ha⟩⟩

/-- The last label of a name. -/
theorem last_ok {ls : List Bytes} (h : OkName ls) (hne : ls ≠ []) : OkName [ls.getLast hne] ∧ (text [ls.getLast hne]).length ≤ 64 := by
  have hl := h.1 _ (List.getLast_mem hne)
  have : (text [ls.getLast hne]).length ≤ 64 := by have := hl.2.1; simp [text, body]; omega
  exact ⟨⟨by intro l hm; rcases List.mem_singleton.1 hm with rfl; exact hl, by omega⟩, this⟩

theorem drop_last {ls : List Bytes} (hne : ls ≠ []) : ls.drop (ls.length - 1) = [ls.getLast hne] := by
  conv => lhs; rw [← List.dropLast_concat_getLast hne]
  rw [List.drop_append, List.length_append, List.length_dropLast]
  simp

theorem toDns_eq {E : Env} (hE : KeyOk E) {ls : List Bytes} (hls : OkName ls) (hne : ls ≠ []) {rs : List Rec} (hg : ∀ r ∈ rs, GoodRec r) (hl : rs.length ≤ 255) (type : Nat) :
    ∃ m, toDns E rs (text ls) type = .ok (some m) ∧
      if 2 ≤ ls.length then
        m.code = 0 ∧ m.flags = 0 ∧ m.an = [] ∧ Authority E (kept (text [ls.getLast hne])) (glueKept (text [ls.getLast hne]) rs) rs m.ns m.ar
      else Direct E (kept (text ls)) (glueKept (text ls) rs) rs type m := by
  obtain ⟨h1, h2⟩ := last_ok hls hne
  have hpos : 0 < ls.length := List.length_pos_iff.2 hne
  have hi : index ls.length (-1) = ls.length - 1 := by unfold index; split <;> omega
  have hf := labelFrom_text hls (i := -1) (by rw [hi]; omega)
  rw [hi, show ((ls.length : Int) - 1).toNat = ls.length - 1 by omega, drop_last hne, body_text (by simp)] at hf
  unfold toDns
  rw [fqdn_text, count_text hls]
  rw [if_neg (by simp), if_neg (by omega), hf]
  simp only [Out.bind]
  rw [if_neg (by omega), if_neg (by omega)]
  by_cases h : 2 ≤ ls.length
  · obtain ⟨ns, ar, h3, h4⟩ := fallback_eq hE h1 (by simp) hg hl
    rw [if_pos (by omega), h3]
    simp only [if_pos h]
    exact ⟨_, rfl, rfl, rfl, rfl, h4⟩
  · obtain ⟨m, h3, h4⟩ := single_eq hE hls hne hg hl type
    rw [if_neg (by omega), h3]
    simp only [if_neg h]
    exact ⟨_, rfl, h4⟩

end Verif.Resource
