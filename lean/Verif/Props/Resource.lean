import Verif.Lemmas.Synth
import Verif.Lemmas.Strict
import Verif.Lemmas.BuiltinTable
import Verif.Lemmas.Eval
import Verif.Props.Tld
import Verif.Props.DnsName
/-
C29: decoding of resources. C30: responses made of them. C46: synthesised names.
-/
namespace Verif.Props.Resource
open Verif.Bio Verif.DnsName Verif.Label Verif.Dnssec Verif.Resource Verif.Spec.DnsName Verif.Spec.Req Verif.Spec.Resource
open Verif.Dns (Msg Rr Val)
open Verif.Props.Dnssec (toy)

/-! ### Decoding -/

/-- C29: a resource of up to 255 records is decoded to exactly its records, and freed. -/
theorem C29_exact {d : Bytes} {rs : List Rec} (h : Encodes d rs) (hl : rs.length ≤ 255) : decode d = .ok rs ∧ free rs = .ok () := by
  refine ⟨decode_eq h hl, ?_⟩
  unfold free
  rw [if_neg]
  rw [List.any_eq_true]
  rintro ⟨r, hr, hx⟩
  have := recsAt_good h.2 r hr
  cases r with
  | txt ts whole =>
    obtain ⟨rfl, _⟩ := this
    cases hx
  | _ => cases hx

/-- C29: from it, a response is made for every name and type. -/
theorem C29_serves {E : Env} (hE : KeyOk E) {d : Bytes} {rs : List Rec} (h : Encodes d rs) (hl : rs.length ≤ 255) {ls : List Bytes} (hls : OkName ls) (hne : ls ≠ []) (type : Nat) :
    ∃ m, toDns E rs (text ls) type = .ok (some m) := by
  obtain ⟨m, h1, _⟩ := toDns_eq hE hls hne (recsAt_good h.2) hl type
  exact ⟨m, h1⟩

/-- C29, in part: up to 256 bytes decode without overrunning the table of records. Missing: 257
to 512 bytes, where that is false (`C29_overrun_false`); that what is decoded is whole, which
is false (`C29_half_false`); and that it can be served and freed, which is false
(`C29_abort_false`, `C29_text_false`). -/
theorem C29_safe_partial (d : Bytes) (h : d.length ≤ 256) : decode d ≠ .ub := by
  unfold decode
  cases h1 : readU8 d with
  | ub => exact absurd h1 (readU8_ne_ub _)
  | err e => simp [Out.bind]
  | ok v =>
    simp only [Out.bind]
    split
    · simp
    · have := readU8_len h1
      rcases decodeLoop_safe d (v.2.length + 1) v.2 [] (by omega) (by simp; omega) with h2 | ⟨rs, h2, _⟩ <;> rw [h2] <;> simp

/-- There is no name in ones. -/
theorem no_name {n o : Nat} {ls : List Bytes} {e k : Nat} (h : Expands false (0 :: List.replicate n 1) o ls e k) : 1 ≤ o → False := by
  have get : ∀ {o : Nat} {c : UInt8}, 1 ≤ o → (0 :: List.replicate n 1 : Bytes)[o]? = some c → c = 1 := by
    intro o c ho h
    obtain ⟨q, rfl⟩ : ∃ q, o = q + 1 := ⟨o - 1, by omega⟩
    rw [List.getElem?_cons_succ, List.getElem?_replicate] at h
    split at h
    · exact (Option.some.inj h).symm
    · cases h
  induction h with
  | root h => intro ho; exact absurd (get ho h) (by decide)
  | label _ _ _ _ ih => intro _; exact ih (by omega)
  | @pointer _ _ _ b _ _ _ ha hb hp _ _ _ =>
    intro ho
    cases get ho ha
    have := b.toNat_lt
    have : (1 : UInt8).toNat = 1 := rfl
    omega

theorem ones_read {n k : Nat} (h : k ≤ n) : ∃ r, readRec (0 :: List.replicate n 1) 1 (List.replicate k 1) = .ok (r, List.replicate k 1) := by
  show ∃ r, readNs _ _ = _
  unfold readNs readName
  cases hp : parse (some (0 :: List.replicate n 1)) (List.replicate k 1) with
  | ub => exact absurd hp (DnsName.C21_safe _ _)
  | err e => exact ⟨_, rfl⟩
  | ok r =>
    exfalso
    have e : (List.replicate k 1 : Bytes) = ((0 :: List.replicate n 1 : Bytes).drop (n - k + 1)).take k := by
      rw [List.drop_succ_cons, List.drop_replicate, List.take_replicate]
      congr 1
      omega
    rw [e] at hp
    obtain ⟨ls, e, d, h1, _⟩ := (DnsName.C21_meaning _ _ _ r.1 r.2).1 hp
    exact no_name h1 (by omega)

theorem ones_loop (n : Nat) : ∀ (k fuel : Nat) (acc : List Rec), k ≤ n → acc.length ≤ 255 → 256 ≤ acc.length + k → k < fuel →
    decodeLoop (0 :: List.replicate n 1) fuel (List.replicate k 1) acc = .ub
  | 0, _, _, _, _, _, _ => by omega
  | k + 1, fuel + 1, acc, hk, h1, h2, hf => by
    obtain ⟨r, hr⟩ := ones_read (n := n) (k := k) (by omega)
    rw [List.replicate_succ, decodeLoop]
    rw [show (1 : UInt8).toNat = 1 from rfl, hr]
    simp only [Out.bind]
    split
    · rfl
    · exact ones_loop n k fuel _ (by omega) (by simp; omega) (by simp; omega) (by omega)

/-- C29, negated: from 257 bytes on there can be 256 records, and more, for which there is no
room. Each is a name server the name of which does not end; reading goes on after the type. -/
theorem C29_overrun_false (n : Nat) (h : 256 ≤ n) : decode (0 :: List.replicate n 1) = .ub := by
  unfold decode
  have := readU8_append (v := 0) (r := List.replicate n 1) (by decide)
  rw [show (leBytes 1 0 ++ List.replicate n 1 : Bytes) = 0 :: List.replicate n 1 from rfl] at this
  rw [this]
  simp only [Out.bind]
  rw [if_neg (by simp)]
  exact ones_loop n n _ [] (Nat.le_refl _) (by decide) (by simpa using h) (by simp)

/-- C29, negated: a record that is cut off is kept, here an address of which nothing was read. -/
theorem C29_half_false : decode [0, 2, 1, 0x61, 0] = .ok [.glue4 [0x61, 0x2e] [0, 0, 0, 0]] := by decide +kernel

/-- C29, negated: a name server without a name aborts the program when it is asked for. -/
theorem C29_abort_false : ∃ rs, decode [0, 1] = .ok rs ∧ ∀ E : Env, toDns E rs [0x61, 0x2e] 2 = .ub := by
  refine ⟨[.ns []], by decide +kernel, fun E => ?_⟩
  rfl

/-- C29, negated: the memory of a text that is cut off is freed twice. -/
theorem C29_text_false : ∃ rs, decode [0, 6, 1] = .ok rs ∧ free rs = .ub := ⟨[.txt [] false], by decide +kernel, rfl⟩

/-- C29: every entry of the built-in list is a resource. -/
theorem C29_builtin {name d : Bytes} (h0 : 0 ∉ name) (h : Tld.lookup name = .ok (some d)) : ∃ rs, Encodes d rs ∧ rs.length ≤ 255 ∧ decode d = .ok rs := by
  obtain ⟨⟨r, h1, h2⟩, h3⟩ := Tld.C50_data name h0
  obtain ⟨a, ha, hs⟩ : ∃ a ∈ Tld.nameTable, Spec.Tld.SameName a name := by
    refine Classical.byContradiction fun hn => ?_
    have := h2.2 fun a ha hs => hn ⟨a, ha, hs⟩
    rw [h1, this] at h
    cases Out.ok.inj h
  obtain ⟨i, hi, hx⟩ := List.mem_iff_getElem.1 ha
  have hlen := Tld.table_length
  have hi' : i < Tld.dataTable.length := by omega
  have h4 := h3 i a _ (by rw [List.getElem?_eq_getElem hi, hx]) hs (List.getElem?_eq_getElem hi')
  rw [h] at h4
  have h5 := Option.some.inj (Out.ok.inj h4)
  obtain ⟨n, hn, he⟩ := List.mem_map.1 (List.getElem_mem hi')
  rw [← he] at h5
  obtain ⟨rs, k1, k2⟩ := entryOk_spec (entryFast_ok (entries_ok hn))
  rw [← h5] at k1
  exact ⟨rs, k1, k2, decode_eq k1 k2⟩

/-- A DS record, a name server, and another with an address, the name of which ends in a pointer. -/
def sample : Bytes := [0, 0, 0x12, 0x34, 8, 2, 2, 0xaa, 0xbb, 1, 2, 0x6e, 0x73, 1, 0x62, 0, 2, 1, 0x78, 1, 0x61, 0, 10, 0, 0, 1]
def sampleRecs : List Rec := [.ds 0x1234 8 2 [0xaa, 0xbb], .ns [0x6e, 0x73, 0x2e, 0x62, 0x2e], .glue4 [0x78, 0x2e, 0x61, 0x2e] [10, 0, 0, 1]]
theorem sample_encodes : Encodes sample sampleRecs := strict_spec (by decide +kernel)
example : decode sample = .ok sampleRecs ∧ free sampleRecs = .ok () := C29_exact sample_encodes (by decide)
theorem toy_keys : KeyOk toy := ⟨⟨_, rfl, rfl⟩, ⟨_, rfl, rfl⟩⟩
example : ∃ m, toDns toy sampleRecs [0x77, 0x2e, 0x61, 0x2e] 1 = .ok (some m) := C29_serves toy_keys sample_encodes (by decide) (ls := [[0x77], [0x61]]) (by simp only [OkName, OkLabel]; decide) (by simp) 1
/-- "com" is built in. -/
example : ∃ d, Tld.lookup [0x63, 0x6f, 0x6d] = .ok (some d) := by
  obtain ⟨d, h1, h2⟩ := okWith_spec (p := Option.isSome) (r := Tld.lookup [0x63, 0x6f, 0x6d]) (by decide +kernel)
  obtain ⟨d, rfl⟩ := Option.isSome_iff_exists.1 h2
  exact ⟨d, h1⟩

/-! ### Responses -/

/-- C30, in part: below a name there is a referral with exactly the name servers, DS records and
in-zone addresses of the resource, or a denial if there is no name server. Missing: addresses
of name servers with unusual characters, where it is false (`C30_glue_false`); and the
addresses if the query is in other case, where it is false (`C30_case_false`): here "in the
zone" is as the query spells it. -/
theorem C30_below_partial {E : Env} (hE : KeyOk E) {d : Bytes} {rs : List Rec} (h : Encodes d rs) (hl : rs.length ≤ 255) {sub : List Bytes} {tld : Bytes}
    (hls : OkName (sub ++ [tld])) (hsub : sub ≠ []) (hc : Clean tld) (hg : CleanGlue (text [tld]) rs) (type : Nat) :
    ∃ res m, decode d = .ok res ∧ toDns E res (text (sub ++ [tld])) type = .ok (some m) ∧ m.code = 0 ∧ m.flags = 0 ∧ m.an = [] ∧
      Authority E (text [tld]) (glueSet (text [tld]) rs) rs m.ns m.ar := by
  have hne : sub ++ [tld] ≠ [] := by simp
  obtain ⟨m, h1, h2⟩ := toDns_eq hE hls hne (recsAt_good h.2) hl type
  have hlen : 2 ≤ (sub ++ [tld]).length := by
    have := List.length_pos_iff.2 hsub
    simp
    omega
  rw [if_pos hlen] at h2
  have e : (sub ++ [tld]).getLast hne = tld := by simp
  have ct : Clean (text [tld]) := by
    unfold text body
    intro c hm
    simp at hm
    rcases hm with hm | rfl
    · exact hc c hm
    · decide
  rw [e, glueKept_eq hg, kept, if_pos ct] at h2
  exact ⟨rs, m, decode_eq h hl, h1, h2⟩

/-- C30, in part: the name itself. The same is missing. -/
theorem C30_itself_partial {E : Env} (hE : KeyOk E) {d : Bytes} {rs : List Rec} (h : Encodes d rs) (hl : rs.length ≤ 255) {tld : Bytes}
    (hls : OkName [tld]) (hc : Clean tld) (hg : CleanGlue (text [tld]) rs) (type : Nat) :
    ∃ res m, decode d = .ok res ∧ toDns E res (text [tld]) type = .ok (some m) ∧ Direct E (text [tld]) (glueSet (text [tld]) rs) rs type m := by
  obtain ⟨m, h1, h2⟩ := toDns_eq hE hls (by simp) (recsAt_good h.2) hl type
  rw [if_neg (by simp)] at h2
  have ct : Clean (text [tld]) := by
    unfold text body
    intro c hm
    simp at hm
    rcases hm with hm | rfl
    · exact hc c hm
    · decide
  rw [glueKept_eq hg, kept, if_pos ct] at h2
  exact ⟨rs, m, decode_eq h hl, h1, h2⟩

/-- The referral for "w.a.": two NS records, the DS record with its signature, and the address. -/
example : ∃ res m sg, decode sample = .ok res ∧ toDns toy res [0x77, 0x2e, 0x61, 0x2e] 1 = .ok (some m) ∧
    m.ns = [⟨[0x61, 0x2e], 2, 1, 21600, some [.name [0x6e, 0x73, 0x2e, 0x62, 0x2e]]⟩, ⟨[0x61, 0x2e], 2, 1, 21600, some [.name [0x78, 0x2e, 0x61, 0x2e]]⟩,
      ⟨[0x61, 0x2e], 43, 1, 21600, some [.num 0x1234, .num 8, .num 2, .bytes [0xaa, 0xbb]]⟩] ++ sg ∧
    m.ar = [⟨[0x78, 0x2e, 0x61, 0x2e], 1, 1, 21600, some [.bytes [10, 0, 0, 1]]⟩] := by
  obtain ⟨res, m, h1, h2, _, _, _, h3⟩ := C30_below_partial toy_keys sample_encodes (by decide) (sub := [[0x77]]) (tld := [0x61]) (by simp only [OkName, OkLabel]; decide) (by simp) (by decide)
    (by intro r hr; simp only [sampleRecs, List.mem_cons, List.not_mem_nil, or_false] at hr; rcases hr with rfl | rfl | rfl <;> first | trivial | (intro _; decide)) 1
  rcases h3 with ⟨_, sg, _, h4, h5⟩ | ⟨h4, _⟩
  · exact ⟨res, m, sg, h1, h2, h4, h5⟩
  · exact absurd ⟨.ns [0x6e, 0x73, 0x2e, 0x62, 0x2e], by simp [sampleRecs], by simp [targetOf]⟩ h4

/-- C30, negated: the address of the name server "n s.a." is given as one of the root. -/
theorem C30_glue_false : ∃ d rs, Encodes d rs ∧ decode d = .ok rs ∧ ∀ E : Env, KeyOk E → ∃ m, toDns E rs [0x77, 0x2e, 0x61, 0x2e] 1 = .ok (some m) ∧
    (∃ r ∈ rs, targetOf r = some [0x6e, 0x20, 0x73, 0x2e, 0x61, 0x2e]) ∧ m.ar = [⟨[0x2e], 1, 1, 21600, some [.bytes [10, 0, 0, 1]]⟩] := by
  have he : Encodes [0, 2, 3, 0x6e, 0x20, 0x73, 1, 0x61, 0, 10, 0, 0, 1] [.glue4 [0x6e, 0x20, 0x73, 0x2e, 0x61, 0x2e] [10, 0, 0, 1]] := strict_spec (by decide +kernel)
  refine ⟨_, _, he, decode_eq he (by decide), ?_⟩
  intro E hE
  obtain ⟨m, h1, h2⟩ := toDns_eq hE (ls := [[0x77], [0x61]]) (by simp only [OkName, OkLabel]; decide) (by simp) (recsAt_good he.2) (by decide) 1
  refine ⟨m, h1, ⟨_, List.mem_singleton.2 rfl, rfl⟩, ?_⟩
  rw [if_pos (by decide)] at h2
  rcases h2.2.2.2 with ⟨_, sg, _, _, h4⟩ | ⟨h4, _⟩
  · rw [h4]; decide
  · exact absurd ⟨_, List.mem_singleton.2 rfl, by simp [targetOf]⟩ h4

/-- C30, negated: for "w.A." the address of "x.a." is left out, and for "w.a." it is there. -/
theorem C30_case_false : ∃ d rs, Encodes d rs ∧ decode d = .ok rs ∧ ∀ E : Env, KeyOk E → ∃ m m', toDns E rs [0x77, 0x2e, 0x61, 0x2e] 1 = .ok (some m) ∧
    toDns E rs [0x77, 0x2e, 0x41, 0x2e] 1 = .ok (some m') ∧ m.ar = [⟨[0x78, 0x2e, 0x61, 0x2e], 1, 1, 21600, some [.bytes [10, 0, 0, 1]]⟩] ∧ m'.ar = [] := by
  refine ⟨_, _, sample_encodes, decode_eq sample_encodes (by decide), ?_⟩
  intro E hE
  have hn : HasNs sampleRecs := ⟨.ns [0x6e, 0x73, 0x2e, 0x62, 0x2e], by simp [sampleRecs], by simp [targetOf]⟩
  obtain ⟨m, h1, h2⟩ := toDns_eq hE (ls := [[0x77], [0x61]]) (by simp only [OkName, OkLabel]; decide) (by simp) (recsAt_good sample_encodes.2) (by decide) 1
  obtain ⟨m', h1', h2'⟩ := toDns_eq hE (ls := [[0x77], [0x41]]) (by simp only [OkName, OkLabel]; decide) (by simp) (recsAt_good sample_encodes.2) (by decide) 1
  refine ⟨m, m', h1, h1', ?_, ?_⟩
  · rw [if_pos (by decide)] at h2
    rcases h2.2.2.2 with ⟨_, sg, _, _, h4⟩ | ⟨h4, _⟩
    · rw [h4]; decide
    · exact absurd hn h4
  · rw [if_pos (by decide)] at h2'
    rcases h2'.2.2.2 with ⟨_, sg, _, _, h4⟩ | ⟨h4, _⟩
    · rw [h4]; decide
    · exact absurd hn h4

/-! ### Synthesised names -/

/-- C46: the label made for an address, in any case and with any labels after it, is decoded to
the address and thus to its family, whether or not the caller wants the address. -/
theorem C46_label {t ip : Bytes} (h : t.map Spec.Base32.lower = Spec.Base32.text Base32.charsetHex ip false) (hl : ip.length = 4 ∨ ip.length = 16) {ls : List Bytes}
    (hls : OkName ((0x5f :: t) :: ls)) (b : Bool) : pointerToIp b (text ((0x5f :: t) :: ls)) = .ok (some ip) := pointer_spec h hl hls b

/-- C46: the name server made for an address (as in `C30_below_partial`) is decoded to it. -/
theorem C46_name {ip : Bytes} (hl : ip.length = 4 ∨ ip.length = 16) (b : Bool) : synthName ip = .ok (synthOf ip) ∧ pointerToIp b (synthOf ip) = .ok (some ip) := by
  have h16 : ip.length ≤ 16 := by omega
  refine ⟨synthName_eq h16, ?_⟩
  rw [synth_text]
  refine pointer_spec ?_ hl (synth_ok h16).1 b
  have low : ∀ c ∈ Base32.charsetHex, Spec.Base32.lower c = c := by decide
  have : ∀ c ∈ Spec.Base32.text Base32.charsetHex ip false, Spec.Base32.lower c = c := fun c hc => low c (b32_char hc)
  generalize Spec.Base32.text Base32.charsetHex ip false = t at this
  induction t with
  | nil => rfl
  | cons c t ih => rw [List.map_cons, this c List.mem_cons_self, ih fun x hx => this x (List.mem_cons_of_mem _ hx)]

/-- C46: two addresses do not share a name. -/
theorem C46_unique {a b : Bytes} (ha : a.length = 4 ∨ a.length = 16) (hb : b.length = 4 ∨ b.length = 16) (h : synthOf a = synthOf b) : a = b := by
  have h1 := (C46_name ha true).2
  rw [h, (C46_name hb true).2] at h1
  exact (Option.some.inj (Out.ok.inj h1)).symm

/-- C46, in part: every other label is decoded safely, and what is taken for an address is the
bits of a text in base32. Missing: "_" and one character, and "_" and 28 characters, where it
is false (`C46_abort_false`, `C46_overrun_false`). -/
theorem C46_safe_partial {l : Bytes} {ls : List Bytes} (hls : OkName (l :: ls)) (h2 : ∀ c, l ≠ [0x5f, c]) (h29 : l.length ≠ 29) (b : Bool) :
    ∃ r, pointerToIp b (text (l :: ls)) = .ok r ∧ ∀ ip, r = some ip → (ip.length = 4 ∨ ip.length = 16) ∧
      ∃ (t : Bytes) (syms dropped : List Nat), l = 0x5f :: t ∧ t.map Spec.Base32.lower = syms.map (fun i => Base32.charsetHex.getD i 0) ∧ (∀ i ∈ syms, i < 32) ∧
        syms.flatMap (fun i => [i / 16 % 2, i / 8 % 2, i / 4 % 2, i / 2 % 2, i % 2]) = Spec.Base32.bits ip ++ dropped ∧ dropped.length < 8 := by
  unfold pointerToIp
  rw [labelGet_first hls]
  simp only [Out.bind]
  split
  · exact ⟨none, rfl, by simp⟩
  · rename_i hc
    simp only [not_or, Nat.not_lt, Decidable.not_not] at hc
    obtain ⟨t, rfl⟩ : ∃ t, l = 0x5f :: t := by
      cases l with
      | nil => cases hc.2.2
      | cons c t => exact ⟨t, by rw [Option.some.inj hc.2.2]⟩
    simp only [List.length_cons] at hc h29
    rw [List.drop_succ_cons, List.drop_zero]
    obtain ⟨r, s1, s2, s3⟩ := stores_le t
    rw [s1]
    have ht : t.length ≠ 1 := by
      intro h1
      obtain ⟨c, rfl⟩ := List.length_eq_one_iff.1 h1
      exact h2 c rfl
    have key : ∃ r, (match Base32.decode2 true Base32.tableHex t false with
        | .ub => .ub
        | .err _ => .ok none
        | .ok a => if a.length = 0 then .ub else if a.length = 4 ∨ a.length = 16 then .ok (some a) else .ok none : Out Unit (Option Bytes)) = .ok r ∧
        ∀ ip, r = some ip → (ip.length = 4 ∨ ip.length = 16) ∧
      ∃ (t' : Bytes) (syms dropped : List Nat), (0x5f :: t : Bytes) = 0x5f :: t' ∧ t'.map Spec.Base32.lower = syms.map (fun i => Base32.charsetHex.getD i 0) ∧ (∀ i ∈ syms, i < 32) ∧
        syms.flatMap (fun i => [i / 16 % 2, i / 8 % 2, i / 4 % 2, i / 2 % 2, i % 2]) = Spec.Base32.bits ip ++ dropped ∧ dropped.length < 8 := by
      cases hd : Base32.decode2 true Base32.tableHex t false with
      | ub => exact (by
        unfold Base32.decode2 at hd
        cases hl : Base32.decLoop true Base32.tableHex false 0 0 t with
        | ub => exact absurd hl (Base32.decLoop_total Base32.codecHex _ _ _ _)
        | err e => rw [hl] at hd; cases hd
        | ok d => rw [hl] at hd; simp [Out.bind] at hd)
      | err e => exact ⟨none, rfl, by simp⟩
      | ok a =>
        obtain ⟨syms, dropped, k1, k2, k3, k4, k5⟩ := Base32.C42_loose_hex_partial _ _ hd
        dsimp only
        rw [if_neg (by omega)]
        split
        · rename_i h4
          refine ⟨_, rfl, ?_⟩
          intro ip hip
          cases Option.some.inj hip
          exact ⟨h4, t, syms, dropped, rfl, k1, k2, k3, k4⟩
        · exact ⟨none, rfl, by simp⟩
    cases r with
    | ub => exact absurd rfl s2
    | err e => obtain ⟨n, hn⟩ := stores_ok t; rw [hn] at s1; cases s1
    | ok n =>
      have := s3 n rfl
      dsimp only
      rw [if_neg (by omega)]
      exact key

/-- C46, negated: "_a" aborts the program. -/
theorem C46_abort_false (ls : List Bytes) (h : OkName ([0x5f, 0x61] :: ls)) (b : Bool) : pointerToIp b (text ([0x5f, 0x61] :: ls)) = .ub := by
  unfold pointerToIp
  rw [labelGet_first h]
  cases b <;> decide +kernel

/-- C46, negated: 28 characters are 17 bytes, for which there is no room. -/
theorem C46_overrun_false (ls : List Bytes) (h : OkName ((0x5f :: List.replicate 28 0x61) :: ls)) : pointerToIp true (text ((0x5f :: List.replicate 28 0x61) :: ls)) = .ub := by
  unfold pointerToIp
  rw [labelGet_first h]
  decide +kernel

/-- "_1800008._synth." is 10.0.0.1. -/
example : synthOf [10, 0, 0, 1] = [0x5f, 0x31, 0x38, 0x30, 0x30, 0x30, 0x30, 0x38, 0x2e, 0x5f, 0x73, 0x79, 0x6e, 0x74, 0x68, 0x2e] := by decide +kernel
example : OkName [[0x5f, 0x61], [0x5f, 0x73, 0x79, 0x6e, 0x74, 0x68]] := by simp only [OkName, OkLabel]; decide
example : OkName [0x5f :: List.replicate 28 0x61, [0x5f, 0x73, 0x79, 0x6e, 0x74, 0x68]] := by simp only [OkName, OkLabel]; decide
example : ∃ r, pointerToIp true [0x5f, 0x31, 0x38, 0x30, 0x2e] = .ok r := by
  obtain ⟨r, h, _⟩ := C46_safe_partial (l := [0x5f, 0x31, 0x38, 0x30]) (ls := []) (by simp only [OkName, OkLabel]; decide) (by simp) (by decide) true
  exact ⟨r, h⟩

end Verif.Props.Resource
