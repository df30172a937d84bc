import Verif.Lemmas.Dnssec
/-
C45: what is signed, and by what.
-/
namespace Verif.Props.Dnssec
open Verif.Bio Verif.DnsName Verif.Dns Verif.Label Verif.Dnssec Verif.Spec.DnsName Verif.Spec.Dns Verif.Spec.Dnssec

/-- What is signed for a record set: the fields of the RRSIG record, and then every record of the
set in canonical form with the original TTL, once, in the order of the record data. -/
theorem C45_signed {E : Env} (hE : Sorts E.qsort) {s : Rrsig} (hs : SigOk s) {name : Bytes} {type cls ttl : Nat} {rs : List Rr}
    (h : RrSet name type cls ttl rs) (h24 : type ≠ 24) :
    ∃ (d : Bytes) (rows : List Row), signedData E s rs = .ok (d ++ (rows.map (·.bytes)).flatten) ∧ SigBytes s d ∧ (∀ x ∈ rows, IsRow x) ∧
      rows.Pairwise (fun a b => a.rd < b.rd) ∧ ∀ c, c ∈ rows.map (·.rr) ↔ ∃ r ∈ rs, c = canonAt s.origTtl r := by
  obtain ⟨d, rows, h1, h2, h3, h4, h5⟩ := signedData_eq hE hs h h24
  exact ⟨d, rows, h1, h2, fun x hx => (h3 x hx).1, h4, h5⟩

/-- The same set, in another order, with other repetitions or in another case, has the same
signed data. -/
theorem C45_set {E E' : Env} (hE : Sorts E.qsort) (hE' : Sorts E'.qsort) {s : Rrsig} (hs : SigOk s) {name : Bytes} {type cls ttl : Nat} {rs rs' : List Rr}
    (h : RrSet name type cls ttl rs) (h' : RrSet name type cls ttl rs') (h24 : type ≠ 24) (hsame : SameSet rs rs') :
    signedData E s rs = signedData E' s rs' := by
  obtain ⟨d, rows, h1, h2, h3, h4, h5⟩ := signedData_eq hE hs h h24
  obtain ⟨d', rows', h1', h2', h3', h4', h5'⟩ := signedData_eq hE' hs h' h24
  have hd : d = d' := by
    obtain ⟨ls, k1, k2, k3⟩ := h2
    obtain ⟨ls', k1', k2', k3'⟩ := h2'
    rw [k3, k3', text_inj k1.1 k1'.1 (k2.symm.trans k2')]
  have hrr : ∀ c, c ∈ rows.map (·.rr) ↔ c ∈ rows'.map (·.rr) := by
    intro c
    rw [h5, h5']
    constructor
    · rintro ⟨r, hr, rfl⟩
      obtain ⟨r', hr', e⟩ := (hsame (canon r)).1 ⟨r, hr, rfl⟩
      exact ⟨r', hr', by simp only [canonAt, e]⟩
    · rintro ⟨r, hr, rfl⟩
      obtain ⟨r', hr', e⟩ := (hsame (canon r)).2 ⟨r, hr, rfl⟩
      exact ⟨r', hr', by simp only [canonAt, e]⟩
  have one : ∀ {p q : List Row}, (∀ x ∈ p, IsRow x ∧ WholeRr x.rr) → (∀ x ∈ q, IsRow x ∧ WholeRr x.rr) →
      (∀ c, c ∈ p.map (·.rr) → c ∈ q.map (·.rr)) → ∀ b, b ∈ p.map (·.bytes) → b ∈ q.map (·.bytes) := by
    intro p q hp hq hc b hb
    obtain ⟨x, hx, rfl⟩ := List.mem_map.1 hb
    obtain ⟨y, hy, e⟩ := List.mem_map.1 (hc x.rr (List.mem_map.2 ⟨x, hx, rfl⟩))
    refine List.mem_map.2 ⟨y, hy, ?_⟩
    have r1 := (hq y hy).1
    have r2 : IsRow ⟨y.rr, x.rd, x.bytes⟩ := by rw [e]; exact (hp x hx).1
    exact (isRow_unique (rd := y.rd) (b := y.bytes) r1 r2).2
  have sorted : ∀ {p : List Row}, (∀ x ∈ p, IsRow x ∧ WholeRr x.rr) → p.Pairwise (fun a b => a.rd < b.rd) →
      (p.map (·.bytes)).Pairwise fun a b => keyOf a < keyOf b := by
    intro p hp hs
    rw [List.pairwise_map]
    refine List.Pairwise.imp_of_mem ?_ hs
    intro a b ha hb hab
    rw [keyOf_row (hp a ha).1, keyOf_row (hp b hb).1]
    exact hab
  have hb : rows.map (·.bytes) = rows'.map (·.bytes) :=
    sorted_unique keyOf (sorted h3 h4) (sorted h3' h4') fun b =>
      ⟨one h3 h3' (fun c => (hrr c).1) b, one h3' h3 (fun c => (hrr c).2) b⟩
  rw [h1, h1', hd, hb]

/-- The signed data determine the fields of the RRSIG record (the signer up to case) and the set.
A signature made for one set is good for no other. -/
theorem C45_determines {E E' : Env} (hE : Sorts E.qsort) (hE' : Sorts E'.qsort) {s s' : Rrsig} (hs : SigOk s) (hs' : SigOk s') {name name' : Bytes}
    {type type' cls cls' : Nat} {rs rs' : List Rr} (h : RrSet name type cls s.origTtl rs) (h' : RrSet name' type' cls' s'.origTtl rs') (h24 : type ≠ 24) (h24' : type' ≠ 24)
    {d : Bytes} (hd : signedData E s rs = .ok d) (hd' : signedData E' s' rs' = .ok d) :
    { s with signer := s.signer.map low, signature := [] } = { s' with signer := s'.signer.map low, signature := [] } ∧ SameSet rs rs' := by
  obtain ⟨x, rows, h1, h2, h3, h4, h5⟩ := signedData_eq hE hs h h24
  obtain ⟨x', rows', h1', h2', h3', h4', h5'⟩ := signedData_eq hE' hs' h' h24'
  rw [h1] at hd
  rw [h1'] at hd'
  have e := (Out.ok.inj hd).trans (Out.ok.inj hd').symm
  obtain ⟨ls, k1, k2, k3⟩ := h2
  obtain ⟨ls', k1', k2', k3'⟩ := h2'
  rw [k3, k3'] at e
  simp only [List.append_assoc] at e
  have be : ∀ {n a b : Nat} {u v : Bytes}, a < 256 ^ n → b < 256 ^ n → beBytes n a ++ u = beBytes n b ++ v → a = b ∧ u = v := by
    intro n a b u v ha hb h
    obtain ⟨p, q⟩ := List.append_inj h (by rw [beBytes_length, beBytes_length])
    refine ⟨?_, q⟩
    have := congrArg beNat p
    rwa [beNat_beBytes_of_lt ha, beNat_beBytes_of_lt hb] at this
  obtain ⟨e1, e⟩ := be hs.typeCovered hs'.typeCovered e
  simp only [List.cons_append, List.nil_append, List.cons.injEq] at e
  obtain ⟨e2, e3, e⟩ := e
  obtain ⟨e4, e⟩ := be hs.origTtl hs'.origTtl e
  obtain ⟨e5, e⟩ := be hs.expiration hs'.expiration e
  obtain ⟨e6, e⟩ := be hs.inception hs'.inception e
  obtain ⟨e7, e⟩ := be hs.keyTag hs'.keyTag e
  have u8 : ∀ {a b : Nat}, a < 256 → b < 256 → UInt8.ofNat a = UInt8.ofNat b → a = b := by
    intro a b ha hb h
    have := congrArg UInt8.toNat h
    simp only [UInt8.toNat_ofNat'] at this
    omega
  have e2 := u8 hs.algorithm hs'.algorithm e2
  have e3 := u8 hs.labels hs'.labels e3
  have p1 := parse_wire none k1 ((rows.map (·.bytes)).flatten)
  have p2 := parse_wire none k1' ((rows'.map (·.bytes)).flatten)
  rw [e, p2] at p1
  obtain ⟨e8, e9⟩ := Prod.mk.inj (Out.ok.inj p1)
  refine ⟨?_, ?_⟩
  · rw [k2, k2', e1, e2, e3, e4, e5, e6, e7, e8]
  · have hr := flatten_rows h3 h3' e9.symm
    have canon_at : ∀ {name : Bytes} {type cls t : Nat} {l : List Rr}, RrSet name type cls t l → ∀ r ∈ l, canonAt t r = canon r := by
      intro name type cls t l hl r hr
      have := hl.ttl r hr
      unfold canonAt canon
      rw [← this]
    intro c
    have f1 := h5 c
    have f2 := h5' c
    rw [hr] at f1
    have f3 : (∃ r ∈ rs, canon r = c) ↔ ∃ r ∈ rs, c = canonAt s.origTtl r :=
      ⟨fun ⟨r, hr, e⟩ => ⟨r, hr, by rw [canon_at h r hr, e]⟩, fun ⟨r, hr, e⟩ => ⟨r, hr, by rw [e, canon_at h r hr]⟩⟩
    have f4 : (∃ r ∈ rs', canon r = c) ↔ ∃ r ∈ rs', c = canonAt s'.origTtl r :=
      ⟨fun ⟨r, hr, e⟩ => ⟨r, hr, by rw [canon_at h' r hr, e]⟩, fun ⟨r, hr, e⟩ => ⟨r, hr, by rw [e, canon_at h' r hr]⟩⟩
    rw [f3, f4, ← f1, ← f2]

/-- Type 24 (SIG) is the exception: its data are accessed as those of an RRSIG record. The program
signs no such set. -/
theorem C45_sig_type {E : Env} {s : Rrsig} {name : Bytes} {cls ttl : Nat} {rs : List Rr} (h : RrSet name 24 cls ttl rs) : signedData E s rs = .ub := by
  match rs, h with
  | [], h => exact absurd rfl h.some
  | r :: rs, h =>
    have hr := h.whole r List.mem_cons_self
    obtain ⟨vs, hv, _⟩ := hr.read.rd
    unfold signedData
    rw [if_neg (by simp), rawRrs]
    unfold rawRr cloneRr
    rw [cloneRr_eq hr]
    simp only [Out.bind, hv]
    unfold lowerRd
    rw [if_pos (h.type r List.mem_cons_self)]

/-- The tag of a key is that of RFC 4034, appendix B. -/
theorem C45_key_tag {vs : List Val} (hv : ReadVals (readLayout 48) vs) {b : Bytes} (hb : ValsBytes (readLayout 48) vs b) (hl : b.length < 65536) :
    keytag vs = .ok ((words b + words b / 65536) % 65536) := by
  unfold keytag
  rw [encodeRd_eq (by decide) hv hb]
  simp only [Out.bind]
  have hw := words_le b.length b (Nat.le_refl _)
  have h2 : (b.length + 1) / 2 ≤ 32768 := by omega
  have h3 : words b < 2147483648 := by
    have := Nat.mul_le_mul_left 65535 h2
    omega
  rw [tagLoop_spec b.length b 0 (Nat.le_refl _) (by omega)]
  congr 1
  omega

/-- A key is good if it is a DNSKEY record that can be sent. -/
structure GoodKey (key : Rr) (alg tag : Nat) : Prop where
  whole : WholeRr key
  type : key.type = 48
  rd : ∃ flags proto pub b, key.rd = some [.num flags, .num proto, .num alg, .bytes pub] ∧ ValsBytes (readLayout 48) [.num flags, .num proto, .num alg, .bytes pub] b ∧
    tag = (words b + words b / 65536) % 65536

/-- Signing the records of one type in a section appends one RRSIG record for exactly those
records, with the type, TTL and number of labels of the set, the algorithm, tag and name of the
key, and two weeks on either side of now. If there is no signature the section stays as it is. -/
theorem C45_section {E : Env} (hE : Sorts E.qsort) {rs : List Rr} (hn : rs.length < 255) {ls : List Bytes} (hls : OkName ls) {type cls ttl : Nat}
    (h : RrSet (text ls) type cls ttl (rs.filter fun r => r.type = type)) (h24 : type ≠ 24) {key : Rr} {alg tag : Nat} (hk : GoodKey key alg tag) (priv : Bytes) :
    ∃ (s : Rrsig) (d : Bytes) (rows : List Row), SigOk s ∧ s.typeCovered = type ∧ s.origTtl = ttl ∧ s.labels = ls.length ∧ s.algorithm = alg ∧ s.keyTag = tag ∧
      (s.expiration : Int) = (E.now + 14 * 86400) % 2 ^ 32 ∧ (s.inception : Int) = (E.now - 14 * 86400) % 2 ^ 32 ∧ s.signer = key.name.map low ∧
      SigBytes s d ∧ (∀ x ∈ rows, IsRow x) ∧ rows.Pairwise (fun a b => a.rd < b.rd) ∧
      (∀ c, c ∈ rows.map (·.rr) ↔ ∃ r ∈ rs, r.type = type ∧ c = canonAt ttl r) ∧
      signType E rs type key priv = match E.ecdsa priv (E.H (d ++ (rows.map (·.bytes)).flatten)) with
        | none => .ok rs
        | some g => .ok (rs ++ [⟨(text ls).map low, 46, key.cls, key.ttl, some { s with signature := g }.vals⟩]) := by
  obtain ⟨flags, proto, pub, kb, k1, k2, k3⟩ := hk.rd
  obtain ⟨vs, k4, k5⟩ := hk.whole.read.rd
  rw [k1] at k4
  cases Option.some.inj k4
  have ksz := hk.whole.size _ k1
  rw [hk.type] at k5 ksz
  have htag := C45_key_tag k5 k2 (by rw [valsBytes_length k5 k2]; exact ksz)
  rw [← k3] at htag
  obtain ⟨kls, k6, k7⟩ := hk.whole.read.name
  generalize hf : (rs.filter fun r => r.type = type) = cov at *
  match cov, h with
  | [], h => exact absurd rfl h.some
  | r :: cov, h =>
    obtain ⟨ns, n1, n2⟩ := (h.whole r List.mem_cons_self).read.name
    have hrn := h.name r List.mem_cons_self
    have hnl : ns.length = ls.length := by
      rw [n2, text_low, text_low] at hrn
      have := text_inj (okName_low n1).1 (okName_low hls).1 hrn
      have := congrArg List.length this
      simpa using this
    have hcount : count r.name = ls.length := by rw [n2, count_text n1, hnl]
    have h127 := okName_labels hls
    have halg : alg < 256 := k5.2.2.1
    obtain ⟨s, hsdef⟩ : ∃ s : Rrsig, s = ⟨r.type, alg, count r.name, r.ttl, ((E.now + 1209600) % 4294967296).toNat, ((E.now - 1209600) % 4294967296).toNat, tag, lowered key.name, []⟩ :=
      ⟨_, rfl⟩
    have hrt := h.type r List.mem_cons_self
    have hrl := h.ttl r List.mem_cons_self
    have hwr := (h.whole r List.mem_cons_self).read
    have hs : SigOk s := by
      subst hsdef
      refine ⟨hwr.type, halg, by dsimp only; omega, hwr.ttl, by dsimp only; omega, by dsimp only; omega, by dsimp only; omega, ⟨_, okName_low k6, ?_⟩⟩
      dsimp only
      rw [lowered_low, k7, text_low]
    obtain ⟨d, rows, h1, h2, h3, h4, h5⟩ := signedData_eq hE hs h h24
    refine ⟨s, d, rows, hs, by rw [hsdef]; exact hrt, by rw [hsdef]; exact hrl, by rw [hsdef]; exact hcount, by rw [hsdef], by rw [hsdef],
      by rw [hsdef]; dsimp only; omega, by rw [hsdef]; dsimp only; omega, by rw [hsdef]; exact lowered_low _, h2, fun x hx => (h3 x hx).1, h4, ?_, ?_⟩
    · intro c
      have e : s.origTtl = ttl := by rw [hsdef]; exact hrl
      rw [h5, e, ← hf]
      constructor
      · rintro ⟨q, hq, e⟩
        have := List.mem_filter.1 hq
        exact ⟨q, this.1, by simpa using this.2, e⟩
      · rintro ⟨q, hq, ht, e⟩
        exact ⟨q, List.mem_filter.2 ⟨hq, by simpa using ht⟩, e⟩
    · unfold signType
      rw [if_neg (by omega), hf]
      unfold signRrset
      rw [hk.type, k1]
      simp only [htag, Out.bind, signRrsig]
      rw [← hsdef, h1]
      simp only
      generalize E.ecdsa priv (E.H (d ++ (rows.map (·.bytes)).flatten)) = g
      cases g with
      | none => rfl
      | some g =>
        simp only
        rw [lowered_low, hrn, hsdef]

/-- With no record of the type, or no room, nothing is added. -/
theorem C45_nothing (E : Env) {rs : List Rr} {type : Nat} (h : 255 ≤ rs.length ∨ ∀ r ∈ rs, r.type ≠ type) (key : Rr) (priv : Bytes) :
    signType E rs type key priv = .ok rs := by
  unfold signType
  rcases h with h | h
  · rw [if_pos h]
  · split
    · rfl
    · have : (rs.filter fun r => r.type = type) = [] := by
        rw [List.filter_eq_nil_iff]
        intro r hr
        simpa using h r hr
      rw [this]
      rfl

/-- The key of the zone: its private key is the one that signs. -/
theorem C45_zone {E : Env} {z k : Rr} (hz : zsk E = .ok z) (hk : ksk E = .ok k) (rs : List Rr) (type : Nat) :
    ∃ priv pub priv' pub', E.pubkey priv = some pub ∧ E.pubkey priv' = some pub' ∧
      z = ⟨[0x2e], 48, 1, 10800, some [.num 0x100, .num 3, .num 13, .bytes pub]⟩ ∧ signZsk E rs type = signType E rs type z priv ∧
      k = ⟨[0x2e], 48, 1, 10800, some [.num 0x101, .num 3, .num 13, .bytes pub']⟩ ∧ signKsk E rs type = signType E rs type k priv' := by
  unfold zsk dnskeyCreate at hz
  unfold ksk dnskeyCreate at hk
  cases h : E.pubkey zskPriv with
  | none => rw [h] at hz; cases hz
  | some pub =>
    cases h' : E.pubkey kskPriv with
    | none => rw [h'] at hk; cases hk
    | some pub' =>
      rw [h] at hz
      rw [h'] at hk
      cases Out.ok.inj hz
      cases Out.ok.inj hk
      refine ⟨zskPriv, pub, kskPriv, pub', h, h', rfl, ?_, rfl, ?_⟩
      · unfold signZsk zsk dnskeyCreate
        rw [h]
        rfl
      · unfold signKsk ksk dnskeyCreate
        rw [h']
        rfl

/-- The DS record of the root: tag and algorithm of the key-signing key, and the digest of the
name and the data of the key. -/
theorem C45_ds {E : Env} {pub : Bytes} {k : Rr} (hk : ksk E = .ok k) (hkr : k.rd = some [.num 0x101, .num 3, .num 13, .bytes pub]) (hp : pub.length = 64) :
    ∃ b, b = [0x01, 0x01, 0x03, 0x0d] ++ pub ∧
      ds E = .ok ⟨[0x2e], 43, 1, 10800, some [.num ((words b + words b / 65536) % 65536), .num 13, .num 2, .bytes (E.H (0 :: b))]⟩ := by
  refine ⟨_, rfl, ?_⟩
  have hv : ReadVals (readLayout 48) [.num 0x101, .num 3, .num 13, .bytes pub] := ⟨(by decide : 0x101 < 65536), (by decide : 3 < 256), (by decide : 13 < 256), trivial, trivial⟩
  have hb : ValsBytes (readLayout 48) [.num 0x101, .num 3, .num 13, .bytes pub] ([0x01, 0x01, 0x03, 0x0d] ++ pub) :=
    ⟨_, _, rfl, ⟨_, _, rfl, ⟨_, _, rfl, ⟨_, _, rfl, rfl, rfl⟩, rfl⟩, rfl⟩, by rw [List.append_nil, show beBytes 2 257 = [1, 1] from by decide]; rfl⟩
  have htag := C45_key_tag hv hb (by simp; omega)
  have henc := encodeRd_eq (type := 48) (by decide) hv hb
  unfold ds
  rw [hk]
  simp only [Out.bind]
  have hkk : k = ⟨[0x2e], 48, 1, 10800, some [.num 0x101, .num 3, .num 13, .bytes pub]⟩ := by
    unfold ksk dnskeyCreate at hk
    cases h' : E.pubkey kskPriv with
    | none => rw [h'] at hk; cases hk
    | some pub' =>
      rw [h'] at hk
      cases Out.ok.inj hk
      simp only [Option.some.injEq] at hkr
      rw [← hkr]
      rfl
  subst hkk
  unfold dsCreate
  have hpack : pack (some 256) (lowered [0x2e]) = .ok (1, [0]) := by decide +kernel
  simp only [htag, henc, Out.bind, hpack]
  rfl

/-! ### The hypotheses are met -/

/-- A toy hash and signature. -/
def toy : Env := ⟨id, isort, fun p d => some (p ++ d), fun p => some (p ++ p), 1700000000⟩

/-- Two name servers of "a.", one of them twice and in another case, and one address. -/
def nsRr (s : Bytes) : Rr := ⟨[0x61, 0x2e], 2, 1, 21600, some [.name s]⟩
def sect : List Rr := [nsRr [0x63, 0x2e], nsRr [0x62, 0x2e], ⟨[0x61, 0x2e], 1, 1, 9, some [.bytes [1, 2, 3, 4]]⟩, nsRr [0x43, 0x2e]]

theorem ns_whole {c : UInt8} (h : c ≠ 0 ∧ c ≠ 0x2e) : WholeRr (nsRr [c, 0x2e]) := by
  refine ⟨⟨⟨[[0x61]], by simp only [OkName, OkLabel]; decide, rfl⟩, (by decide : 2 < 65536), (by decide : 1 < 65536), (by decide : 21600 < 4294967296), ⟨_, rfl, ?_, trivial⟩⟩, ?_⟩
  · refine ⟨[[c]], ⟨?_, by simp [text, body]⟩, by simp [text, body]⟩
    intro l hl
    rcases List.mem_singleton.1 hl with rfl
    refine ⟨by simp, by simp, ?_, ?_⟩ <;> simp [h.1.symm, h.2.symm]
  · intro vs hv
    cases Option.some.inj hv
    simp [readLayout, valsSize, valSize, nsRr]

theorem sect_set : RrSet (text [[0x61]]) 2 1 21600 (sect.filter fun r => r.type = 2) := by
  have e : (sect.filter fun r => r.type = 2) = [nsRr [0x63, 0x2e], nsRr [0x62, 0x2e], nsRr [0x43, 0x2e]] := by decide
  rw [e]
  refine ⟨by simp, ?_, ?_, ?_, ?_, ?_⟩ <;> intro r hr <;> simp only [List.mem_cons, List.not_mem_nil, or_false] at hr <;> rcases hr with rfl | rfl | rfl
  all_goals first | exact ns_whole (by decide) | rfl

theorem key_good : ∃ z tag, zsk toy = .ok z ∧ GoodKey z 13 tag := by
  refine ⟨_, _, rfl, ⟨⟨⟨⟨[], by simp only [OkName, OkLabel]; decide, rfl⟩, by decide, by decide, by decide, ⟨_, rfl, (by decide : 0x100 < 65536), (by decide : 3 < 256), (by decide : 13 < 256), trivial, trivial⟩⟩, ?_⟩, rfl,
    ⟨_, _, _, _, rfl, ⟨_, _, rfl, ⟨_, _, rfl, ⟨_, _, rfl, ⟨_, _, rfl, rfl, rfl⟩, rfl⟩, rfl⟩, rfl⟩, rfl⟩⟩⟩
  intro vs hv
  cases Option.some.inj hv
  decide

/-- The set of name servers is signed: "b." before "c.", and "c." once. -/
example : ∃ r, signZsk toy sect 2 = .ok (sect ++ [r]) ∧ r.name = [0x61, 0x2e] ∧ r.type = 46 ∧ r.cls = 1 ∧ r.ttl = 10800 := by
  obtain ⟨z, tag, hz, hk⟩ := key_good
  obtain ⟨s, d, rows, h⟩ := C45_section (E := toy) isort_sorts (rs := sect) (by decide) (ls := [[0x61]]) (by simp only [OkName, OkLabel]; decide) sect_set (by decide) hk zskPriv
  unfold signZsk
  rw [hz]
  simp only [Out.bind]
  rw [h.2.2.2.2.2.2.2.2.2.2.2.2.2]
  have e : z.cls = 1 ∧ z.ttl = 10800 := by
    have : zsk toy = .ok ⟨[0x2e], 48, 1, 10800, some [.num 0x100, .num 3, .num 13, .bytes (zskPriv ++ zskPriv)]⟩ := rfl
    rw [hz] at this
    rw [Out.ok.inj this]
    exact ⟨rfl, rfl⟩
  exact ⟨_, rfl, rfl, rfl, e.1, e.2⟩

example : ∃ b d, signedData toy ⟨2, 13, 1, 21600, 7, 5, 9, [0x2e], []⟩ (sect.filter fun r => r.type = 2) = .ok (d ++ b) ∧
    b = [1, 0x61, 0, 0, 2, 0, 1, 0, 0, 0x54, 0x60, 0, 3, 1, 0x62, 0] ++ [1, 0x61, 0, 0, 2, 0, 1, 0, 0, 0x54, 0x60, 0, 3, 1, 0x63, 0] := by
  refine ⟨_, [0, 2, 13, 1, 0, 0, 0x54, 0x60, 0, 0, 0, 7, 0, 0, 0, 5, 0, 9, 0], ?_, rfl⟩
  decide +kernel

/-- With the case changed it is the same set. -/
example : SameSet [nsRr [0x63, 0x2e], nsRr [0x62, 0x2e]] [nsRr [0x42, 0x2e], nsRr [0x63, 0x2e], nsRr [0x43, 0x2e]] := by
  have e : canon (nsRr [0x43, 0x2e]) = canon (nsRr [0x63, 0x2e]) := by decide
  have e' : canon (nsRr [0x42, 0x2e]) = canon (nsRr [0x62, 0x2e]) := by decide
  intro c
  simp only [List.mem_cons, List.not_mem_nil, or_false, exists_eq_or_imp, exists_eq_left, e, e']
  constructor
  · rintro (h | h)
    · exact .inr (.inl h)
    · exact .inl h
  · rintro (h | h | h)
    · exact .inr h
    · exact .inl h
    · exact .inl h

/-- The DS record, for the toy key. -/
example : ∃ b, ds toy = .ok ⟨[0x2e], 43, 1, 10800, some [.num ((words b + words b / 65536) % 65536), .num 13, .num 2, .bytes (0 :: b)]⟩ := by
  obtain ⟨b, _, h⟩ := C45_ds (E := toy) (pub := kskPriv ++ kskPriv) rfl rfl (by decide)
  exact ⟨b, h⟩

end Verif.Props.Dnssec
