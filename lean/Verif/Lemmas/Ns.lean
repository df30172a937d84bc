import Verif.Lemmas.Hesiod
import Verif.Lemmas.Cache
import Verif.Lemmas.Synth
import Verif.Props.Resource
import Verif.Props.Cache
import Verif.Props.Dns
/-
Requests: where they go, and what is sent.
-/
namespace Verif.Ns
open Verif.Bio Verif.DnsName Verif.Dns Verif.Label Verif.Req Verif.Dnssec Verif.Resource Verif.Hesiod
open Verif.Spec.DnsName Verif.Spec.Dns Verif.Spec.Dnssec Verif.Spec.Req Verif.Spec.Resource Verif.Spec.Ns Verif.Spec.Tld
open Verif.Spec.Cache (GoodQuery Good IsB32)

/-! ### Addresses in names -/

theorem charset_inj : ∀ i j : Fin 32, Base32.charsetHex.getD i.val 0 = Base32.charsetHex.getD j.val 0 → i = j := by decide

theorem syms_inj : ∀ {a b : List Nat}, (∀ i ∈ a, i < 32) → (∀ i ∈ b, i < 32) → a.map (fun i => Base32.charsetHex.getD i 0) = b.map (fun i => Base32.charsetHex.getD i 0) → a = b
  | [], [], _, _, _ => rfl
  | [], _ :: _, _, _, h => by simp at h
  | _ :: _, [], _, _, h => by simp at h
  | i :: a, j :: b, ha, hb, h => by
    rw [List.map_cons, List.map_cons] at h
    obtain ⟨h1, h2⟩ := List.cons.inj h
    have h3 := charset_inj ⟨i, ha i List.mem_cons_self⟩ ⟨j, hb j List.mem_cons_self⟩ h1
    rw [syms_inj (fun x hx => ha x (List.mem_cons_of_mem _ hx)) (fun x hx => hb x (List.mem_cons_of_mem _ hx)) h2, Fin.mk.inj_iff.1 h3]

theorem bits_inj {a b : Bytes} {x y : List Nat} (hx : x.length < 8) (hy : y.length < 8) (h : Spec.Base32.bits a ++ x = Spec.Base32.bits b ++ y) : a = b := by
  have h1 := Base32.octets_bits a x hx
  have h2 := Base32.octets_bits b y hy
  rw [h, h2] at h1
  exact (toNat_inj (Prod.mk.inj h1).1).symm

theorem lower_b32 (c : UInt8) (i : Nat) (hi : i < 32) (h : Spec.Base32.lower c = Base32.charsetHex.getD i 0) : IsB32 c := by
  have key : ∀ (c : Fin 256) (i : Fin 32), Spec.Base32.lower (UInt8.ofNat c.val) = Base32.charsetHex.getD i.val 0 → Base32.value true Base32.tableHex (UInt8.ofNat c.val) ≠ .ok (-1) := by
    decide +kernel
  refine (Cache.isB32_value c).2 ?_
  have := key ⟨c.toNat, c.toNat_lt⟩ ⟨i, hi⟩
  simp only [UInt8.ofNat_toNat] at this
  exact this h

theorem names_decode {t ip : Bytes} (h : Names (0x5f :: t) ip) : Base32.decode2 true Base32.tableHex t false = .ok ip ∧ (t.length = 7 ∨ t.length = 26 ∨ t.length = 27) := by
  obtain ⟨hl, t', syms, dropped, h1, h2, h3, h4, h5⟩ := h
  cases h1
  have hb : ∀ c ∈ t, IsB32 c := by
    intro c hc
    have : Spec.Base32.lower c ∈ t.map Spec.Base32.lower := List.mem_map_of_mem hc
    rw [h2] at this
    obtain ⟨i, hi, e⟩ := List.mem_map.1 this
    exact lower_b32 c i (h3 i hi) e.symm
  obtain ⟨a, ha⟩ := (Cache.decode_iff t).2 hb
  obtain ⟨syms', dropped', e1, e2, e3, e4, e5⟩ := Props.Base32.C42_loose_hex_partial _ _ ha
  have : syms' = syms := syms_inj e2 h3 (by rw [← e1, h2])
  subst this
  rw [e3] at h4
  have := bits_inj e4 h5 h4
  subst this
  refine ⟨ha, ?_⟩
  have := congrArg List.length e3
  rw [show (fun i => [i / 16 % 2, i / 8 % 2, i / 4 % 2, i / 2 % 2, i % 2]) = Base32.bits5 from rfl, Base32.flatMap_bits5_length, List.length_append, Base32.bits_length] at this
  have := congrArg List.length e1
  rw [List.length_map, List.length_map] at this
  omega

theorem names_unique {l ip ip' : Bytes} (h : Names l ip) (h' : Names l ip') : ip = ip' := by
  obtain ⟨_, t, _, _, rfl, _⟩ := id h
  exact Out.ok.inj ((names_decode h).1.symm.trans (names_decode h').1)

theorem pointer_iff {l : Bytes} {ls : List Bytes} (hls : OkName (l :: ls)) (h2 : ∀ c, l ≠ [0x5f, c]) (h29 : l.length ≠ 29) :
    ∃ r, pointerToIp true (text (l :: ls)) = .ok r ∧ ∀ ip, r = some ip ↔ Names l ip := by
  obtain ⟨r, h1, h3⟩ := Props.Resource.C46_safe_partial hls h2 h29 true
  refine ⟨r, h1, fun ip => ⟨h3 ip, fun hn => ?_⟩⟩
  obtain ⟨hl, t, _, _, rfl, _⟩ := id hn
  obtain ⟨hd, ht⟩ := names_decode hn
  have hp : pointerToIp true (text ((0x5f :: t) :: ls)) = .ok (some ip) := by
    unfold pointerToIp
    rw [labelGet_first hls]
    simp only [Out.bind]
    rw [if_neg (by simp; omega), List.drop_succ_cons, List.drop_zero, stores_all hd]
    simp only
    rw [if_neg (by omega), hd]
    simp only
    rw [if_neg (by omega), if_pos hl]
  rw [hp] at h1
  exact (Out.ok.inj h1).symm

/-! ### Synthesised names -/

/-- The bitmaps of the denials. -/
def maps (type : Nat) : Bytes := if type = 1 then mapA else mapAaaa

theorem lower_eq (s : Bytes) : lowered s = s.map Spec.Base32.lower := by
  have key : ∀ c : Fin 256, Spec.Dnssec.low (UInt8.ofNat c.val) = Spec.Base32.lower (UInt8.ofNat c.val) := by decide +kernel
  rw [lowered_low]
  refine List.map_congr_left fun c _ => ?_
  have := key ⟨c.toNat, c.toNat_lt⟩
  simpa only [UInt8.ofNat_toNat] using this

/-- What is known of a request for the name `ls`. -/
structure For (ls : List Bytes) (r : Req) : Prop where
  name : r.name = text ls
  labels : r.labels = ls.length
  tld : r.tld = lowered (tldOf ls)

theorem noSuch_eq {E : Env} (hE : SignOk E) {name o : Bytes} (ho : setName name = .ok o) (hg : GoodName o) {map : Bytes} (hm : map.length ≤ 100) :
    ∃ m, noSuch E name map = .ok m ∧ m.code = 0 ∧ m.opcode = 0 ∧ m.flags = 0 ∧ m.an = [] ∧ m.ar = [] ∧ Denies E [nsecOf o map] m.ns ∧ Answer m := by
  obtain ⟨ns, ns', n1, n2, n3, n4, n5⟩ := denies_eq hE (nsecs := [nsecOf o map]) (by simp) (goods_one (nsec_good hg hm)) (by simp [nsecOf])
  unfold noSuch empty
  rw [ho]
  simp only [Out.bind]
  have e : signZsk E [⟨o, 47, 1, 86400, some [.name dot, .bytes map]⟩] 47 = .ok ns' := n1
  rw [e]
  simp only
  rw [n2]
  refine ⟨_, rfl, rfl, rfl, rfl, rfl, rfl, n3, answer_mk (by dsimp only [newMsg]; decide) rfl (by dsimp only [newMsg]; decide) ⟨by dsimp only [newMsg]; decide, fun _ h => by simp [newMsg] at h⟩
    ⟨by dsimp only; omega, n4⟩ ⟨by dsimp only [newMsg]; decide, fun _ h => by simp [newMsg] at h⟩ (by simp [newMsg])⟩

theorem lowered_synth : lowered (str "_synth") = str "_synth" := by decide

theorem synth_eq {E : Env} (hE : SignOk E) {ls : List Bytes} (hq : GoodQuery ls) (hs : IsSynth ls) (hsafe : SafeSynth ls) {r : Req} (hr : For ls r) :
    ∃ m, synth E r = .ok m ∧ SynthMsg E maps r.type ls m ∧ Answer m := by
  have hok := hq.1
  obtain ⟨h2, ht⟩ := hs
  unfold synth
  match ls, hr, h2, ht, hok, hq, hsafe with
  | [], _, _, ht, _, _, _ =>
    have := Cache.sameName_lower.1 ht
    rw [lowered_synth] at this
    cases this
  | [tld], hr, _, ht, _, _, _ =>
    rw [if_pos (show r.labels = 1 from hr.labels)]
    have e : r.tld = str "_synth" := by rw [hr.tld, ← lowered_synth]; exact Cache.sameName_lower.1 ht
    have hn : setName r.tld = .ok (str "_synth.") := by rw [e]; decide +kernel
    obtain ⟨m, h1, h2, h3, h4, h5, h6, h7, h8⟩ := noSuch_eq hE hn ⟨[str "_synth"], by simp only [OkName, OkLabel]; decide, by decide, by decide⟩ (map := []) (by decide)
    exact ⟨m, h1, .tld ⟨h2, h3, h4, h5, h6⟩ h7, h8⟩
  | [l, tld], hr, _, ht, hok, hq, hsafe =>
    have hs2 := hsafe l tld rfl ht
    have htl : tld.length = 6 := by
      have e := congrArg List.length (Cache.sameName_lower.1 ht)
      simpa [lowered, tldOf, str] using e
    rw [if_neg (by rw [hr.labels]; simp)]
    have hi : Label.index [l, tld].length (-2) = 0 := by unfold Label.index; rfl
    have hf : labelFrom r.name (-2) = .ok (text [l, tld]) := by
      rw [hr.name, labelFrom_text hok (by rw [hi]; omega), hi]
      rfl
    rw [hf]
    simp only [Out.bind]
    rw [if_neg (by simp [text, body]; omega)]
    obtain ⟨p, hp, hn⟩ := pointer_iff hok (fun c h => hq.2 c tld (by rw [h])) hs2.2
    rw [hp]
    simp only
    have hset : setName r.name = .ok (Spec.Ns.shown [l, tld]) := by rw [hr.name]; exact setName_text hok
    have hgn : GoodName (Spec.Ns.shown [l, tld]) := good_kept hok (by simp)
    cases p with
    | none =>
      exact ⟨_, rfl, .none (fun ip h => by cases (hn ip).2 h) ⟨rfl, rfl, rfl, rfl, rfl, rfl⟩,
        answer_mk (by decide) rfl (by decide) ⟨by decide, fun _ h => by simp [newMsg] at h⟩ ⟨by decide, fun _ h => by simp [newMsg] at h⟩ ⟨by decide, fun _ h => by simp [newMsg] at h⟩
          (by simp [newMsg])⟩
    | some ip =>
      have hnm := (hn ip).1 rfl
      have hfam : family ip = addrType ip := rfl
      simp only
      by_cases hty : r.type = 255 ∨ r.type = family ip
      · rw [if_pos hty]
        unfold address
        rw [hset]
        simp only [Out.bind]
        obtain ⟨sg, s1, _⟩ := signs_good hE (rs := []) (type := family ip) (by unfold family; split <;> decide) (by simp)
        have hnil := signs_nil hE.keys s1
        subst hnil
        rw [s1.1]
        refine ⟨_, rfl, .addr hnm hty ⟨rfl, rfl, rfl, rfl, rfl, rfl⟩,
          answer_mk (by dsimp only; decide) rfl (by dsimp only [newMsg]; decide) ⟨by dsimp only; simp, goods_one (addr_good hgn (by decide) ?_)⟩
            ⟨by dsimp only [newMsg]; decide, fun _ h => by simp [newMsg] at h⟩ ⟨by dsimp only; simp, fun _ h => by simp at h⟩ (by simp)⟩
        rcases hnm.1 with h | h
        · exact .inl ⟨by unfold family; rw [if_pos h], h⟩
        · exact .inr ⟨by unfold family; rw [if_neg (by omega)], h⟩
      · rw [if_neg hty]
        obtain ⟨m, m1, m2, m3, m4, m5, m6, m7, m8⟩ := noSuch_eq hE hset hgn (map := if family ip = 1 then mapA else mapAaaa) (by split <;> decide)
        exact ⟨m, m1, .other hnm hty ⟨m2, m3, m4, m5, m6⟩ m7, m8⟩
  | a :: b :: c :: ls, _, h2, _, _, _, _ => simp at h2

/-! ### Local clients -/

theorem isLocal_sa {sa : Addr.Sa} (h : GoodSa sa) : Addr.isLocal (Addr.fromSa sa) = true ↔ Loopback sa := by
  cases sa with
  | in4 ip port =>
    obtain ⟨h, _⟩ := h
    match ip, h with
    | [a, b, c, d], _ =>
      have hm : Addr.isMapped (Addr.fromSa (.in4 [a, b, c, d] port)) = true := rfl
      unfold Addr.isLocal
      rw [if_pos hm]
      have e1 : Addr.byte (Addr.fromSa (.in4 [a, b, c, d] port)) 12 = a.toNat := rfl
      have e2 : Addr.byte (Addr.fromSa (.in4 [a, b, c, d] port)) 13 = b.toNat := rfl
      rw [e1, e2]
      unfold Loopback
      simp only [Bool.and_eq_true, decide_eq_true_eq, List.take_succ_cons, List.take_zero, List.cons.injEq, and_true]
      rw [← UInt8.toNat_inj, ← UInt8.toNat_inj]
      rfl
  | in6 ip port =>
    obtain ⟨h, _⟩ := h
    match ip, h with
    | [b0, b1, b2, b3, b4, b5, b6, b7, b8, b9, b10, b11, b12, b13, b14, b15], _ =>
      have e1 : Addr.isMapped (Addr.fromSa (.in6 [b0, b1, b2, b3, b4, b5, b6, b7, b8, b9, b10, b11, b12, b13, b14, b15] port)) =
        ([b0, b1, b2, b3, b4, b5, b6, b7, b8, b9, b10, b11] == Addr.mapped) := rfl
      have e2 : Addr.byte (Addr.fromSa (.in6 [b0, b1, b2, b3, b4, b5, b6, b7, b8, b9, b10, b11, b12, b13, b14, b15] port)) 12 = b12.toNat := rfl
      have e3 : Addr.byte (Addr.fromSa (.in6 [b0, b1, b2, b3, b4, b5, b6, b7, b8, b9, b10, b11, b12, b13, b14, b15] port)) 13 = b13.toNat := rfl
      have e4 : Addr.startsWith (Addr.fromSa (.in6 [b0, b1, b2, b3, b4, b5, b6, b7, b8, b9, b10, b11, b12, b13, b14, b15] port)) Addr.localIp =
        ([b0, b1, b2, b3, b4, b5, b6, b7, b8, b9, b10, b11, b12, b13, b14, b15] == Addr.localIp) := rfl
      unfold Addr.isLocal Loopback
      rw [e1, e2, e3, e4]
      have t127 : ∀ x : UInt8, x.toNat = 127 ↔ x = 127 := fun x => (UInt8.toNat_inj (b := 127))
      have t0 : ∀ x : UInt8, x.toNat = 0 ↔ x = 0 := fun x => (UInt8.toNat_inj (b := 0))
      by_cases hm : ([b0, b1, b2, b3, b4, b5, b6, b7, b8, b9, b10, b11] == Addr.mapped) = true
      · rw [if_pos hm]
        have hm' := eq_of_beq hm
        simp only [Addr.mapped, List.cons.injEq, and_true] at hm'
        obtain ⟨rfl, rfl, rfl, rfl, rfl, rfl, rfl, rfl, rfl, rfl, rfl, rfl⟩ := hm'
        simp only [Bool.and_eq_true, decide_eq_true_eq, t127, t0]
        constructor
        · rintro ⟨rfl, rfl⟩
          exact .inr rfl
        · rintro (h | h)
          · simp [List.replicate] at h
          · simp [List.replicate] at h
            exact h
      · rw [if_neg hm]
        rw [beq_iff_eq]
        constructor
        · intro h
          exact .inl h
        · rintro (h | h)
          · exact h
          · refine absurd ?_ hm
            simp [List.replicate] at h
            obtain ⟨rfl, rfl, rfl, rfl, rfl, rfl, rfl, rfl, rfl, rfl, rfl, rfl, rfl, rfl⟩ := h
            rfl

/-! ### Where a request goes -/

theorem blacklist_iff {ls : List Bytes} {r : Req} (hr : For ls r) (hne : ls ≠ []) : r.tld ∈ blacklist ↔ IsReserved ls := by
  have hb : blacklist = reserved.map str := rfl
  have hl : ∀ s ∈ reserved, lowered (str s) = str s := by decide
  rw [hb, hr.tld]
  unfold IsReserved
  constructor
  · intro h
    obtain ⟨s, hs, e⟩ := List.mem_map.1 h
    exact ⟨hne, s, hs, Cache.sameName_lower.2 (by rw [hl s hs, e])⟩
  · rintro ⟨_, s, hs, e⟩
    refine List.mem_map.2 ⟨s, hs, ?_⟩
    rw [Cache.sameName_lower.1 e, hl s hs]

theorem isSynth_iff {ls : List Bytes} {r : Req} (hr : For ls r) : (r.tld = ascii "_synth" ∧ r.labels ≤ 2) ↔ IsSynth ls := by
  have : ascii "_synth" = str "_synth" := rfl
  rw [this, hr.tld, hr.labels]
  unfold IsSynth
  rw [Cache.sameName_lower, lowered_synth]
  exact ⟨fun h => ⟨h.2, h.1⟩, fun h => ⟨h.2, h.1⟩⟩

theorem synth_not_reserved {ls : List Bytes} (h : IsSynth ls) : ls ≠ [] ∧ ¬ IsReserved ls := by
  have hs := Cache.sameName_lower.1 h.2
  rw [lowered_synth] at hs
  refine ⟨(fun e => by subst e; exact absurd hs (by decide)), ?_⟩
  rintro ⟨_, s, hm, e⟩
  have := Cache.sameName_lower.1 e
  rw [hs] at this
  revert hm this
  clear e
  intro hm
  have : ∀ s ∈ reserved, str "_synth" ≠ lowered (str s) := by decide
  exact this s hm

theorem nx_qd {E : Env} {m : Msg} (h : toNx E = .ok m) : m.qd = [] := by
  unfold toNx at h
  obtain ⟨_, _, h⟩ := Out.bind_eq_ok.1 h
  obtain ⟨_, _, h⟩ := Out.bind_eq_ok.1 h
  cases h
  rfl

theorem root_qd {E : Env} {type : Nat} {a : Addr.Addr} {m : Msg} (h : root E type a = .ok m) : m.qd = [] := by
  unfold root at h
  dsimp only at h
  split at h
  · obtain ⟨_, _, h⟩ := Out.bind_eq_ok.1 h
    obtain ⟨_, _, h⟩ := Out.bind_eq_ok.1 h
    cases h
    rfl
  split at h
  · obtain ⟨_, _, h⟩ := Out.bind_eq_ok.1 h
    obtain ⟨_, _, h⟩ := Out.bind_eq_ok.1 h
    obtain ⟨_, _, h⟩ := Out.bind_eq_ok.1 h
    cases h
    rfl
  split at h
  · obtain ⟨_, _, h⟩ := Out.bind_eq_ok.1 h
    obtain ⟨_, _, h⟩ := Out.bind_eq_ok.1 h
    cases h
    rfl
  split at h
  · obtain ⟨_, _, h⟩ := Out.bind_eq_ok.1 h
    obtain ⟨_, _, h⟩ := Out.bind_eq_ok.1 h
    cases h
    rfl
  · obtain ⟨_, _, h⟩ := Out.bind_eq_ok.1 h
    obtain ⟨_, _, h⟩ := Out.bind_eq_ok.1 h
    cases h
    rfl

/-- What is planned for a source. -/
def Plans (S : Server) (I : Info) (ls : List Bytes) (r : Req) : Source → Plan → Prop
  | .about, p => ∃ m, p = .answer m false ∧ AboutMsg I ls m ∧ Answer m
  | .nobody, p => p = .drop
  | .synth, p => ∃ m, p = .answer m false ∧ SynthMsg S.E maps r.type ls m ∧ Answer m
  | .root, p => ∃ m, p = .answer m true ∧ RootMsg S.E S.ip r.type m ∧ Answer m ∧ m.qd = []
  | .reserved, p => ∃ m, p = .answer m true ∧ NxMsg S.E m ∧ Answer m ∧ m.qd = []
  | .pool, p => p = .resolve (lowered (tldOf ls))

theorem dispatch_eq {S : Server} (hE : SignOk S.E) (hip : S.ip.ip.length = 36) {I : Info} (hI : GoodInfo I) {sa : Addr.Sa} (hsa : GoodSa sa) {ls : List Bytes} (hq : GoodQuery ls)
    (hsafe : SafeSynth ls) {r : Req} (hr : For ls r) : ∃ p s, dispatch S I sa r = .ok p ∧ Goes (Loopback sa) r.cls r.type ls s ∧ Plans S I ls r s p := by
  unfold dispatch
  by_cases hh : r.cls = 4 ∧ r.type = 16
  · rw [if_pos hh]
    cases hl : Addr.isLocal (Addr.fromSa sa) with
    | false =>
      refine ⟨_, .nobody, rfl, .nobody hh ?_, rfl⟩
      intro h
      rw [(isLocal_sa hsa).2 h] at hl
      cases hl
    | true =>
      obtain ⟨m, h1, h2, h3⟩ := resolve_eq hI hq.1
      simp only [Bool.not_true, Bool.false_eq_true, if_false]
      rw [hr.name, h1]
      exact ⟨_, .about, rfl, .about hh ((isLocal_sa hsa).1 hl), m, rfl, h2, h3⟩
  rw [if_neg hh]
  by_cases hs : r.tld = ascii "_synth" ∧ r.labels ≤ 2
  · rw [if_pos hs]
    have hs' := (isSynth_iff hr).1 hs
    obtain ⟨m, h1, h2, h3⟩ := synth_eq hE hq hs' hsafe hr
    rw [h1]
    exact ⟨_, .synth, rfl, .synth hh hs', m, rfl, h2, h3⟩
  rw [if_neg hs]
  have hs' : ¬ IsSynth ls := fun h => hs ((isSynth_iff hr).2 h)
  by_cases hl : r.labels > 0
  · rw [if_pos hl]
    have hne : ls ≠ [] := by rw [hr.labels] at hl; exact List.length_pos_iff.1 hl
    by_cases hb : r.tld ∈ blacklist
    · rw [if_pos hb]
      obtain ⟨m, h1, h2, h3⟩ := nx_eq hE
      rw [h1]
      exact ⟨_, .reserved, rfl, .reserved hh ((blacklist_iff hr hne).1 hb), m, rfl, h2, h3, nx_qd h1⟩
    · rw [if_neg hb]
      exact ⟨_, .pool, rfl, .pool hh hne hs' (fun h => hb ((blacklist_iff hr hne).2 h)), by rw [hr.tld]; rfl⟩
  · rw [if_neg hl]
    have he : ls = [] := by rw [hr.labels] at hl; exact List.length_eq_zero_iff.1 (by omega)
    obtain ⟨m, h1, h2, h3⟩ := root_eq hE hip r.type
    rw [h1]
    exact ⟨_, .root, rfl, .root hh he, m, rfl, h2, h3, root_qd h1⟩

/-! ### Packets -/

theorem reply_answer {S : Server} (hk : S.key = none) (now : Int) {r : Req} (hr : ReqOk r) {m : Msg} (hm : Answer m) :
    ∃ w, reply S now r m = .ok (some w) ∧ Carries r m w := by
  obtain ⟨n, b, w, s, h1, _, h2, h3, h4, h5⟩ := finalize_none (H := S.H) (now := now) hm hr
  refine ⟨w, ?_, n, s, h1, h3, h4, h5⟩
  unfold reply
  rw [hk, h2]

/-- Messages all records of which can be read. -/
structure Readable (m : Msg) : Prop where
  an : ∀ r ∈ m.an, ReadRr r
  ns : ∀ r ∈ m.ns, ReadRr r
  ar : ∀ r ∈ m.ar, ReadRr r

theorem field_text {ls : List Bytes} (h : OkName ls) : FieldName (text ls) := by
  refine ⟨h.2, ?_⟩
  cases ls with
  | nil => exact .inr rfl
  | cons l ls =>
    left
    obtain ⟨h1, _, _, h2⟩ := h.1 l List.mem_cons_self
    cases l with
    | nil => simp at h1
    | cons c l =>
      intro he
      simp only [text, body, List.map_cons, List.flatten_cons, reduceCtorEq, if_false, List.cons_append, List.head?_cons] at he
      exact h2 (by rw [Option.some.inj he]; simp)

theorem field_val {f : Field} {v : Val} (h : ReadVal f v) : FieldVal f v := by
  cases f <;> cases v <;> try exact h
  obtain ⟨ls, h1, h2⟩ := h
  exact h2 ▸ field_text h1

theorem field_vals : ∀ {fs : List Field} {vs : List Val}, ReadVals fs vs → FieldVals fs vs
  | [], [], _ => trivial
  | _ :: _, _ :: _, h => ⟨field_val h.1, field_vals h.2⟩
  | [], _ :: _, h => h.elim
  | _ :: _, [], h => h.elim

theorem field_rr {r : Rr} (h : ReadRr r) : FieldName r.name ∧ ∀ vs, r.rd = some vs → FieldVals (writeLayout r.type) vs := by
  obtain ⟨ls, h1, h2⟩ := h.name
  refine ⟨h2 ▸ field_text h1, fun vs e => ?_⟩
  obtain ⟨vs', e', h3⟩ := h.rd
  rw [e] at e'
  cases Option.some.inj e'
  rw [layout_eq]
  exact field_vals h3

theorem held_mk {m : Msg} (hq : ∀ q ∈ m.qd, FieldName q.name) (h : Readable m) : HeldMsg m :=
  ⟨hq, fun r hr => field_rr (h.an r hr), fun r hr => field_rr (h.ns r hr), fun r hr => field_rr (h.ar r hr)⟩

theorem readable_answer {m : Msg} (h : Answer m) : Readable m :=
  ⟨fun r hr => (GoodRr.whole (h.an.2 r hr)).read, fun r hr => (GoodRr.whole (h.ns.2 r hr)).read, fun r hr => (GoodRr.whole (h.ar.2 r hr).1).read⟩

theorem finalize_readable {H : Bytes → Bytes} {now : Int} {m : Msg} (hm : Readable m) {r : Req} (hr : ReqOk r) : finalize H none now m r ≠ .ub := by
  obtain ⟨ls, hok, hls⟩ := hr.name
  unfold finalize
  rw [hls, setName_text hok]
  simp only [Out.bind]
  have hh : HeldMsg (Req.respond m r (if Clean (text ls) then text ls else [0x2e])) := by
    rw [Req.respond_eq]
    refine held_mk ?_ ⟨fun x hx => hm.an x (forClient_mem hx), fun x hx => hm.ns x (forClient_mem hx), fun x hx => hm.ar x (forClient_mem hx)⟩
    intro q hq
    rcases List.mem_singleton.1 hq with rfl
    obtain ⟨ks, h1, h2⟩ := kept_name hok
    have : (if Clean (text ls) then text ls else [0x2e]) = text ks := h2
    dsimp only
    rw [this]
    exact field_text h1
  obtain ⟨n, _, ⟨b, hb, _⟩, _⟩ := Props.Dns.C25_message_partial _ hh
  rw [hb]
  simp only
  have := Props.Dns.C26_safe b (limit (none : Option (Bytes → Option Bytes)).isSome r)
  cases ht : truncate b (limit (none : Option (Bytes → Option Bytes)).isSome r) with
  | ub => exact absurd ht this
  | err e => simp
  | ok w => simp

theorem reply_readable {S : Server} (hk : S.key = none) (now : Int) {r : Req} (hr : ReqOk r) {m : Msg} (hm : Readable m) :
    ∃ w, reply S now r m = .ok (some w) ∧ Delivers S now r m w := by
  obtain ⟨n, b, w', s, h1, _, h2, h3, h4, h5⟩ := finalize_none (H := S.H) (now := now) servfail_answer hr
  unfold reply
  rw [hk]
  cases hf : finalize S.H none now m r with
  | ub => exact absurd hf (finalize_readable hm hr)
  | ok w =>
    refine ⟨w, rfl, fun ha => ?_, .inl hf⟩
    obtain ⟨n, b, w', s, h1, _, h2, h3, h4, h5⟩ := finalize_none (H := S.H) (now := now) ha hr
    rw [hf] at h2
    cases Out.ok.inj h2
    exact ⟨n, s, h1, h3, h4, h5⟩
  | err e =>
    simp only [h2]
    refine ⟨w', rfl, fun ha => ?_, .inr ⟨hf, n, s, h1, h3, h4, h5⟩⟩
    obtain ⟨_, _, _, _, _, _, h2, _⟩ := finalize_none (H := S.H) (now := now) ha hr
    rw [hf] at h2
    cases h2

/-! ### The cache -/

theorem run_append : ∀ (a b : List Cache.Op) (c : Cache.Cache), Cache.run c (a ++ b) = (Cache.run c a).bind fun c => Cache.run c b
  | [], _, _ => rfl
  | o :: a, b, c => by
    rw [List.cons_append, Cache.run, Cache.run]
    cases Cache.step c o with
    | ub => rfl
    | err e => rfl
    | ok c' => exact run_append a b c'

theorem reach_empty : Reach [] := ⟨[], by simp, rfl⟩

theorem reach_step {c : Cache.Cache} (h : Reach c) {o : Cache.Op} (ho : Good o) (hk : Kept o) : ∃ c', Cache.step c o = .ok c' ∧ Reach c' := by
  obtain ⟨ops, h1, h2⟩ := h
  obtain ⟨c1, e1, hi⟩ := Cache.inv_run ops [] [] Cache.inv_empty fun o ho => (h1 o ho).1
  rw [h2] at e1
  cases Out.ok.inj e1
  rw [List.nil_append] at hi
  obtain ⟨c', h3, _⟩ := Cache.inv_step hi ho
  refine ⟨c', h3, ops ++ [o], ?_, ?_⟩
  · intro x hx
    rcases List.mem_append.1 hx with hx | hx
    · exact h1 x hx
    · rcases List.mem_singleton.1 hx with rfl; exact ⟨ho, hk⟩
  · rw [run_append, h2]
    simp only [Out.bind, Cache.run]
    rw [h3]

theorem get_ok {c : Cache.Cache} (h : Reach c) (now : Int) {ls : List Bytes} (hq : GoodQuery ls) (type : Nat) :
    ∃ x c', Cache.get now c (text ls) type = .ok (x, c') ∧ Reach c' ∧ ∀ m, x = some m → Readable m := by
  obtain ⟨c', h1, h2⟩ := reach_step h (o := .get now (text ls) type) ⟨ls, hq, rfl⟩ trivial
  unfold Cache.step at h1
  dsimp only at h1
  unfold Cache.get
  cases hd : Cache.getData now c (text ls) type with
  | ub => rw [hd] at h1; cases h1
  | err e => rw [hd] at h1; cases h1
  | ok y =>
    rw [hd] at h1
    obtain ⟨d, c1⟩ := y
    cases Out.ok.inj h1
    simp only [Out.bind]
    cases d with
    | none => exact ⟨_, _, rfl, h2, by simp⟩
    | some d =>
      simp only
      cases hm : Dns.decode d with
      | ub => exact absurd hm (Props.Dns.C24_safe d).1
      | err e => exact ⟨_, _, rfl, h2, by simp⟩
      | ok m =>
        refine ⟨_, _, rfl, h2, ?_⟩
        intro m' e
        cases Option.some.inj e
        have := Props.Dns.C24_decoded d m hm
        exact ⟨fun r hr => this.an.2 r hr, fun r hr => this.ns.2 r hr, fun r hr => (this.ar.2 r hr).1⟩

theorem keep_ok {ck : Clock} (hck : ck.ins' < 2 ^ 62) {c : Cache.Cache} (h : Reach c) {ls : List Bytes} (hq : GoodQuery ls) (hns : ¬ IsSynth ls) {r : Req} (hr : r.name = text ls) {m : Msg}
    (hm : Readable m) (hqd : m.qd = []) : ∃ c', keepIn ck c r m = .ok c' ∧ Reach c' := by
  obtain ⟨n, _, ⟨b, hb, _⟩, _⟩ := Props.Dns.C25_message_partial m (held_mk (by rw [hqd]; simp) hm)
  obtain ⟨c', h1, h2⟩ := reach_step h (o := .insert ck.ins ck.ins' (text ls) r.type b) ⟨⟨ls, hq, rfl⟩, hck⟩
    fun ls' h' e => text_inj hq.1.1 h'.1 e ▸ hns
  refine ⟨c', ?_, h2⟩
  unfold keepIn Cache.insert
  rw [hb]
  simp only [Out.bind]
  rw [hr]
  unfold Cache.step at h1
  dsimp only at h1
  cases hd : Cache.insertData ck.ins ck.ins' c (text ls) r.type b with
  | ub => rw [hd] at h1; cases h1
  | err e => rw [hd] at h1; cases h1
  | ok y =>
    rw [hd] at h1
    cases Out.ok.inj h1
    rfl

theorem own_miss {c : Cache.Cache} (h : Reach c) (now : Int) {ls : List Bytes} (hq : GoodQuery ls) {type : Nat} (hs : IsSynth ls) (ho : Spec.Cache.Own ls type) :
    ∃ c', Cache.get now c (text ls) type = .ok (none, c') := by
  obtain ⟨ops, h1, h2⟩ := h
  obtain ⟨c1, e1, _, h3⟩ := Props.Cache.C32_history_partial ops fun o ho => (h1 o ho).1
  rw [h2] at e1
  cases Out.ok.inj e1
  obtain ⟨x, c', h4, h5⟩ := h3 now ls type hq
  unfold Cache.get
  rw [h4]
  simp only [Out.bind]
  cases x with
  | none => exact ⟨_, rfl⟩
  | some wire =>
    exfalso
    obtain ⟨b, a, n0, n0', ls0, type0, rfl, ok0, same, _⟩ := h5 wire rfl
    have hk := (h1 (.insert n0 n0' (text ls0) type0 wire) (by simp)).2 ls0 ok0 rfl
    rcases same with ⟨_, _, ⟨e, hn⟩, _⟩ | ⟨hn, _⟩
    · refine hk ⟨by rw [← e]; exact hs.1, ?_⟩
      have hne := (synth_not_reserved hs).1
      have hne0 : ls0 ≠ [] := by rintro rfl; exact hne (List.length_eq_zero_iff.1 (by simpa using e))
      have := hn (ls.length - 1)
      have t1 : tldOf ls = ls.getD (ls.length - 1) [] := by
        unfold tldOf; rw [List.getLast?_eq_getElem?, List.getD_eq_getElem?_getD]
      have t2 : tldOf ls0 = ls0.getD (ls.length - 1) [] := by
        unfold tldOf; rw [List.getLast?_eq_getElem?, List.getD_eq_getElem?_getD, e]
      rw [t2]
      have h6 := hs.2
      rw [t1] at h6
      rw [Cache.sameName_lower] at *
      rw [← this, h6]
    · exact hn ho

/-! ### Plans -/

theorem perform_ok {S : Server} (hk : S.key = none) {I : Info} {ck : Clock} (hck : ck.ins' < 2 ^ 62) (accepts : Bool) {c : Cache.Cache} (hc : Reach c) {ls : List Bytes} (hq : GoodQuery ls)
    {r : Req} (hr : For ls r) (hok : ReqOk r) {s : Source} (hgo : s = .root ∨ s = .reserved → ¬ IsSynth ls) {p : Plan} (hp : Plans S I ls r s p) :
    ∃ a c', perform S ck accepts c r p = .ok (a, c') ∧ Acts S I accepts maps ls r s a ∧ Reach c' ∧ (s ≠ .root → s ≠ .reserved → c' = c) := by
  have nokeep : ∀ {m : Msg}, Answer m → ∃ w, perform S ck accepts c r (.answer m false) = .ok (.send w, c) ∧ Carries r m w := by
    intro m hm
    obtain ⟨w, h1, h2⟩ := reply_answer hk ck.sig hok hm
    refine ⟨w, ?_, h2⟩
    unfold perform
    simp only [Bool.false_eq_true, if_false, Out.bind]
    rw [h1]
    rfl
  have keep : ∀ {m : Msg}, Answer m → m.qd = [] → ¬ IsSynth ls → ∃ w c', perform S ck accepts c r (.answer m true) = .ok (.send w, c') ∧ Carries r m w ∧ Reach c' := by
    intro m hm hqd hns
    obtain ⟨w, h1, h2⟩ := reply_answer hk ck.sig hok hm
    obtain ⟨c', h3, h4⟩ := keep_ok hck hc hq hns hr.name (readable_answer hm) hqd
    refine ⟨w, c', ?_, h2, h4⟩
    unfold perform
    simp only [if_true]
    rw [h3]
    simp only [Out.bind]
    rw [h1]
    rfl
  cases s with
  | about =>
    obtain ⟨m, rfl, h1, h2⟩ := hp
    obtain ⟨w, h3, h4⟩ := nokeep h2
    exact ⟨_, _, h3, ⟨m, w, h1, h4, rfl⟩, hc, fun _ _ => rfl⟩
  | nobody =>
    cases hp
    exact ⟨_, _, rfl, rfl, hc, fun _ _ => rfl⟩
  | synth =>
    obtain ⟨m, rfl, h1, h2⟩ := hp
    obtain ⟨w, h3, h4⟩ := nokeep h2
    exact ⟨_, _, h3, ⟨m, w, h1, h4, rfl⟩, hc, fun _ _ => rfl⟩
  | root =>
    obtain ⟨m, rfl, h1, h2, hqd⟩ := hp
    obtain ⟨w, c', h3, h4, h5⟩ := keep h2 hqd (hgo (.inl rfl))
    exact ⟨_, _, h3, ⟨m, w, h1, h4, rfl⟩, h5, fun h => absurd rfl h⟩
  | reserved =>
    obtain ⟨m, rfl, h1, h2, hqd⟩ := hp
    obtain ⟨w, c', h3, h4, h5⟩ := keep h2 hqd (hgo (.inr rfl))
    exact ⟨_, _, h3, ⟨m, w, h1, h4, rfl⟩, h5, fun _ h => absurd rfl h⟩
  | pool =>
    cases hp
    unfold perform Acts
    cases accepts with
    | true => exact ⟨_, _, rfl, by show Act.ask _ = Act.ask _; rw [lower_eq], hc, fun _ _ => rfl⟩
    | false =>
      obtain ⟨w, h1, h2⟩ := reply_answer hk ck.sig hok servfail_answer
      simp only [Bool.false_eq_true, if_false]
      rw [h1]
      exact ⟨_, _, rfl, ⟨w, h2, rfl⟩, hc, fun _ _ => rfl⟩

/-! ### Resources -/

theorem signs_read {E : Env} (hE : SignOk E) {rs : List Rr} {type : Nat} (h24 : type ≠ 24) (hw : ∀ r ∈ rs, WholeRr r) {sg : List Rr} (h : Signs E rs type sg) : ∀ r ∈ rs ++ sg, WholeRr r := by
  obtain ⟨pub, p1, p2⟩ := hE.keys.zsk
  obtain ⟨tag, hk⟩ := key_key (flags := 256) (by decide) p2
  obtain ⟨sg', h1, h2⟩ := signType_shape E h24 (fun r hr _ => hw r hr) hk zskPriv
  have e : signZsk E rs type = .ok (rs ++ sg') := by
    unfold signZsk zsk dnskeyCreate
    rw [p1]
    exact h1
  have := h.1
  rw [e] at this
  have := List.append_cancel_left (Out.ok.inj this)
  subst this
  intro r hr
  rcases List.mem_append.1 hr with hr | hr
  · exact hw r hr
  rcases h2 with rfl | ⟨x, hx, s, d, g, ht, hs, hn, hg, rfl⟩
  · simp at hr
  rcases List.mem_singleton.1 hr with rfl
  have hl := hE.sig _ _ _ hg
  have hsn : GoodName s.signer := by rw [hn]; exact good_low good_dot
  have hz := good_size hsn
  obtain ⟨ns, n1, n2⟩ := (hw x hx).read.name
  obtain ⟨ks, k1, _, k2⟩ := hsn
  refine whole_mk ⟨_, okName_low n1, by rw [n2, lowered_low, text_low]⟩ (by decide) (by decide : 10800 < 4294967296)
    ⟨hs.typeCovered, hs.algorithm, hs.labels, hs.origTtl, hs.expiration, hs.inception, hs.keyTag, ⟨ks, k1, k2⟩, trivial, trivial⟩ ?_
  show 2 + (1 + (1 + (4 + (4 + (4 + (2 + (valSize .name (.name s.signer) + (g.length + 0)))))))) < 65536
  omega

theorem glueKept_whole {owner : Bytes} {rs : List Rec} (hg : ∀ r ∈ rs, GoodRec r) : ∀ x ∈ glueKept owner rs, WholeRr x := by
  intro x hx
  obtain ⟨r, hr, e⟩ := List.mem_filterMap.1 hx
  have := hg r hr
  have h4 : ∀ {n ip : Bytes}, (∃ ls, OkName ls ∧ n = text ls) → ip.length = 4 → WholeRr ⟨n, 1, 1, 21600, some [.bytes ip]⟩ := fun hn hi =>
    whole_mk hn (by decide) (by decide) ⟨hi, trivial⟩ (by show 4 + 0 < 65536; decide)
  have h6 : ∀ {n ip : Bytes}, (∃ ls, OkName ls ∧ n = text ls) → ip.length = 16 → WholeRr ⟨n, 28, 1, 21600, some [.bytes ip]⟩ := fun hn hi =>
    whole_mk hn (by decide) (by decide) ⟨hi, trivial⟩ (by show 16 + 0 < 65536; decide)
  cases r with
  | glue4 n ip =>
    obtain ⟨⟨ls, h1, rfl⟩, h2⟩ := this
    simp only at e
    split at e
    · cases Option.some.inj e
      exact h4 (kept_name h1) h2
    · cases e
  | glue6 n ip =>
    obtain ⟨⟨ls, h1, rfl⟩, h2⟩ := this
    simp only at e
    split at e
    · cases Option.some.inj e
      exact h6 (kept_name h1) h2
    · cases e
  | synth4 ip =>
    cases Option.some.inj e
    have hi : ip.length = 4 := this
    exact h4 ⟨_, (synth_ok (by omega)).1, synth_text ip⟩ hi
  | synth6 ip =>
    cases Option.some.inj e
    have hi : ip.length = 16 := this
    exact h6 ⟨_, (synth_ok (by omega)).1, synth_text ip⟩ hi
  | _ => cases e

/-- Sections of whole records. -/
def Wholes (l : List Rr) : Prop := ∀ r ∈ l, WholeRr r

theorem Wholes.append {a b : List Rr} (h : Wholes a) (h' : Wholes b) : Wholes (a ++ b) := fun r hr => (List.mem_append.1 hr).elim (h r) (h' r)

theorem wholes_nil : Wholes [] := fun _ h => by cases h

theorem authority_whole {E : Env} (hE : SignOk E) {owner : Bytes} (ho : ∃ ls, OkName ls ∧ owner = text ls) {o : Bytes} {rs : List Rec} (hg : ∀ r ∈ rs, GoodRec r) {ns ar : List Rr}
    (h : Authority E owner (glueKept o rs) rs ns ar) : Wholes ns ∧ Wholes ar := by
  rcases h with ⟨_, sg, h1, rfl, rfl⟩ | ⟨_, sg, sg', h1, h2, rfl, rfl⟩
  · exact ⟨signs_read hE (by split <;> decide) (Wholes.append (nsSet_whole ho hg) (dsSet_whole ho hg)) h1, glueKept_whole hg⟩
  · have hn : Wholes [nsecOf owner []] := fun r hr => by rcases List.mem_singleton.1 hr with rfl; exact nsec_whole ho (by decide)
    have h3 : Wholes ([nsecOf owner []] ++ sg) := signs_read hE (by decide) hn h1
    have h4 : Wholes [soaOf (serial E.now)] := fun r hr => by rcases List.mem_singleton.1 hr with rfl; exact soa_whole E
    exact ⟨signs_read hE (by decide) (h3.append h4) h2, wholes_nil⟩

theorem readable_mk {m : Msg} (h1 : Wholes m.an) (h2 : Wholes m.ns) (h3 : Wholes m.ar) : Readable m :=
  ⟨fun r hr => (h1 r hr).read, fun r hr => (h2 r hr).read, fun r hr => (h3 r hr).read⟩

theorem direct_whole {E : Env} (hE : SignOk E) {owner : Bytes} (ho : ∃ ls, OkName ls ∧ owner = text ls) {o : Bytes} {rs : List Rec} (hg : ∀ r ∈ rs, GoodRec r) {type : Nat} {m : Msg}
    (h : Direct E owner (glueKept o rs) rs type m) : Readable m := by
  rcases h with (⟨_, _, sg, s, _, _, h1, h2, h3⟩ | ⟨_, _, sg, s, _, _, h1, h2, h3⟩ | ⟨_, _, sg, s, _, _, h1, h2, h3⟩) | ⟨_, _, _, _, _, h1, h2⟩
  · exact readable_mk (h1 ▸ signs_read hE (by decide) (dsSet_whole ho hg) s) (h2 ▸ wholes_nil) (h3 ▸ wholes_nil)
  · exact readable_mk (h1 ▸ signs_read hE (by decide) (txtSet_whole ho hg) s) (h2 ▸ wholes_nil) (h3 ▸ wholes_nil)
  · exact readable_mk (h1 ▸ wholes_nil) (h2 ▸ signs_read hE (by decide) (nsSet_whole ho hg) s) (h3 ▸ glueKept_whole hg)
  · have := authority_whole hE ho hg h2
    exact readable_mk (h1 ▸ wholes_nil) this.1 this.2

theorem toDns_qd {E : Env} {rs : List Rec} {name : Bytes} {type : Nat} {m : Msg} (h : toDns E rs name type = .ok (some m)) : m.qd = [] ∧ m.opcode = 0 := by
  unfold toDns at h
  split at h
  · cases h
  split at h
  · cases h
  obtain ⟨t, _, h⟩ := Out.bind_eq_ok.1 h
  split at h
  · cases h
  split at h
  · cases h
  split at h
  · obtain ⟨f, _, h⟩ := Out.bind_eq_ok.1 h
    cases h
    exact ⟨rfl, rfl⟩
  · obtain ⟨f, h1, h⟩ := Out.bind_eq_ok.1 h
    cases h
    unfold single at h1
    obtain ⟨s, _, h1⟩ := Out.bind_eq_ok.1 h1
    dsimp only at h1
    by_cases hc : s.1.length = 0 ∧ s.2.1.length = 0
    · rw [if_pos hc] at h1
      obtain ⟨f, _, h1⟩ := Out.bind_eq_ok.1 h1
      cases h1
      exact ⟨rfl, rfl⟩
    · rw [if_neg hc] at h1
      cases h1
      exact ⟨rfl, rfl⟩

theorem serve_eq {E : Env} (hE : SignOk E) {ls : List Bytes} (hls : OkName ls) (hne : ls ≠ []) {rs : List Rec} (hg : ∀ r ∈ rs, GoodRec r) (hl : rs.length ≤ 255) (type : Nat) :
    ∃ m, toDns E rs (text ls) type = .ok (some m) ∧ Readable m ∧ m.qd = [] := by
  obtain ⟨m, h1, h2⟩ := toDns_eq hE.keys hls hne hg hl type
  refine ⟨m, h1, ?_, (toDns_qd h1).1⟩
  by_cases h : 2 ≤ ls.length
  · rw [if_pos h] at h2
    have := authority_whole hE (kept_name (last_ok hls hne).1) hg h2.2.2.2
    exact readable_mk (h2.2.2.1 ▸ wholes_nil) this.1 this.2
  · rw [if_neg h] at h2
    exact direct_whole hE (kept_name hls) hg h2

end Verif.Ns
