import Verif.Lemmas.Serve
import Verif.Spec.Ns
/-
Records that can be signed and sent, and what the server says about the root.
-/
namespace Verif.Ns
open Verif.Bio Verif.DnsName Verif.Dns Verif.Label Verif.Req Verif.Dnssec Verif.Resource
open Verif.Spec.DnsName Verif.Spec.Dns Verif.Spec.Dnssec Verif.Spec.Req Verif.Spec.Resource Verif.Spec.Ns
open Verif.Props.Dnssec (GoodKey C45_key_tag C45_ds)

/-! ### Good records -/

theorem good_read_val {f : Field} {v : Val} (h : GoodVal f v) : ReadVal f v := by
  cases f <;> cases v <;> try exact h
  obtain ⟨ls, h1, _, h2⟩ := h
  exact ⟨ls, h1, h2⟩

theorem good_read_vals : ∀ {fs : List Field} {vs : List Val}, GoodVals fs vs → ReadVals fs vs
  | [], [], _ => trivial
  | _ :: _, _ :: _, h => ⟨good_read_val h.1, good_read_vals h.2⟩
  | [], _ :: _, h => h.elim
  | _ :: _, [], h => h.elim

theorem GoodRr.whole {r : Rr} (h : GoodRr r) : WholeRr r := by
  obtain ⟨⟨ls, h1, _, h2⟩, ht, hc, hl, vs, hv, hg, hs⟩ := h
  refine ⟨⟨⟨ls, h1, h2⟩, ht, hc, hl, vs, hv, good_read_vals hg⟩, ?_⟩
  intro vs' e
  rw [hv] at e
  cases Option.some.inj e
  exact hs

theorem good_dot : GoodName dot := ⟨[], okName_root, by simp, rfl⟩

theorem good_low {s : Bytes} (h : GoodName s) : GoodName (lowered s) := by
  obtain ⟨ls, h1, h2, rfl⟩ := h
  exact ⟨_, okName_low h1, by simpa using h2, by rw [lowered_low, text_low]⟩

theorem good_size {s : Bytes} (h : GoodName s) : valSize .name (.name s) ≤ 256 := by
  obtain ⟨ls, h1, _, e⟩ := h
  exact nameSize_le h1 e

theorem good_kept {ls : List Bytes} (h : OkName ls) (hl : ls.length ≤ 10) : GoodName (kept (text ls)) := by
  unfold kept
  split
  · exact ⟨ls, h, hl, rfl⟩
  · exact good_dot

theorem good_mk {n : Bytes} {type ttl : Nat} {vs : List Val} (hn : GoodName n) (ht : type < 65536) (hl : ttl < 4294967296)
    (hv : GoodVals (readLayout type) vs) (hs : valsSize (readLayout type) vs < 65536) : GoodRr ⟨n, type, 1, ttl, some vs⟩ :=
  ⟨hn, ht, (by decide : 1 < 65536), hl, ⟨vs, rfl, hv, hs⟩⟩

theorem soa_good (E : Env) : GoodRr (soaOf (serial E.now)) := by
  refine good_mk good_dot (by decide) (by decide)
    ⟨good_dot, good_dot, (Nat.mod_lt _ (by decide) : serial E.now < 4294967296), (by decide : 1800 < 4294967296), (by decide : 900 < 4294967296), (by decide : 604800 < 4294967296),
      (by decide : 86400 < 4294967296), trivial⟩ ?_
  show (1 + (1 + (4 + (4 + (4 + (4 + (4 + 0))))))) < 65536
  decide

theorem nsec_good {n : Bytes} (hn : GoodName n) {map : Bytes} (h : map.length ≤ 100) : GoodRr (nsecOf n map) := by
  refine good_mk hn (by decide) (by decide) ⟨good_dot, trivial, trivial⟩ ?_
  show 1 + (map.length + 0) < 65536
  omega

theorem key_good {flags : Nat} (hf : flags < 65536) {pub : Bytes} (h : pub.length = 64) : GoodRr (Spec.Ns.keyOf flags pub) := by
  refine good_mk good_dot (by decide) (by decide) ⟨hf, (by decide : 3 < 256), (by decide : 13 < 256), trivial, trivial⟩ ?_
  show 2 + (1 + (1 + (pub.length + 0))) < 65536
  omega

theorem key_key {flags : Nat} (hf : flags < 65536) {pub : Bytes} (h : pub.length = 64) : ∃ tag, GoodKey (Spec.Ns.keyOf flags pub) 13 tag :=
  ⟨_, GoodRr.whole (key_good hf h), rfl, ⟨_, _, _, _, rfl, ⟨_, _, rfl, ⟨_, _, rfl, ⟨_, _, rfl, ⟨_, _, rfl, rfl, rfl⟩, rfl⟩, rfl⟩, rfl⟩, rfl⟩⟩

/-! ### Signing -/

/-- What signing good records adds is good. -/
theorem signType_good {E : Env} (hE : SignOk E) {rs : List Rr} {type : Nat} (h24 : type ≠ 24) (hw : ∀ r ∈ rs, r.type = type → GoodRr r) {flags : Nat} (hf : flags < 65536) {pub : Bytes}
    (hp : pub.length = 64) (priv : Bytes) : ∃ sg, signType E rs type (Spec.Ns.keyOf flags pub) priv = .ok (rs ++ sg) ∧ sg.length ≤ 1 ∧ ∀ r ∈ sg, r.type = 46 ∧ GoodRr r := by
  obtain ⟨tag, hk⟩ := key_key hf hp
  obtain ⟨sg, h1, h2⟩ := signType_shape E h24 (fun r hr ht => GoodRr.whole (hw r hr ht)) hk priv
  refine ⟨sg, h1, ?_⟩
  rcases h2 with rfl | ⟨r, hr, s, d, g, ht, hs, hn, hg, rfl⟩
  · simp
  refine ⟨by simp, ?_⟩
  intro x hx
  rcases List.mem_singleton.1 hx with rfl
  have hl := hE.sig _ _ _ hg
  have hsn : GoodName s.signer := by rw [hn]; exact good_low good_dot
  have hz := good_size hsn
  refine ⟨rfl, good_low (hw r hr ht).name, (by decide : 46 < 65536), (by decide : 1 < 65536), (by decide : 10800 < 4294967296), _, rfl,
    ⟨hs.typeCovered, hs.algorithm, hs.labels, hs.origTtl, hs.expiration, hs.inception, hs.keyTag, hsn, trivial, trivial⟩, ?_⟩
  show 2 + (1 + (1 + (4 + (4 + (4 + (2 + (valSize .name (.name s.signer) + (g.length + 0)))))))) < 65536
  omega

theorem signs_good {E : Env} (hE : SignOk E) {rs : List Rr} {type : Nat} (h24 : type ≠ 24) (hw : ∀ r ∈ rs, r.type = type → GoodRr r) :
    ∃ sg, Signs E rs type sg ∧ ∀ r ∈ sg, GoodRr r := by
  obtain ⟨pub, h1, h2⟩ := hE.keys.zsk
  obtain ⟨sg, e1, e2, e3⟩ := signType_good hE h24 hw (flags := 256) (by decide) h2 zskPriv
  refine ⟨sg, ⟨?_, e2, fun r hr => (e3 r hr).1⟩, fun r hr => (e3 r hr).2⟩
  unfold signZsk zsk dnskeyCreate
  rw [h1]
  exact e1

theorem signKsk_good {E : Env} (hE : SignOk E) {rs : List Rr} {type : Nat} (h24 : type ≠ 24) (hw : ∀ r ∈ rs, r.type = type → GoodRr r) :
    ∃ sg, signKsk E rs type = .ok (rs ++ sg) ∧ sg.length ≤ 1 ∧ (∀ r ∈ sg, r.type = 46) ∧ ∀ r ∈ sg, GoodRr r := by
  obtain ⟨pub, h1, h2⟩ := hE.keys.ksk
  obtain ⟨sg, e1, e2, e3⟩ := signType_good hE h24 hw (flags := 257) (by decide) h2 kskPriv
  refine ⟨sg, ?_, e2, fun r hr => (e3 r hr).1, fun r hr => (e3 r hr).2⟩
  unfold signKsk ksk dnskeyCreate
  rw [h1]
  exact e1

/-! ### Denials -/

/-- A section of good records. -/
def Goods (l : List Rr) : Prop := ∀ r ∈ l, GoodRr r

theorem Goods.append {a b : List Rr} (h : Goods a) (h' : Goods b) : Goods (a ++ b) := fun r hr => (List.mem_append.1 hr).elim (h r) (h' r)

theorem goods_one {r : Rr} (h : GoodRr r) : Goods [r] := fun x hx => by rcases List.mem_singleton.1 hx with rfl; exact h

theorem denies_eq {E : Env} (hE : SignOk E) {nsecs : List Rr} (hn : nsecs.length ≤ 2) (hg : Goods nsecs) (ht : ∀ r ∈ nsecs, r.type = 47) :
    ∃ ns ns', signZsk E nsecs 47 = .ok ns' ∧ signZsk E (Resource.push ns' (soa E)) 6 = .ok ns ∧ Denies E nsecs ns ∧ Goods ns ∧ ns.length ≤ 10 := by
  obtain ⟨sg, h1, h2⟩ := signs_good hE (rs := nsecs) (type := 47) (by decide) fun r hr _ => hg r hr
  have hall : Goods (nsecs ++ sg ++ [soaOf (serial E.now)]) := (hg.append h2).append (goods_one (soa_good E))
  obtain ⟨sg', h3, h4⟩ := signs_good hE (rs := nsecs ++ sg ++ [soaOf (serial E.now)]) (type := 6) (by decide) fun r hr _ => hall r hr
  have hl := h1.2.1
  have hl' := h3.2.1
  refine ⟨_, _, h1.1, ?_, ⟨sg, sg', h1, h3, rfl⟩, hall.append h4, by simp; omega⟩
  rw [push_eq (by simp; omega)]
  exact h3.1

/-- A message of which only the sections matter. -/
theorem answer_mk {m : Msg} (hf : m.flags < 65536) (ho : m.opcode = 0) (hc : m.code < 16) (h1 : m.an.length ≤ 255 ∧ Goods m.an) (h2 : m.ns.length ≤ 255 ∧ Goods m.ns)
    (h3 : m.ar.length ≤ 255 ∧ Goods m.ar) (ht : ∀ r ∈ m.ar, r.type ≠ 41) : Answer m :=
  ⟨hf, by omega, hc, h1, h2, ⟨h3.1, fun r hr => ⟨h3.2 r hr, ht r hr⟩⟩⟩

theorem servfail_answer : Answer toServfail :=
  answer_mk (by decide) rfl (by decide) ⟨by decide, fun _ h => by simp [toServfail, newMsg] at h⟩ ⟨by decide, fun _ h => by simp [toServfail, newMsg] at h⟩
    ⟨by decide, fun _ h => by simp [toServfail, newMsg] at h⟩ (fun _ h => by simp [toServfail, newMsg] at h)

theorem nx_eq {E : Env} (hE : SignOk E) : ∃ m, toNx E = .ok m ∧ NxMsg E m ∧ Answer m := by
  have hg := nsec_good good_dot (map := typeMap) (by decide)
  obtain ⟨ns, ns', h1, h2, h3, h4, h5⟩ := denies_eq hE (nsecs := [nsecOf dot typeMap, nsecOf dot typeMap]) (by simp) ((goods_one hg).append (goods_one hg)) (by simp [nsecOf])
  refine ⟨{ newMsg with code := 3, flags := 1024, ns := ns }, ?_, ⟨rfl, rfl, rfl, rfl, rfl, typeMap, h3, by decide, rfl⟩,
    answer_mk (by dsimp only; decide) rfl (by dsimp only; decide) ⟨by dsimp only [newMsg]; decide, fun _ h => by simp [newMsg] at h⟩ ⟨by dsimp only; omega, h4⟩
      ⟨by dsimp only [newMsg]; decide, fun _ h => by simp [newMsg] at h⟩ (fun _ h => by simp [newMsg] at h)⟩
  unfold toNx
  have e : signZsk E [rootNsec, rootNsec] 47 = .ok ns' := h1
  rw [e]
  simp only [Out.bind]
  rw [h2]

/-! ### The root -/

theorem ns_good : GoodRr nsOf := by
  refine good_mk good_dot (by decide) (by decide) ⟨good_dot, trivial⟩ ?_
  show 1 + 0 < 65536
  decide

theorem addr_good {n : Bytes} (hn : GoodName n) {ttl : Nat} (hl : ttl < 4294967296) {ip : Bytes} {type : Nat} (h : (type = 1 ∧ ip.length = 4) ∨ (type = 28 ∧ ip.length = 16)) :
    GoodRr ⟨n, type, 1, ttl, some [.bytes ip]⟩ := by
  rcases h with ⟨rfl, h⟩ | ⟨rfl, h⟩
  · exact good_mk hn (by decide) hl ⟨h, trivial⟩ (by show 4 + 0 < 65536; decide)
  · exact good_mk hn (by decide) hl ⟨h, trivial⟩ (by show 16 + 0 < 65536; decide)

theorem rootAddr_eq {E : Env} (hE : SignOk E) {a : Addr.Addr} (ha : a.ip.length = 36) :
    ∃ ar, rootAddr E a = .ok ar ∧ AddrRrs E a ar ∧ Goods ar ∧ ar.length ≤ 2 ∧ ∀ r ∈ ar, r.type ≠ 41 := by
  unfold rootAddr
  have one : ∀ {r : Rr} {type : Nat}, type ≠ 24 → r.type ≠ 41 → GoodRr r → ∃ sg, Signs E [r] type sg ∧ Goods ([r] ++ sg) ∧ ([r] ++ sg).length ≤ 2 ∧ ∀ x ∈ [r] ++ sg, x.type ≠ 41 := by
    intro r type h24 ht hg
    obtain ⟨sg, h1, h2⟩ := signs_good hE (rs := [r]) h24 fun x hx _ => by rcases List.mem_singleton.1 hx with rfl; exact hg
    refine ⟨sg, h1, (goods_one hg).append h2, by have := h1.2.1; simp; omega, ?_⟩
    intro x hx
    rcases List.mem_append.1 hx with hx | hx
    · rcases List.mem_singleton.1 hx with rfl; exact ht
    · rw [h1.2.2 x hx]; decide
  cases hm : Addr.isMapped a with
  | true =>
    have h6 : Addr.isIp6 a = false := by unfold Addr.isIp6; rw [hm]; rfl
    simp only [if_true]
    obtain ⟨sg, h1, h2, h3, h4⟩ := one (r := ⟨dot, 1, 1, 518400, some [.bytes ((a.ip.drop 12).take 4)]⟩) (type := 1) (by decide) (by dsimp only; decide)
      (addr_good good_dot (by decide) (.inl ⟨rfl, by simp; omega⟩))
    have e : rootA a = [⟨dot, 1, 1, 518400, some [.bytes ((a.ip.drop 12).take 4)]⟩] := by
      unfold rootA Addr.getIp
      rw [if_pos hm, h6]
      rfl
    rw [e, h1.1]
    simp only [Out.bind, h6, Bool.false_eq_true, if_false]
    exact ⟨_, rfl, .v4 sg hm h1, h2, h3, h4⟩
  | false =>
    simp only [Bool.false_eq_true, if_false]
    cases ho : Addr.isOnion a with
    | true =>
      have h6 : Addr.isIp6 a = false := by unfold Addr.isIp6; rw [hm, ho]; rfl
      rw [h6]
      simp only [Bool.false_eq_true, if_false]
      exact ⟨_, rfl, .other hm ho, fun _ h => by simp at h, by simp, by simp⟩
    | false =>
      have h6 : Addr.isIp6 a = true := by unfold Addr.isIp6; rw [hm, ho]; rfl
      rw [if_pos h6]
      obtain ⟨sg, h1, h2, h3, h4⟩ := one (r := ⟨dot, 28, 1, 518400, some [.bytes (a.ip.take 16)]⟩) (type := 28) (by decide) (by dsimp only; decide)
        (addr_good good_dot (by decide) (.inr ⟨rfl, by simp; omega⟩))
      have e : rootAaaa a = [⟨dot, 28, 1, 518400, some [.bytes (a.ip.take 16)]⟩] := by
        unfold rootAaaa Addr.getIp
        rw [if_pos h6]
        rw [if_pos h6]
      rw [e, h1.1]
      exact ⟨_, rfl, .v6 sg hm ho h1, h2, h3, h4⟩

theorem root_eq {E : Env} (hE : SignOk E) {a : Addr.Addr} (ha : a.ip.length = 36) (type : Nat) :
    ∃ m, root E type a = .ok m ∧ RootMsg E a type m ∧ Answer m := by
  obtain ⟨ar, a1, a2, a3, a4, a5⟩ := rootAddr_eq hE ha
  obtain ⟨sn, s1, s2⟩ := signs_good hE (rs := [nsOf]) (type := 2) (by decide) fun x hx _ => by rcases List.mem_singleton.1 hx with rfl; exact ns_good
  have s3 := s1.2.1
  have none : (([] : List Rr).length ≤ 255 ∧ Goods []) := ⟨by simp, fun _ h => by simp at h⟩
  have hns : signZsk E [rootNs] 2 = .ok ([nsOf] ++ sn) := s1.1
  unfold root
  dsimp only
  by_cases h2 : type = 255 ∨ type = 2
  · rw [if_pos h2, hns]
    simp only [Out.bind, a1]
    refine ⟨_, rfl, ⟨rfl, rfl, rfl, fun _ => ⟨rfl, a2, sn, s1, rfl⟩, fun h => ?_, fun h => ?_, fun h => ?_, fun h => ?_⟩,
      answer_mk (by dsimp only; decide) rfl (by dsimp only [newMsg]; decide) ⟨by simp; omega, (goods_one ns_good).append s2⟩ none ⟨by dsimp only; omega, a3⟩ a5⟩
    · omega
    · omega
    · omega
    · exact absurd (by rcases h2 with rfl | rfl <;> simp) h
  rw [if_neg h2]
  by_cases h6 : type = 6
  · subst h6
    obtain ⟨sg, g1, g2⟩ := signs_good hE (rs := [soaOf (serial E.now)]) (type := 6) (by decide) fun x hx _ => by rcases List.mem_singleton.1 hx with rfl; exact soa_good E
    have g3 := g1.2.1
    have hs : signZsk E [soa E] 6 = .ok ([soaOf (serial E.now)] ++ sg) := g1.1
    rw [if_pos rfl, hs, hns]
    simp only [Out.bind, a1]
    refine ⟨_, rfl, ⟨rfl, rfl, rfl, fun h => by omega, fun _ => ⟨a2, ⟨sg, g1, rfl⟩, sn, s1, rfl⟩, fun h => by omega, fun h => by omega, fun h => absurd (by simp) h⟩,
      answer_mk (by dsimp only; decide) rfl (by dsimp only [newMsg]; decide) ⟨by simp; omega, (goods_one (soa_good E)).append g2⟩ ⟨by simp; omega, (goods_one ns_good).append s2⟩
        ⟨by dsimp only; omega, a3⟩ a5⟩
  rw [if_neg h6]
  obtain ⟨k, k1, k2⟩ := hE.keys.ksk
  obtain ⟨z, z1, z2⟩ := hE.keys.zsk
  have hk : ksk E = .ok (Spec.Ns.keyOf 257 k) := by unfold ksk dnskeyCreate; rw [k1]; rfl
  have hz : zsk E = .ok (Spec.Ns.keyOf 256 z) := by unfold zsk dnskeyCreate; rw [z1]; rfl
  have kg := key_good (flags := 257) (by decide) k2
  have zg := key_good (flags := 256) (by decide) z2
  by_cases h48 : type = 48
  · subst h48
    have hall : Goods [Spec.Ns.keyOf 257 k, Spec.Ns.keyOf 256 z] := (goods_one kg).append (goods_one zg)
    obtain ⟨sg, g1, g2, g3, g4⟩ := signKsk_good hE (rs := [Spec.Ns.keyOf 257 k, Spec.Ns.keyOf 256 z]) (type := 48) (by decide) fun x hx _ => hall x hx
    have e : rootKeys E = .ok [Spec.Ns.keyOf 257 k, Spec.Ns.keyOf 256 z] := by
      unfold rootKeys
      rw [hk]
      simp only [Out.bind]
      have c1 : cloneRr (Spec.Ns.keyOf 257 k) = .ok (Spec.Ns.keyOf 257 k) := cloneRr_eq (GoodRr.whole kg)
      have c2 : cloneRr (Spec.Ns.keyOf 256 z) = .ok (Spec.Ns.keyOf 256 z) := cloneRr_eq (GoodRr.whole zg)
      rw [c1]
      simp only
      rw [hz]
      simp only
      rw [c2]
    rw [if_pos rfl, e]
    simp only [Out.bind, g1]
    refine ⟨_, rfl, ⟨rfl, rfl, rfl, fun h => by omega, fun h => by omega, fun _ => ⟨rfl, rfl, k, z, sg, k1, z1, g1, g2, g3, rfl⟩, fun h => by omega, fun h => absurd (by simp) h⟩,
      answer_mk (by dsimp only; decide) rfl (by dsimp only [newMsg]; decide) ⟨by simp; omega, hall.append g4⟩ none none (by simp [newMsg])⟩
  rw [if_neg h48]
  by_cases h43 : type = 43
  · subst h43
    obtain ⟨b, hb, hd⟩ := C45_ds hk rfl k2
    have dg : GoodRr ⟨[0x2e], 43, 1, 10800, some [.num ((words b + words b / 65536) % 65536), .num 13, .num 2, .bytes (E.H (0 :: b))]⟩ := by
      refine good_mk good_dot (by decide) (by decide) ⟨Nat.mod_lt _ (by decide), (by decide : 13 < 256), (by decide : 2 < 256), trivial, trivial⟩ ?_
      show 2 + (1 + (1 + ((E.H (0 :: b)).length + 0))) < 65536
      rw [hE.hash]
      decide
    obtain ⟨d, hdd⟩ : ∃ d : Rr, d = ⟨[0x2e], 43, 1, 10800, some [.num ((words b + words b / 65536) % 65536), .num 13, .num 2, .bytes (E.H (0 :: b))]⟩ := ⟨_, rfl⟩
    have dt : d.type = 43 := by rw [hdd]
    rw [← hdd] at hd dg
    obtain ⟨sg, g1, g2⟩ := signs_good hE (rs := [d]) (type := 43) (by decide) fun x hx _ => by rcases List.mem_singleton.1 hx with rfl; exact dg
    have g3 := g1.2.1
    have e : rootDs E = .ok [d] := by
      unfold rootDs
      rw [hd]
      simp only [Out.bind]
      have c1 : cloneRr d = .ok d := cloneRr_eq (GoodRr.whole dg)
      rw [c1]
    rw [if_pos rfl, e]
    simp only [Out.bind, g1.1]
    refine ⟨_, rfl, ⟨rfl, rfl, rfl, fun h => by omega, fun h => by omega, fun h => by omega, fun _ => ⟨rfl, rfl, d, sg, hd, dt, g1, rfl⟩, fun h => absurd (by simp) h⟩,
      answer_mk (by dsimp only; decide) rfl (by dsimp only [newMsg]; decide) ⟨by simp; omega, (goods_one dg).append g2⟩ none none (by simp [newMsg])⟩
  rw [if_neg h43]
  obtain ⟨ns, ns', n1, n2, n3, n4, n5⟩ := denies_eq hE (nsecs := [nsecOf dot typeMap]) (by simp) (goods_one (nsec_good good_dot (by decide))) (by simp [nsecOf])
  have e : signZsk E [rootNsec] 47 = .ok ns' := n1
  rw [e]
  simp only [Out.bind, n2]
  refine ⟨_, rfl, ⟨rfl, rfl, rfl, fun h => absurd h (by omega), fun h => absurd h h6, fun h => absurd h h48, fun h => absurd h h43, fun _ => ⟨rfl, rfl, typeMap, n3, by decide⟩⟩,
    answer_mk (by dsimp only; decide) rfl (by dsimp only [newMsg]; decide) none ⟨by dsimp only; omega, n4⟩ none (by simp [newMsg])⟩

end Verif.Ns
