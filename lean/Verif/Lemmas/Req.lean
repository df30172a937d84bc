import Verif.Lemmas.DnsDecode
import Verif.Lemmas.Label
import Verif.Lemmas.Tld
import Verif.Lemmas.Sig0
import Verif.Spec.Req
import Verif.Props.Dns
import Verif.Props.Sig0
/-
Requests and responses.
-/
namespace Verif.Req
open Verif.Bio Verif.DnsName Verif.Label Verif.Dns Verif.Tld Verif.Spec.DnsName Verif.Spec.Dns Verif.Spec.Req

theorem dirty_iff (s : Bytes) : dirty s = false ↔ Clean s := by
  have key : ∀ c : UInt8, (decide (c = 0x28) || decide (c = 0x29) || decide (c = 0x3b) || decide (c = 0x20) || decide (c = 0x40) || decide (c = 0x22) || decide (c = 0x5c) ||
      decide (c < 0x20) || decide (c > 0x7e)) = false ↔ (0x21 ≤ c.toNat ∧ c.toNat ≤ 0x7e ∧ c ∉ ([0x28, 0x29, 0x3b, 0x40, 0x22, 0x5c] : List UInt8)) := by
    have : ∀ i : Fin 256, (decide (UInt8.ofNat i = 0x28) || decide (UInt8.ofNat i = 0x29) || decide (UInt8.ofNat i = 0x3b) || decide (UInt8.ofNat i = 0x20) ||
      decide (UInt8.ofNat i = 0x40) || decide (UInt8.ofNat i = 0x22) || decide (UInt8.ofNat i = 0x5c) || decide (UInt8.ofNat i < 0x20) || decide (UInt8.ofNat i > 0x7e)) = false ↔
      (0x21 ≤ (UInt8.ofNat i).toNat ∧ (UInt8.ofNat i).toNat ≤ 0x7e ∧ (UInt8.ofNat i) ∉ ([0x28, 0x29, 0x3b, 0x40, 0x22, 0x5c] : List UInt8)) := by decide +kernel
    intro c
    have h := this ⟨c.toNat, c.toNat_lt⟩
    simpa only [UInt8.ofNat_toNat] using h
  unfold dirty Clean
  rw [List.any_eq_false]
  constructor
  · intro h c hc
    exact (key c).1 (by simpa using h c hc)
  · intro h c hc
    rw [(key c).2 (h c hc)]
    simp

theorem labelGet_last {ls : List Bytes} (h : OkName ls) : labelGet (text ls) (-1) = .ok (ls.getLast?.getD []) := by
  by_cases hn : ls = []
  · subst hn
    unfold labelGet
    rw [count_text h]
    rfl
  · have hp : 0 < ls.length := List.length_pos_iff.2 hn
    have hi : Verif.Label.index ls.length (-1) = (ls.length - 1 : Nat) := by unfold Verif.Label.index; rw [if_pos (by omega)]; omega
    rw [labelGet_text h (by omega), hi, Int.toNat_natCast, List.getLast?_eq_getElem?, List.getD_eq_getElem?_getD]

theorem maxSize_eq (e : Edns) : maxSize e = clientSize e := by
  unfold maxSize clientSize
  cases e.enabled with
  | false => simp
  | true =>
    simp only [true_and, if_true]
    split
    · split <;> omega
    · omega

theorem lowered_toNat (s : Bytes) : (lowered s).map UInt8.toNat = s.map Verif.Spec.Tld.fold := by
  unfold lowered
  rw [List.map_map]
  exact List.map_congr_left fun c _ => lower_toNat c

theorem toNat_inj {a b : Bytes} (h : a.map UInt8.toNat = b.map UInt8.toNat) : a = b := by
  induction a generalizing b with
  | nil => cases b with
    | nil => rfl
    | cons => simp at h
  | cons x a ih => cases b with
    | nil => simp at h
    | cons y b =>
      simp only [List.map_cons, List.cons.injEq] at h
      rw [UInt8.toNat.inj h.1, ih h.2]

theorem last_ok {ls : List Bytes} (h : OkName ls) : (ls.getLast?.getD []).length ≤ 63 := by
  cases hl : ls.getLast? with
  | none => simp
  | some l => exact (h.1 l (List.mem_of_getLast? hl)).2.1

theorem fromQuestion_eq {m : Msg} {q : Qs} {ls : List Bytes} (h : OkName ls) (hq : q.name = text ls) :
    fromQuestion m q = if Clean (ls.getLast?.getD []) then .ok ⟨m.id, ls.length, q.name, q.type, q.cls, m.flags.testBit 8, m.flags.testBit 4, m.flags.testBit 5,
      m.edns.enabled, clientSize m.edns, m.edns.flags.testBit 15, lowered (ls.getLast?.getD [])⟩ else .err () := by
  unfold fromQuestion
  rw [hq, labelGet_last h]
  have h1 := last_ok h
  have h2 := h.2
  simp only [Out.bind]
  rw [if_neg (by omega)]
  by_cases hc : Clean (ls.getLast?.getD [])
  · rw [if_neg (by rw [(dirty_iff _).2 hc]; simp), if_neg (by omega), if_pos hc, count_text h, maxSize_eq]
  · rw [if_pos (by rw [← Bool.not_eq_false]; exact fun hd => hc ((dirty_iff _).1 hd)), if_neg hc]

theorem create_ok {b : Bytes} {r : Req} : create b = .ok r ↔ ∃ m q ls, decode b = .ok m ∧ Query m q ls ∧ Asks m q ls r := by
  unfold create
  constructor
  · intro h
    obtain ⟨m, hm, h⟩ := Out.bind_eq_ok.1 h
    split at h
    · cases h
    · rename_i hc
      simp only [not_or, ne_eq, Decidable.not_not] at hc
      obtain ⟨h1, h2, h3, h4, h5⟩ := hc
      obtain ⟨q, hq⟩ := List.length_eq_one_iff.1 h3
      obtain ⟨ls, hok, hls⟩ := ((decode_ok hm).qd.2 q (by rw [hq]; simp)).name
      rw [hq] at h
      dsimp only at h
      rw [fromQuestion_eq hok hls] at h
      split at h
      · rename_i hclean
        refine ⟨m, q, ls, hm, ⟨h1, h2, hq, List.length_eq_zero_iff.1 h4, List.length_eq_zero_iff.1 h5, hls, hok, hclean⟩, ?_⟩
        rw [← Out.ok.inj h]
        exact ⟨rfl, rfl, rfl, rfl, rfl, rfl, rfl, rfl, rfl, rfl, rfl, lowered_toNat _⟩
      · cases h
  · rintro ⟨m, q, ls, hm, hq, ha⟩
    rw [hm]
    simp only [Out.bind]
    rw [if_neg (by simp [hq.opcode, hq.code, hq.qd, hq.an, hq.ns]), hq.qd]
    dsimp only
    rw [fromQuestion_eq hq.ok hq.name, if_pos hq.tld]
    congr 1
    have ht : r.tld = lowered (ls.getLast?.getD []) := toNat_inj (by rw [ha.tld, lowered_toNat])
    have := ha.id; have := ha.labels; have := ha.name; have := ha.type; have := ha.cls; have := ha.rd; have := ha.cd; have := ha.ad
    have := ha.edns; have := ha.maxSize; have := ha.dnssec
    cases r
    simp_all

theorem create_ne_ub (b : Bytes) : create b ≠ .ub := by
  unfold create
  refine Out.bind_ne_ub (decode_ne_ub b) fun m hm => ?_
  split
  · simp
  · rename_i hc
    simp only [not_or, ne_eq, Decidable.not_not] at hc
    obtain ⟨q, hq⟩ := List.length_eq_one_iff.1 hc.2.2.1
    obtain ⟨ls, hok, hls⟩ := ((decode_ok hm).qd.2 q (by rw [hq]; simp)).name
    rw [hq]
    dsimp only
    rw [fromQuestion_eq hok hls]
    split <;> simp

/-! ### Responses -/

/-- What is known of every request. -/
structure ReqOk (r : Req) : Prop where
  id : r.id < 65536
  type : r.type < 65536
  cls : r.cls < 65536
  size : 512 ≤ r.maxSize ∧ r.maxSize ≤ 4096
  name : ∃ ls, OkName ls ∧ r.name = text ls

theorem create_reqOk {b : Bytes} {r : Req} (h : create b = .ok r) : ReqOk r := by
  obtain ⟨m, q, ls, hm, hq, ha⟩ := create_ok.1 h
  have hr := decode_ok hm
  have hqs := hr.qd.2 q (by rw [hq.qd]; simp)
  refine ⟨by rw [ha.id]; exact hr.id, by rw [ha.type]; exact hqs.type, by rw [ha.cls]; exact hqs.cls, ?_, ls, hq.ok, by rw [ha.name, hq.name]⟩
  rw [ha.maxSize]
  unfold clientSize
  split <;> omega

theorem okName_root : OkName [] := ⟨by simp, by decide⟩

theorem setName_text {ls : List Bytes} (h : OkName ls) : setName (text ls) = .ok (if Clean (text ls) then text ls else [0x2e]) := by
  have h0 : 0 ∉ text ls := by
    unfold text
    split
    · decide
    · intro hm
      unfold body at hm
      obtain ⟨l, hl, hx⟩ := List.mem_flatten.1 hm
      obtain ⟨l', hl', rfl⟩ := List.mem_map.1 hl
      rcases List.mem_append.1 hx with hx | hx
      · exact (h.1 l' hl').2.2.1 hx
      · simp at hx
  have hlast : (text ls).getLast? = some 0x2e := by
    unfold text
    split
    · rfl
    · rename_i hn; exact getLast?_body hn
  obtain ⟨v, hv, hiff⟩ := Verif.Props.DnsName.C22_verify_partial (text ls) h0
  have hvt : v = true := hiff.2 (.inl ⟨ls, h, by rw [if_pos hlast]⟩)
  subst hvt
  unfold setName
  rw [hv]
  simp only [Out.bind, Bool.not_true, Bool.false_eq_true, if_false]
  have hlen := h.2
  by_cases hc : Clean (text ls)
  · rw [if_neg (by rw [(dirty_iff _).2 hc]; simp), if_pos (by unfold isFqdn; rw [hlast]; simp), if_neg (by omega), if_pos hc]
  · rw [if_pos (by rw [← Bool.not_eq_false]; exact fun hd => hc ((dirty_iff _).1 hd)), if_neg hc]

/-- The message with the flags it is sent with. -/
def norm (m : Msg) : Msg := { m with flags := wireFlags m }

theorem wireFlags_norm (m : Msg) : wireFlags (norm m) = wireFlags m := by
  show wireFlags m / 32768 * 32768 + m.opcode % 16 * 2048 + wireFlags m / 16 % 128 * 16 + m.code % 16 = wireFlags m
  unfold wireFlags
  omega

theorem encode_norm (m : Msg) : encode (norm m) = encode m := by
  have hh : header (norm m) = header m := by unfold header; rw [wireFlags_norm]; rfl
  have hw : ∀ d, wMsg d (norm m) = wMsg d m := by intro d; unfold wMsg; rw [hh]; rfl
  unfold encode msgSize
  simp only [hw]

theorem wireFlags_bit (m : Msg) (i : Nat) (hi : i ∈ [4, 5, 6, 7, 8, 9, 10, 15]) : (wireFlags m).testBit i = m.flags.testBit i := by
  unfold wireFlags
  simp only [List.mem_cons, List.not_mem_nil, or_false] at hi
  rcases hi with rfl | rfl | rfl | rfl | rfl | rfl | rfl | rfl <;> simp only [Nat.testBit_eq_decide_div_mod_eq, decide_eq_decide] <;> omega

theorem flags_lt {m : Msg} {r : Req} (h : m.flags < 65536) : flags m r < 65536 := by
  unfold flags
  have h16 : ∀ {a b : Nat}, a < 65536 → b < 65536 → a ||| b < 65536 := fun ha hb => Nat.or_lt_two_pow (n := 16) ha hb
  refine h16 (h16 (h16 h (by omega)) ?_) ?_ <;> split <;> omega

theorem flags_bit (m : Msg) (r : Req) (i : Nat) :
    (flags m r).testBit i = (m.flags.testBit i || decide (i = 15) || (r.rd && decide (i = 8)) || (r.cd && decide (i = 4))) := by
  unfold flags
  have h1 : (32768 : Nat).testBit i = decide (i = 15) := by
    rw [show (32768 : Nat) = 2 ^ 15 from rfl, Nat.testBit_two_pow]; congr 1; exact propext eq_comm
  have h2 : (256 : Nat).testBit i = decide (i = 8) := by
    rw [show (256 : Nat) = 2 ^ 8 from rfl, Nat.testBit_two_pow]; congr 1; exact propext eq_comm
  have h3 : (16 : Nat).testBit i = decide (i = 4) := by
    rw [show (16 : Nat) = 2 ^ 4 from rfl, Nat.testBit_two_pow]; congr 1; exact propext eq_comm
  rw [Nat.testBit_or, Nat.testBit_or, Nat.testBit_or, h1]
  cases r.rd <;> cases r.cd <;> simp [h2, h3]

theorem isDnssec_iff (t : Nat) : isDnssec t = true ↔ t ∈ dnssecTypes := by
  unfold isDnssec dnssecTypes
  simp [or_assoc]

theorem forClient_none {r : Req} {ra : Bool} (l : List Rr) (h : (!r.dnssec && (!ra || r.type != 255)) = false) : forClient r ra l = l := by
  unfold forClient
  rw [List.filter_eq_self]
  intro x _
  cases hd : r.dnssec
  · cases hr : ra
    · rw [hd, hr] at h; simp at h
    · rw [hd, hr] at h; simp at h; simp [h]
  · simp

theorem forClient_clean {r : Req} {ra : Bool} (l : List Rr) (h : (!r.dnssec && (!ra || r.type != 255)) = true) : forClient r ra l = cleanRrs r.type l := by
  unfold forClient cleanRrs
  refine List.filter_congr fun x _ => ?_
  have hd : r.dnssec = false := by cases hh : r.dnssec <;> simp [hh] at h ⊢
  have hra : (ra && decide (r.type = 255)) = false := by
    rw [hd] at h
    cases ra
    · rfl
    · simpa using h
  rw [hd, hra]
  have hx := isDnssec_iff x.type
  cases hi : isDnssec x.type with
  | true => rw [hi] at hx; simp [hx.1 rfl]; by_cases ht : x.type = r.type <;> simp [ht]
  | false => rw [hi] at hx; simp; right; intro hm; simpa using hx.2 hm

theorem forClient_mem {r : Req} {ra : Bool} {l : List Rr} {x : Rr} (h : x ∈ forClient r ra l) : x ∈ l := (List.mem_filter.1 h).1
theorem forClient_length {r : Req} {ra : Bool} (l : List Rr) : (forClient r ra l).length ≤ l.length := List.length_filter_le _ _

/-- The fields of a response. -/
theorem respond_eq (m : Msg) (r : Req) (q : Bytes) :
    respond m r q = ⟨r.id, m.opcode, m.code, flags m r, [⟨q, r.type, r.cls⟩], forClient r (m.flags.testBit 7) m.an, forClient r (m.flags.testBit 7) m.ns,
      forClient r (m.flags.testBit 7) m.ar, edns r⟩ := by
  have h7 : (flags m r).testBit 7 = m.flags.testBit 7 := by rw [flags_bit]; simp
  unfold respond
  dsimp only
  rw [h7]
  by_cases h : (!r.dnssec && (!m.flags.testBit 7 || r.type != 255)) = true
  · rw [if_pos h, clean, forClient_clean _ h, forClient_clean _ h, forClient_clean _ h]
  · rw [if_neg h]
    rw [Bool.not_eq_true] at h
    rw [forClient_none _ h, forClient_none _ h, forClient_none _ h]

theorem response_norm {m : Msg} {r : Req} (hm : Answer m) (hr : ReqOk r) :
    Response m r (norm (respond m r (if Clean r.name then r.name else [0x2e]))) ∧ GoodMsg (norm (respond m r (if Clean r.name then r.name else [0x2e]))) := by
  rw [respond_eq]
  have hbit : ∀ i, i ∈ [4, 5, 6, 7, 8, 9, 10, 15] → ∀ q, (norm ⟨r.id, m.opcode, m.code, flags m r, [⟨q, r.type, r.cls⟩], forClient r (m.flags.testBit 7) m.an,
      forClient r (m.flags.testBit 7) m.ns, forClient r (m.flags.testBit 7) m.ar, edns r⟩).flags.testBit i =
        (m.flags.testBit i || decide (i = 15) || (r.rd && decide (i = 8)) || (r.cd && decide (i = 4))) := by
    intro i hi q
    show (wireFlags _).testBit i = _
    rw [wireFlags_bit _ _ hi, flags_bit]
  refine ⟨⟨rfl, ?_, ?_, ?_, ?_, rfl, rfl, rfl, rfl, rfl, rfl, rfl⟩, ⟨hr.id, ?_, ?_, ?_, ?_, ?_, ?_, ?_, ?_⟩⟩
  · rw [hbit _ (by simp)]; simp
  · rw [hbit _ (by simp)]; simp
  · rw [hbit _ (by simp)]; simp
  · intro i hi
    have h1 : i ∈ [4, 5, 6, 7, 8, 9, 10, 15] := by
      simp only [List.mem_cons, List.not_mem_nil, or_false] at hi ⊢
      omega
    rw [hbit i h1]
    simp only [List.mem_cons, List.not_mem_nil, or_false] at hi
    rw [decide_eq_false (by omega : ¬ i = 15), decide_eq_false (by omega : ¬ i = 8), decide_eq_false (by omega : ¬ i = 4)]
    simp
  · have := flags_lt (r := r) hm.flags
    show wireFlags _ < 65536
    unfold wireFlags
    dsimp only
    omega
  · have := hm.opcode
    show wireFlags _ / 2048 % 16 = m.opcode
    unfold wireFlags
    dsimp only
    omega
  · show wireFlags _ % 16 = m.code % 16
    unfold wireFlags
    dsimp only
    omega
  · refine ⟨by simp [norm], ?_, by simp [norm]⟩
    intro q hq
    simp only [norm, List.take_succ_cons, List.take_zero, List.mem_singleton] at hq
    subst hq
    refine ⟨?_, hr.type, hr.cls⟩
    dsimp only
    split
    · exact hr.name
    · exact ⟨[], okName_root, rfl⟩
  · exact ⟨Nat.le_trans (forClient_length _) hm.an.1, fun x hx => hm.an.2 x (forClient_mem hx)⟩
  · exact ⟨Nat.le_trans (forClient_length _) hm.ns.1, fun x hx => hm.ns.2 x (forClient_mem hx)⟩
  · exact ⟨Nat.le_trans (forClient_length _) hm.ar.1, fun x hx => hm.ar.2 x (forClient_mem hx)⟩
  · have hc := hm.code
    show if (edns r).enabled then _ else _
    unfold norm edns
    cases r.edns with
    | true =>
      simp only [if_true]
      refine ⟨by omega, ?_, by omega, by omega, by simp, by omega⟩
      split <;> omega
    | false => exact ⟨rfl, hc⟩

/-- What is truncated to a limit that holds the question. -/
theorem truncate_sent {n : Msg} (h : GoodMsg n) {q : Qs} (hq : n.qd = [q]) {b : Bytes} (hb : encode n = .ok b) {limit : Nat} (hl : 272 ≤ limit) :
    ∃ w s, truncate b limit = .ok w ∧ encode s = .ok w ∧ GoodMsg s ∧ decode w = .ok s ∧ w.length ≤ limit ∧ Sent n limit s := by
  by_cases hf : b.length ≤ limit
  · obtain ⟨b2, e1, e2⟩ := decode_encode h
    rw [hb] at e1
    rw [← Out.ok.inj e1] at e2
    have h12 : 12 ≤ b.length := by
      obtain ⟨x, f1, -⟩ := encode_items h
      rw [hb] at f1
      rw [Out.ok.inj f1, List.length_append, header_length]
      omega
    exact ⟨b, n, Verif.Props.Dns.C26_unchanged b limit h12 hf, hb, h, e2, hf, .inl rfl⟩
  · obtain ⟨k, w, h1, h2, h3, h4, h5, h6⟩ := Verif.Props.Dns.C26_message n h b hb limit (by omega) (by omega)
    refine ⟨w, _, h2, h3, goodMsg_first h k, h4, h5, .inr ⟨k, ?_, h1, rfl, fun b' hb' => ?_, h6⟩⟩
    · obtain ⟨w', m', g1, g2, -, -, g3⟩ := Verif.Props.Dns.C26_question n h q hq b hb limit hl
      rw [h2] at g1
      rw [← Out.ok.inj g1, h4] at g2
      rw [← Out.ok.inj g2] at g3
      refine Nat.one_le_iff_ne_zero.2 fun hk => ?_
      subst hk
      simp [firstRecords] at g3
    · rw [hb] at hb'
      rw [← Out.ok.inj hb']
      omega

theorem finalize_none {H : Bytes → Bytes} {now : Int} {m : Msg} {r : Req} (hm : Answer m) (hr : ReqOk r) :
    ∃ n b w s, Response m r n ∧ encode n = .ok b ∧ finalize H none now m r = .ok w ∧ decode w = .ok s ∧ w.length ≤ r.maxSize ∧ Sent n r.maxSize s := by
  obtain ⟨h1, h2⟩ := response_norm hm hr
  obtain ⟨b, hb, -⟩ := decode_encode h2
  obtain ⟨w, s, e1, -, -, e2, e3, e4⟩ := truncate_sent h2 h1.qd hb (limit := r.maxSize) (by have := hr.size; omega)
  refine ⟨_, b, w, s, h1, hb, ?_, e2, e3, e4⟩
  obtain ⟨ls, hok, hls⟩ := hr.name
  rw [encode_norm] at hb
  unfold finalize
  rw [hls, setName_text hok]
  simp only [Out.bind]
  rw [← hls, hb]
  simp only [limit, Option.isSome_none, Bool.false_eq_true, if_false]
  rw [e1]

/-! ### Signed responses -/

open Verif.Spec.Sig0

/-- The SIG(0) record as it is read. -/
def sigRr (x : Rec) : Rr := ⟨[0x2e], 24, 255, 0, some [.bytes (x.fields ++ x.sig)]⟩

theorem read_sigRr {x : Rec} (h : x.WF) (msg : Option Bytes) : readRr msg x.bytes = .ok (sigRr x, []) := by
  have hp : parse msg ([0] ++ (beBytes 2 24 ++ (beBytes 2 255 ++ (beBytes 4 0 ++ (beBytes 2 83 ++ (x.fields ++ x.sig)))))) =
      .ok ([0x2e], beBytes 2 24 ++ (beBytes 2 255 ++ (beBytes 4 0 ++ (beBytes 2 83 ++ (x.fields ++ x.sig))))) := parse_wire msg okName_root _
  have hl : (x.fields ++ x.sig).length = 83 := by rw [List.length_append, Verif.Sig0.fields_length, h.sig]
  have e : x.bytes = [0] ++ (beBytes 2 24 ++ (beBytes 2 255 ++ (beBytes 4 0 ++ (beBytes 2 83 ++ (x.fields ++ x.sig))))) := by
    simp only [Rec.bytes, List.append_assoc]
  rw [e]
  unfold readRr
  rw [hp]
  simp only [Out.bind]
  rw [readU16be_append (by omega)]
  simp only
  rw [readU16be_append (by omega)]
  simp only
  rw [readU32be_append (by omega)]
  simp only
  rw [readU16be_append (by omega)]
  simp only
  rw [if_neg (by omega), memSlice_ok (by omega)]
  simp only [List.drop_zero]
  rw [List.take_of_length_le (by omega), List.drop_of_length_le (by omega)]
  have : readRd msg 24 (x.fields ++ x.sig) = .ok ([.bytes (x.fields ++ x.sig)], []) := by
    unfold readRd
    rw [show readLayout 24 = [.rest] from rfl]
    simp only [readFields, readField]
    rw [readBytes_eq_ok.2 ⟨(List.append_nil _).symm, rfl⟩]
    rfl
  rw [this]
  rfl

/-- A message with a SIG(0) record added is read with this record at the end. -/
theorem decode_signed {s : Msg} (hg : GoodMsg s) {w : Bytes} (hw : encode s = .ok w) {p : Parts} (hp : p.WF) (hb : w = p.bytes) {x : Rec} (hx : x.WF) :
    p.arcount < 300 ∧ decode (withRecord p x) = .ok { s with ar := push s.ar (sigRr x) } := by
  obtain ⟨y, e1, e2⟩ := encode_items hg
  rw [hw] at e1
  have e1 := Out.ok.inj e1
  obtain ⟨x1, x2, t2, hxx, -, hn, hr⟩ := e2 (items s) [] (by simp)
  rw [hn rfl, List.append_nil] at hxx
  subst hxx
  have hcount : (s.ar ++ (optRr s).toList).length < 300 := by
    rw [List.length_append, optRr_length hg]; have := hg.ar.1; split <;> omega
  have key : p.head = writeU16be s.id ++ writeU16be s.flags ++ writeU16be s.qd.length ++ writeU16be s.an.length ++ writeU16be s.ns.length ∧
      p.arcount = (s.ar ++ (optRr s).toList).length ∧ p.body = y := by
    rw [hb, header_good hg] at e1
    simp only [Parts.bytes, head6] at e1
    obtain ⟨f1, f2⟩ := List.append_inj e1 (by simp [hp.head, be_length])
    obtain ⟨f3, f4⟩ := List.append_inj f1 (by simp [hp.head, be_length])
    refine ⟨f3, ?_, f2⟩
    have := congrArg beNat f4
    rw [beNat_beBytes_of_lt (by have := hp.arcount; omega)] at this
    rw [this]
    exact beNat_beBytes_of_lt (by omega)
  obtain ⟨k1, k2, k3⟩ := key
  refine ⟨by omega, ?_⟩
  have hwr : withRecord p x = head6 s.id s.flags s.qd.length s.an.length s.ns.length (s.ar ++ (optRr s).toList ++ [sigRr x]).length ++ (y ++ x.bytes) := by
    rw [withRecord, k1, k2, k3, head6, List.length_append (bs := [sigRr x])]
    simp only [List.append_assoc, List.length_singleton]
    rfl
  rw [hwr]
  have hi : items s = s.qd.map .inl ++ (s.an.map .inr ++ (s.ns.map .inr ++ (s.ar ++ (optRr s).toList).map .inr)) := by
    simp [items]
  have hh : (head6 s.id s.flags s.qd.length s.an.length s.ns.length (s.ar ++ (optRr s).toList ++ [sigRr x]).length).length = 12 := by
    simp only [head6, List.length_append, be_length]
  have hr := hr _ hh x.bytes x.bytes List.prefix_rfl
  rw [List.append_assoc] at hr
  have hr2 : Reads (some (head6 s.id s.flags s.qd.length s.an.length s.ns.length (s.ar ++ (optRr s).toList ++ [sigRr x]).length ++ (y ++ x.bytes)))
      (s.qd.map .inl ++ (s.an.map .inr ++ (s.ns.map .inr ++ (s.ar ++ (optRr s).toList ++ [sigRr x]).map .inr))) (y ++ x.bytes) [] := by
    have := hr.append (b := [.inr (sigRr x)]) (.cons (read_sigRr hx _) .nil)
    rw [hi] at this
    simpa using this
  rw [decode_of_reads hg.id hg.flags hg.qd.1 hg.an.1 hg.ns.1 (by rw [List.length_append, List.length_singleton]; omega) hr2, List.foldl_append, extra_good hg, hg.opcode]
  rfl

theorem finalize_signed {H : Bytes → Bytes} {signer : Bytes → Option Bytes} (hs : ∀ h s, signer h = some s → s.length = 64) {now : Int} {m : Msg} {r : Req}
    (hm : Answer m) (hr : ReqOk r) :
    ∃ n w s, Response m r n ∧ decode w = .ok s ∧ w.length + 94 ≤ r.maxSize ∧ Sent n (r.maxSize - 94) s ∧
      ((∀ p x, ¬ IsSigned w p x) → ∃ p, w = p.bytes ∧ p.WF ∧ p.arcount < 300 ∧
        finalize H (some signer) now m r = match signer (H (signedData p (recordAt now []))) with
          | none => .err ()
          | some sig => .ok (withRecord p (recordAt now sig))) ∧
      (∀ p x, w = p.bytes → p.WF → x.WF → decode (withRecord p x) = .ok { s with ar := push s.ar (sigRr x) }) ∧
      finalize H (some signer) now m r = (Sig0.sign H signer now w).bind fun o => match o with | none => .err () | some w => .ok w := by
  obtain ⟨h1, h2⟩ := response_norm hm hr
  obtain ⟨b, hb, -⟩ := decode_encode h2
  have hsz := hr.size
  obtain ⟨w, s, e1, e0, eg, e2, e3, e4⟩ := truncate_sent h2 h1.qd hb (limit := r.maxSize - 94) (by omega)
  have hfin : finalize H (some signer) now m r = (Sig0.sign H signer now w).bind fun o => match o with | none => .err () | some w => .ok w := by
    obtain ⟨ls, hok, hls⟩ := hr.name
    rw [encode_norm] at hb
    have hlim : limit true r = r.maxSize - 94 := by
      unfold limit
      rw [if_pos rfl]
      omega
    unfold finalize
    rw [hls, setName_text hok]
    simp only [Out.bind]
    rw [← hls, hb]
    simp only [Option.isSome_some, hlim]
    rw [e1]
    rfl
  have h12 : 12 ≤ w.length := by
    obtain ⟨x, f1, -⟩ := encode_items eg
    rw [e0] at f1
    rw [Out.ok.inj f1, List.length_append, header_length]
    omega
  refine ⟨_, w, s, h1, e2, by omega, e4, ?_, fun p x hb hp hx => (decode_signed eg e0 hp hb hx).2, hfin⟩
  intro hno
  obtain ⟨p, hp, hpb⟩ := Verif.Sig0.parts w h12
  have hc := (decode_signed eg e0 hp hpb (Verif.Sig0.recordAt_wf now (sig := List.replicate 64 0) (by simp))).1
  refine ⟨p, hpb, hp, hc, ?_⟩
  rw [hfin, Verif.Props.Sig0.C43_sign H signer hs now w p (.unsigned hp hpb hno), if_neg (by omega)]
  cases signer (H (signedData p (recordAt now []))) <;> rfl

end Verif.Req
