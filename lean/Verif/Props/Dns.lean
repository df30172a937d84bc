import Verif.Lemmas.DnsDecode
import Verif.Lemmas.Eval
/-
C24, C25, C26: DNS messages.
-/
namespace Verif.Props.Dns
open Verif.Bio Verif.DnsName Verif.Dns Verif.Spec.DnsName Verif.Spec.Dns

/-! ### C24: encoding and decoding -/

/-- C24: a well-formed message is encoded, and decoding gives it back. Missing: names of more
than ten labels, except that of the first question (`C24_labels_false`); codes above 15 without EDNS are lost (`C24_code_false`). -/
theorem C24_round_trip_partial (m : Msg) (h : GoodMsg m) : ∃ b, encode m = .ok b ∧ decode b = .ok m := decode_encode h

/-- C24: no packet leads the decoder out of its bounds or to a failed assertion, nor does a
record alone. -/
theorem C24_safe (b : Bytes) : decode b ≠ .ub ∧ decodeRr b ≠ .ub := ⟨decode_ne_ub b, decodeRr_ne_ub b⟩

/-- C24: whatever is decoded has names that are valid, values that fit their fields, and at most
255 records in a section. -/
theorem C24_decoded (b : Bytes) (m : Msg) (h : decode b = .ok m) : ReadMsg m := decode_ok h

/-- A name of one letter per label. -/
def letters (s : List Nat) : Bytes := (s.map fun j => [UInt8.ofNat (97 + j), 0x2e]).flatten

/-- "a.", "b.a.", "c.b.a." and so on. -/
def nestedQs (k : Nat) : List Qs := (List.range k).map fun i => ⟨letters (List.range (i + 1)).reverse, 1, 1⟩

/-- C24 without the bound on labels is false: what is written for twelve nested names is refused. -/
theorem C24_labels_false : ∃ m b, (∀ q ∈ m.qd, ∃ ls, OkName ls ∧ q.name = text ls) ∧ encode m = .ok b ∧ decode b = .err () := by
  obtain ⟨b, h1, h2⟩ := okWith_spec (r := encode ⟨1, 0, 0, 0, nestedQs 12, [], [], [], ednsInit⟩) (p := fun b => decide (decode b = .err ())) (by decide +kernel)
  refine ⟨⟨1, 0, 0, 0, nestedQs 12, [], [], [], ednsInit⟩, b, ?_, h1, of_decide_eq_true h2⟩
  · intro q hq
    simp only [nestedQs, List.mem_map, List.mem_range] at hq
    obtain ⟨i, hi, rfl⟩ := hq
    refine ⟨(List.range (i + 1)).reverse.map fun j => [UInt8.ofNat (97 + j)], ?_⟩
    have key : ∀ i, i < 12 → (∀ l ∈ (List.range (i + 1)).reverse.map fun j => [UInt8.ofNat (97 + j)], OkLabel l) ∧
        (text ((List.range (i + 1)).reverse.map fun j => [UInt8.ofNat (97 + j)])).length ≤ 255 ∧
        letters (List.range (i + 1)).reverse = text ((List.range (i + 1)).reverse.map fun j => [UInt8.ofNat (97 + j)]) := by
      simp only [OkLabel]
      decide +kernel
    exact ⟨⟨(key i hi).1, (key i hi).2.1⟩, (key i hi).2.2⟩

/-- A code above 15 with EDNS off puts a record at the end that the header does not count, and
is read back without its high bits. -/
theorem C24_code_false : ∃ m b, m.code = 23 ∧ encode m = .ok b ∧ ∃ m', decode b = .ok m' ∧ m'.code = 7 ∧ m'.edns.enabled = false := by
  obtain ⟨b, h1, h2⟩ := okWith_spec (r := encode ⟨1, 0, 23, 0, [], [], [], [], ednsInit⟩)
    (p := fun b => okWith (fun (m' : Msg) => decide (m'.code = 7 ∧ m'.edns.enabled = false)) (decode b)) (by decide +kernel)
  obtain ⟨m', h3, h4⟩ := okWith_spec h2
  exact ⟨_, b, rfl, h1, m', h3, of_decide_eq_true h4⟩

/-! ### C25: the dry run -/

theorem sane_field {s : Bytes} (h : FieldName s) : Sane s := by
  obtain ⟨h1, h2 | h2⟩ := h
  · exact ⟨h1, .inl h2⟩
  · subst h2; exact sane_root

theorem hasKinds_field {fs : List Field} {vs : List Val} (h : FieldVals fs vs) : HasKinds fs vs := by
  induction fs generalizing vs with
  | nil => cases vs with
    | nil => trivial
    | cons v vs => exact h
  | cons f fs ih => cases vs with
    | nil => exact h
    | cons v vs =>
      refine ⟨?_, ih h.2⟩
      have h1 := h.1
      cases f <;> cases v <;> first | exact h1 | exact sane_field h1

theorem saneRr_field {r : Rr} (h : FieldName r.name ∧ ∀ vs, r.rd = some vs → FieldVals (writeLayout r.type) vs) : SaneRr r :=
  ⟨sane_field h.1, fun vs hv => hasKinds_field (h.2 vs hv)⟩

theorem saneMsg_held {m : Msg} (h : HeldMsg m) : SaneMsg m :=
  ⟨fun q hq => sane_field (h.qd q hq), fun r hr => saneRr_field (h.an r hr), fun r hr => saneRr_field (h.ns r hr), fun r hr => saneRr_field (h.ar r hr)⟩

/-- C25: into a buffer of the size the dry run gives, or more, at any place, any message can be
written: no byte falls outside, no more than the size is written, and exactly that many if names
are not compressed. Missing: names that begin with a dot and are refused (`C25_dot_false`). -/
theorem C25_message_partial (m : Msg) (h : HeldMsg m) : ∃ n, msgSize m = .ok n ∧
    (∃ b, encode m = .ok b ∧ b.length ≤ n) ∧
    ∀ cap cmp, n ≤ cap → ∃ b t, wMsg (some ⟨cap, cmp⟩) m 0 [] = .ok (b.length, b, t) ∧ b.length ≤ n ∧ (cmp = false → b.length = n) := by
  obtain ⟨f1, f2⟩ := fits_msg (saneMsg_held h)
  have hs := f1 0 []
  dsimp only at hs
  have hm : msgSize m = .ok (Verif.Dns.sizeOf m) := by unfold msgSize; rw [hs]; rfl
  refine ⟨Verif.Dns.sizeOf m, hm, ?_, ?_⟩
  · obtain ⟨x, t2, e1, e2, -⟩ := f2 (Verif.Dns.sizeOf m) true 0 [] (by omega)
    refine ⟨x, ?_, e2⟩
    dsimp only at e1
    unfold encode
    rw [hm]
    simp only [Out.bind]
    rw [e1]
    dsimp only
    rw [memSlice_ok (by simp)]
    simp
  · intro cap cmp hc
    exact f2 cap cmp 0 [] (by omega)

/-- C25: a record alone, as for signing: exactly the size of the dry run. Missing: as above. -/
theorem C25_record_partial (r : Rr) (h1 : FieldName r.name) (h2 : ∀ vs, r.rd = some vs → FieldVals (writeLayout r.type) vs) :
    ∃ n t b, wRr none r 0 [] = .ok (n, [], t) ∧ encodeRr r = .ok b ∧ b.length = n := by
  obtain ⟨f1, f2⟩ := fits_rr (saneRr_field ⟨h1, h2⟩)
  have hs := f1 0 []
  dsimp only at hs
  obtain ⟨x, t2, e1, -, e3⟩ := f2 (rrSize r) false 0 [] (by omega)
  have hx := e3 rfl
  dsimp only at e1
  refine ⟨rrSize r, [], x, hs, ?_, hx⟩
  unfold encodeRr
  rw [hs]
  simp only [Out.bind]
  rw [e1]
  dsimp only
  rw [memSlice_ok (by omega)]
  simp [← hx]

/-- C25 for a name that begins with a dot is false: ".." twice does not fit the size of
the dry run, and the byte behind the buffer is written. -/
theorem C25_dot_false : ∃ m, (∀ q ∈ m.qd, q.name.length ≤ 255) ∧ (∃ n, msgSize m = .ok n) ∧ encode m = .ub := by
  refine ⟨⟨1, 0, 0, 0, [⟨[0x2e, 0x2e], 1, 1⟩, ⟨[0x2e, 0x2e], 1, 1⟩], [], [], [], ednsInit⟩, by decide, ⟨22, by decide +kernel⟩, by decide +kernel⟩

/-! ### C26: truncation -/

/-- C26: no packet, however malformed, leads truncation out of its bounds; the result is within
the limit, or the packet already was and is unchanged. -/
theorem C26_safe (msg : Bytes) (max : Nat) : truncate msg max ≠ .ub := by
  by_cases h1 : msg.length < 12
  · unfold truncate; rw [if_pos h1]; simp
  by_cases h2 : max < 12
  · unfold truncate; rw [if_neg h1, if_pos h2]; simp
  by_cases h3 : msg.length ≤ max
  · unfold truncate; rw [if_neg h1, if_neg h2, if_pos h3]; simp
  obtain ⟨n0, n1, n2, n3, -, -, -, -, -, ht⟩ := truncate_eq (by omega) (by omega) (Nat.lt_of_not_le h3)
  rw [ht]
  refine Out.bind_ne_ub (truncStep_ne_ub _ _ _ _ _ _) fun a _ => ?_
  refine Out.bind_ne_ub (truncStep_ne_ub _ _ _ _ _ _) fun b _ => ?_
  refine Out.bind_ne_ub (truncStep_ne_ub _ _ _ _ _ _) fun c _ => ?_
  refine Out.bind_ne_ub (truncStep_ne_ub _ _ _ _ _ _) fun d _ => ?_
  simp

theorem C26_unchanged (msg : Bytes) (max : Nat) (h : 12 ≤ msg.length) (hl : msg.length ≤ max) : truncate msg max = .ok msg := by
  unfold truncate
  rw [if_neg (by omega), if_neg (by omega), if_pos hl]

/-- The four counts of a header. -/
def counts (a b c d : Nat) : Bytes := writeU16be a ++ writeU16be b ++ writeU16be c ++ writeU16be d

/-- C26, for any packet longer than the limit: the result is the packet with other counts, cut
off behind whole records. These are the first of the packet: no section is shortened unless the
next record goes over the limit, and then all later sections are empty. -/
theorem C26_packet (msg : Bytes) (max : Nat) (b : Bytes) (hl : max < msg.length) (h : truncate msg max = .ok b) :
    ∃ n0 n1 n2 n3 c0 c1 c2 c3 e,
      msg = msg.take 4 ++ counts n0 n1 n2 n3 ++ msg.drop 12 ∧
      b = msg.take 4 ++ counts c0 c1 c2 c3 ++ (msg.drop 12).take (e - 12) ∧ b.length = e ∧ e ≤ max ∧
      Row msg (List.replicate c0 true ++ List.replicate (c1 + c2 + c3) false) 12 e ∧
      c0 ≤ n0 ∧ c1 ≤ n1 ∧ c2 ≤ n2 ∧ c3 ≤ n3 ∧
      (c0 < n0 → c1 + c2 + c3 = 0) ∧ (c1 < n1 → c2 + c3 = 0) ∧ (c2 < n2 → c3 = 0) ∧
      ((c0 = n0 ∧ c1 = n1 ∧ c2 = n2 ∧ c3 = n3) ∨ ∃ e', Stands msg (decide (c0 < n0)) e e' ∧ max < e') := by
  have h12 : 12 ≤ msg.length ∧ 12 ≤ max := by
    unfold truncate at h
    split at h
    · cases h
    · split at h
      · cases h
      · omega
  obtain ⟨n0, n1, n2, n3, hn, l0, l1, l2, l3, ht⟩ := truncate_eq h12.1 h12.2 hl
  rw [ht] at h
  obtain ⟨a, ha, h⟩ := Out.bind_eq_ok.1 h
  obtain ⟨b', hb, h⟩ := Out.bind_eq_ok.1 h
  obtain ⟨c, hc, h⟩ := Out.bind_eq_ok.1 h
  obtain ⟨d, hd, h⟩ := Out.bind_eq_ok.1 h
  have hs : msg.length - (msg.drop 12).length ≤ max := by rw [List.length_drop]; omega
  obtain ⟨hcut, hsk, hfit, hnext⟩ := steps_spec hs ha hb hc hd
  have hrep : List.replicate b'.1 false ++ (List.replicate c.1 false ++ List.replicate d.1 false) = List.replicate (b'.1 + c.1 + d.1) false := by
    rw [List.replicate_append_replicate, List.replicate_append_replicate, Nat.add_assoc]
  rw [hrep] at hsk
  obtain ⟨e, he1, he2, he3⟩ := hsk.row h12.1
  have h12e : 12 ≤ e := by
    have := hsk.le
    rw [he3, List.length_drop, List.length_drop] at this
    omega
  have hlast : msg.length - d.2.1.length = e := by rw [he3, List.length_drop]; omega
  have hbeq : b = msg.take 4 ++ counts a.1 b'.1 c.1 d.1 ++ (msg.drop 12).take (e - 12) := by
    rw [← Out.ok.inj h, hlast]
    have h4 : (msg.take 4 ++ counts a.1 b'.1 c.1 d.1).length = 12 := by
      simp only [counts, List.length_append, be_length, List.length_take]
      omega
    have e1 : msg.take 4 ++ writeU16be a.1 ++ writeU16be b'.1 ++ writeU16be c.1 ++ writeU16be d.1 ++ msg.drop 12 = (msg.take 4 ++ counts a.1 b'.1 c.1 d.1) ++ msg.drop 12 := by
      simp [counts]
    rw [e1, List.take_append, h4, List.take_of_length_le (by omega)]
  refine ⟨n0, n1, n2, n3, a.1, b'.1, c.1, d.1, e, by rw [counts]; simpa using hn, hbeq, ?_, by omega, he1, ?_⟩
  · rw [hbeq]
    simp only [counts, List.length_append, be_length, List.length_take, List.length_drop]
    omega
  simp only [Cut] at hcut
  refine ⟨hcut.1, hcut.2.1, hcut.2.2.1, hcut.2.2.2.1, by omega, by omega, by omega, ?_⟩
  rcases hnext with hf | ⟨data, r1, r2⟩
  · exact .inl hf
  · rw [he3] at r1
    obtain ⟨e', q1, rfl⟩ := skip_stands.1 r1
    have := q1.le
    rw [List.length_drop] at r2
    exact .inr ⟨e', q1, by omega⟩

/-- C26: truncation of an encoded message gives the encoding of the same message with its first
`k` questions and records only, for the greatest `k` for which it is within the limit; so it is
decoded to that message. EDNS data, which comes last, is lost whenever anything is. -/
theorem C26_message (m : Msg) (h : GoodMsg m) (b : Bytes) (hb : encode m = .ok b) (max : Nat) (hm : 12 ≤ max) (hl : max < b.length) :
    ∃ k b', k ≤ records m ∧ truncate b max = .ok b' ∧ encode (firstRecords m k) = .ok b' ∧ decode b' = .ok (firstRecords m k) ∧ b'.length ≤ max ∧
      ∀ k', k < k' → k' ≤ records m → ∀ b'', encode (firstRecords m k') = .ok b'' → max < b''.length := by
  obtain ⟨k, b', h1, h2, h3, h4, h5⟩ := truncate_good h hb hm hl
  obtain ⟨b2, e1, e2⟩ := decode_encode (goodMsg_first h k)
  rw [h3] at e1
  rw [← Out.ok.inj e1] at e2
  exact ⟨k, b', h1, h2, h3, e2, h4, h5⟩

/-- C26: with a limit of 272 bytes or more, the question of a response to one question stays. -/
theorem C26_question (m : Msg) (h : GoodMsg m) (q : Qs) (hq : m.qd = [q]) (b : Bytes) (hb : encode m = .ok b) (max : Nat) (hm : 272 ≤ max) :
    ∃ b' m', truncate b max = .ok b' ∧ decode b' = .ok m' ∧ m'.id = m.id ∧ m'.flags = m.flags ∧ m'.qd = [q] := by
  by_cases hl : b.length ≤ max
  · obtain ⟨b2, e1, e2⟩ := decode_encode h
    rw [hb] at e1
    rw [← Out.ok.inj e1] at e2
    have h12 : 12 ≤ b.length := by
      obtain ⟨x, f1, -⟩ := encode_items h
      rw [hb] at f1
      rw [Out.ok.inj f1, List.length_append, header_length]
      omega
    exact ⟨b, m, C26_unchanged b max h12 hl, e2, rfl, rfl, hq⟩
  · obtain ⟨k, b', h1, h2, h3, h4, h5, h6⟩ := C26_message m h b hb max (by omega) (by omega)
    refine ⟨b', _, h2, h4, rfl, rfl, ?_⟩
    have hk : 1 ≤ k := by
      refine Nat.one_le_iff_ne_zero.2 fun hk => ?_
      subst hk
      have hr : 1 ≤ records m := by unfold records; rw [hq]; simp; omega
      obtain ⟨b1, e1, -⟩ := decode_encode (goodMsg_first h 1)
      have hgt := h6 1 (by omega) hr b1 e1
      obtain ⟨f1, f2⟩ := fits_msg (saneMsg_good (goodMsg_first h 1))
      have hs := f1 0 []
      dsimp only at hs
      obtain ⟨y, t2, g1, g2, -⟩ := f2 (Verif.Dns.sizeOf (firstRecords m 1)) true 0 [] (by omega)
      dsimp only at g1
      have : b1 = y := by
        unfold encode msgSize at e1
        rw [hs] at e1
        simp only [Out.bind] at e1
        rw [g1] at e1
        dsimp only at e1
        rw [memSlice_ok (by simp)] at e1
        simpa using (Out.ok.inj e1).symm
      subst this
      have hsz : Verif.Dns.sizeOf (firstRecords m 1) = 12 + (drySize q.name + 4) := by
        rw [sizeOf_items, items_first h hr]
        simp [items, hq, itemSize, qsSize]
      obtain ⟨ls, hok, hn⟩ := (h.qd.2.1 q (by rw [hq]; simp)).name
      rw [hsz, hn, drySize_text hok, wire_length] at g2
      have := body_length_of_text hok.2
      omega
    simp only [firstRecords, hq]
    rw [List.take_of_length_le (by simpa using hk)]

/-! ### A concrete message -/

/-- "ns1.nb." and "nb." -/
def exName : Bytes := [0x6e, 0x73, 0x31, 0x2e, 0x6e, 0x62, 0x2e]
def exZone : Bytes := [0x6e, 0x62, 0x2e]

def exMsg : Msg := ⟨4660, 0, 0, 33792, [⟨exZone, 2, 1⟩], [⟨exZone, 2, 1, 3600, some [.name exName]⟩, ⟨exZone, 16, 1, 60, some [.txts [[1, 2], []]]⟩],
  [⟨exZone, 6, 1, 3600, some [.name exName, .name exZone, .num 1, .num 2, .num 3, .num 4, .num 5]⟩],
  [⟨exName, 1, 1, 3600, some [.bytes [127, 0, 0, 1]]⟩, ⟨exZone, 43, 1, 3600, some [.num 7, .num 8, .num 2, .bytes [9, 9]]⟩], ⟨true, 0, 32768, 4096, 0, []⟩⟩

theorem good_exZone : GoodName exZone := ⟨[[0x6e, 0x62]], by simp only [OkName, OkLabel]; decide, by decide, rfl⟩
theorem good_exName : GoodName exName := ⟨[[0x6e, 0x73, 0x31], [0x6e, 0x62]], by simp only [OkName, OkLabel]; decide, by decide, rfl⟩

theorem num {n : Nat} (h : n < 4294967296) : GoodVal .u32 (.num n) := h
theorem num16 {n : Nat} (h : n < 65536) : GoodVal .u16 (.num n) := h
theorem num8 {n : Nat} (h : n < 256) : GoodVal .u8 (.num n) := h

theorem exGood : GoodMsg exMsg := by
  refine ⟨by decide, by decide, by decide, by decide, ⟨by decide, ?_⟩, ⟨by decide, ?_⟩, ⟨by decide, ?_⟩, ⟨by decide, ?_⟩, by decide⟩
  · simp only [exMsg, List.take_succ_cons, List.take_zero, List.mem_singleton, forall_eq]
    exact ⟨⟨⟨_, good_exZone.choose_spec.1, good_exZone.choose_spec.2.2⟩, by decide, by decide⟩, by simp⟩
  · simp only [exMsg, List.mem_cons, List.not_mem_nil, or_false, forall_eq_or_imp, forall_eq]
    refine ⟨⟨good_exZone, by decide, by decide, by decide, ⟨_, rfl, ⟨good_exName, trivial⟩, by decide⟩⟩,
      ⟨good_exZone, by decide, by decide, by decide, ⟨_, rfl, ⟨⟨by decide, by decide⟩, trivial⟩, by decide⟩⟩⟩
  · simp only [exMsg, List.mem_singleton, forall_eq]
    exact ⟨good_exZone, by decide, by decide, by decide, ⟨_, rfl, ⟨good_exName, good_exZone, num (by decide), num (by decide), num (by decide), num (by decide), num (by decide), trivial⟩, by decide⟩⟩
  · simp only [exMsg, List.mem_cons, List.not_mem_nil, or_false, forall_eq_or_imp, forall_eq]
    refine ⟨⟨⟨good_exName, by decide, by decide, by decide, ⟨_, rfl, ⟨rfl, trivial⟩, by decide⟩⟩, by decide⟩,
      ⟨⟨good_exZone, by decide, by decide, by decide, ⟨_, rfl, ⟨num16 (by decide), num8 (by decide), num8 (by decide), trivial, trivial⟩, by decide⟩⟩, by decide⟩⟩

example : ∃ b, encode exMsg = .ok b ∧ decode b = .ok exMsg := C24_round_trip_partial _ exGood

theorem exHeld : HeldMsg exMsg := by
  have z : FieldName exZone := ⟨by decide, .inl (by decide)⟩
  have n : FieldName exName := ⟨by decide, .inl (by decide)⟩
  refine ⟨?_, ?_, ?_, ?_⟩
  · simp only [exMsg, List.mem_singleton, forall_eq]; exact z
  · simp only [exMsg, List.mem_cons, List.not_mem_nil, or_false, forall_eq_or_imp, forall_eq, Option.some.injEq, forall_eq']
    exact ⟨⟨z, n, trivial⟩, z, ⟨by decide, by decide⟩, trivial⟩
  · simp only [exMsg, List.mem_singleton, forall_eq, Option.some.injEq, forall_eq']
    exact ⟨z, n, z, num (by decide), num (by decide), num (by decide), num (by decide), num (by decide), trivial⟩
  · simp only [exMsg, List.mem_cons, List.not_mem_nil, or_false, forall_eq_or_imp, forall_eq, Option.some.injEq, forall_eq']
    exact ⟨⟨n, rfl, trivial⟩, z, num16 (by decide), num8 (by decide), num8 (by decide), trivial, trivial⟩

example : ∃ n b, msgSize exMsg = .ok n ∧ encode exMsg = .ok b ∧ b.length ≤ n := by
  obtain ⟨n, h1, ⟨b, h2, h3⟩, -⟩ := C25_message_partial _ exHeld
  exact ⟨n, b, h1, h2, h3⟩
example : msgSize exMsg = .ok 159 := by decide +kernel

/-- Compressed; then cut to 60 bytes, where the question and the two answers are left. -/
example : ∃ b, encode exMsg = .ok b ∧ b.length = 135 ∧ ∃ b', truncate b 60 = .ok b' ∧ b'.length = 54 ∧ decode b' = .ok (firstRecords exMsg 3) := by
  obtain ⟨b, h1, h2⟩ := okWith_spec (r := encode exMsg)
    (p := fun (b : Bytes) => decide (b.length = 135) && okWith (fun (b' : Bytes) => decide (b'.length = 54 ∧ decode b' = .ok (firstRecords exMsg 3))) (truncate b 60)) (by decide +kernel)
  rw [Bool.and_eq_true] at h2
  obtain ⟨b', h3, h4⟩ := okWith_spec h2.2
  exact ⟨b, h1, of_decide_eq_true h2.1, b', h3, of_decide_eq_true h4⟩

end Verif.Props.Dns
