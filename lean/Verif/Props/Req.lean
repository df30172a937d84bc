import Verif.Lemmas.Req
import Verif.Lemmas.Eval
/-
C27, C28, C56: requests and responses.
-/
namespace Verif.Props.Req
open Verif.DnsName Verif.Dns Verif.Req Verif.Spec.DnsName Verif.Spec.Dns Verif.Spec.Req Verif.Spec.Sig0

/-! ### C28: which packets are requests -/

/-- C28: no packet leads the reading of a request out of its bounds or to a failed assertion. -/
theorem C28_safe (b : Bytes) : create b ≠ .ub := create_ne_ub b

/-- C28: a packet is a request exactly if it is a DNS message with opcode and code zero, one
question, and no answers or authorities, and the last label of the name is presentable; and
then it is the request the message makes. Missing: the class, the version of EDNS and the
response flag are not looked at (`C28_class_false`, `C28_version_false`, `C28_response_false`). -/
theorem C28_accepts_partial (b : Bytes) (r : Req) : create b = .ok r ↔ ∃ m q ls, decode b = .ok m ∧ Query m q ls ∧ Asks m q ls r := create_ok

/-- C28: everything else is dropped. -/
theorem C28_drops (b : Bytes) (h : ∀ m q ls, decode b = .ok m → ¬ Query m q ls) : create b = .err () := by
  cases hc : create b with
  | ub => exact absurd hc (create_ne_ub b)
  | err e => rfl
  | ok r =>
    obtain ⟨m, q, ls, hm, hq, -⟩ := create_ok.1 hc
    exact absurd hq (h m q ls hm)

/-- A query for "a." of type TXT: id 7, recursion desired, EDNS with 512 bytes. The response flag,
the class and the version of EDNS are given. -/
def exQuery (qr cls ver : UInt8) : Bytes :=
  [0, 7, qr, 0, 0, 1, 0, 0, 0, 0, 0, 1, 1, 97, 0, 0, 16, 0, cls, 0, 0, 41, 2, 0, 0, ver, 0, 0, 0, 0]

def exReq (cls : Nat) : Req := ⟨7, 1, [97, 0x2e], 16, cls, true, false, false, true, 512, false, [97]⟩

/-- C28 is false of the class: 77 is no class, and allowed. -/
theorem C28_class_false : ∃ b r, create b = .ok r ∧ r.cls = 77 := ⟨exQuery 1 77 0, exReq 77, by decide +kernel, rfl⟩

/-- C28 is false of the version of EDNS. -/
theorem C28_version_false : ∃ b m r, decode b = .ok m ∧ m.edns.enabled = true ∧ m.edns.version = 3 ∧ create b = .ok r :=
  ⟨exQuery 1 1 3, ⟨7, 0, 0, 256, [⟨[97, 0x2e], 16, 1⟩], [], [], [], ⟨true, 3, 0, 512, 0, []⟩⟩, exReq 1, by decide +kernel, rfl, rfl, by decide +kernel⟩

/-- A message that is itself marked as a response is answered. -/
theorem C28_response_false : ∃ b m r, decode b = .ok m ∧ m.flags.testBit 15 = true ∧ create b = .ok r :=
  ⟨exQuery 0x81 1 0, ⟨7, 0, 0, 33024, [⟨[97, 0x2e], 16, 1⟩], [], [], [], ⟨true, 0, 0, 512, 0, []⟩⟩, exReq 1, by decide +kernel, by decide, by decide +kernel⟩

/-! ### C27: responses -/

/-- C27: any answer is turned into a response, which can be read and is within the size of the
client. It is the complete response, or its first records if that is too long. Missing: a
response cut off has no EDNS data and is not marked (`C27_edns_false`). -/
theorem C27_response_partial (b : Bytes) (r : Req) (hc : create b = .ok r) (m : Msg) (hm : Answer m) (H : Bytes → Bytes) (now : Int) :
    ∃ n b' w s, Response m r n ∧ encode n = .ok b' ∧ finalize H none now m r = .ok w ∧ decode w = .ok s ∧ w.length ≤ r.maxSize ∧ Sent n r.maxSize s :=
  finalize_none hm (create_reqOk hc)

theorem sent_head {n s : Msg} {limit : Nat} {q : Qs} (hq : n.qd = [q]) (h : Sent n limit s) :
    s.id = n.id ∧ s.flags = n.flags ∧ s.opcode = n.opcode ∧ s.code % 16 = n.code % 16 ∧ s.qd = n.qd ∧ s.an <+: n.an ∧ s.ns <+: n.ns ∧ s.ar <+: n.ar := by
  rcases h with rfl | ⟨k, hk, -, rfl, -, -⟩
  · exact ⟨rfl, rfl, rfl, rfl, rfl, List.prefix_rfl, List.prefix_rfl, List.prefix_rfl⟩
  · refine ⟨rfl, rfl, rfl, ?_, ?_, List.take_prefix _ _, List.take_prefix _ _, List.take_prefix _ _⟩
    · show n.code % 16 % 16 = n.code % 16
      omega
    · show n.qd.take k = n.qd
      rw [hq, List.take_of_length_le (by simpa using hk)]

/-- C27, of the packets alone: the response to the query `q` in message `d` has its id, is
marked as a response, has the code of the answer, repeats the question if its name is
presentable, and is not longer than the client allows. -/
theorem C27_packets (b : Bytes) (d : Msg) (q : Qs) (ls : List Bytes) (hd : decode b = .ok d) (hq : Query d q ls) (m : Msg) (hm : Answer m)
    (H : Bytes → Bytes) (now : Int) :
    ∃ r w s, create b = .ok r ∧ finalize H none now m r = .ok w ∧ decode w = .ok s ∧
      s.id = d.id ∧ s.flags.testBit 15 = true ∧ s.opcode = m.opcode ∧ s.code % 16 = m.code ∧ (Clean q.name → s.qd = [q]) ∧ (¬ Clean q.name → s.qd = [⟨[0x2e], q.type, q.cls⟩]) ∧
      w.length ≤ clientSize d.edns ∧ 512 ≤ clientSize d.edns ∧ clientSize d.edns ≤ 4096 := by
  have ha : ∃ r, Asks d q ls r := ⟨⟨d.id, ls.length, q.name, q.type, q.cls, d.flags.testBit 8, d.flags.testBit 4, d.flags.testBit 5, d.edns.enabled, clientSize d.edns,
    d.edns.flags.testBit 15, Verif.Label.lowered (ls.getLast?.getD [])⟩, rfl, rfl, rfl, rfl, rfl, rfl, rfl, rfl, rfl, rfl, rfl, lowered_toNat _⟩
  obtain ⟨r, ha⟩ := ha
  have hc : create b = .ok r := create_ok.2 ⟨d, q, ls, hd, hq, ha⟩
  obtain ⟨n, -, w, s, h1, -, h2, h3, h4, h5⟩ := C27_response_partial b r hc m hm H now
  obtain ⟨g1, g2, g3, g4, g5, -⟩ := sent_head h1.qd h5
  have hsz : 512 ≤ clientSize d.edns ∧ clientSize d.edns ≤ 4096 := by unfold clientSize; split <;> omega
  refine ⟨r, w, s, hc, h2, h3, by rw [g1, h1.id, ha.id], by rw [g2, h1.qr], by rw [g3, h1.opcode], ?_, ?_, ?_, by rw [← ha.maxSize]; exact h4, hsz⟩
  · rw [g4, h1.code]
    have := hm.code
    omega
  · intro hcl
    rw [g5, h1.qd, ha.name, ha.type, ha.cls, if_pos hcl]
  · intro hcl
    rw [g5, h1.qd, ha.name, ha.type, ha.cls, if_neg hcl]

/-- C27 with a key: if the response without signature does not itself end in what looks like a
SIG(0) record, it is sent with one record added, which makes it no longer than the client allows;
without room for it less is sent. Missing: responses that look signed (`C27_signed_false`). -/
theorem C27_signed_partial (b : Bytes) (r : Req) (hc : create b = .ok r) (m : Msg) (hm : Answer m) (H : Bytes → Bytes) (signer : Bytes → Option Bytes)
    (hs : ∀ h s, signer h = some s → s.length = 64) (now : Int) :
    ∃ n w s, Response m r n ∧ decode w = .ok s ∧ Sent n (r.maxSize - 94) s ∧ w.length + 94 ≤ r.maxSize ∧
      ((∀ p x, ¬ IsSigned w p x) → ∃ p, w = p.bytes ∧ p.WF ∧
        (signer (H (signedData p (recordAt now []))) = none → finalize H (some signer) now m r = .err ()) ∧
        ∀ sig, signer (H (signedData p (recordAt now []))) = some sig → ∃ o, finalize H (some signer) now m r = .ok o ∧
          o = withRecord p (recordAt now sig) ∧ o.length ≤ r.maxSize ∧
          ∃ s', decode o = .ok s' ∧ s'.id = s.id ∧ s'.flags = s.flags ∧ s'.qd = s.qd ∧ s'.an = s.an ∧ s'.ns = s.ns ∧ s'.edns = s.edns ∧
            (s.ar.length < 255 → ∃ x, s'.ar = s.ar ++ [x] ∧ x.type = 24)) := by
  obtain ⟨n, w, s, h1, h2, h3, h4, h5, h6, -⟩ := finalize_signed (H := H) hs (now := now) hm (create_reqOk hc)
  refine ⟨n, w, s, h1, h2, h4, h3, fun hno => ?_⟩
  obtain ⟨p, hp, hwf, hcnt, hf⟩ := h5 hno
  refine ⟨p, hp, hwf, (fun hn => by rw [hf, hn]), fun sig hsig => ?_⟩
  have hx := Verif.Sig0.recordAt_wf now (hs _ _ hsig)
  refine ⟨withRecord p (recordAt now sig), by rw [hf, hsig], rfl, ?_, _, h6 p _ hp hwf hx, rfl, rfl, rfl, rfl, rfl, rfl, ?_⟩
  · rw [(Verif.Props.Sig0.C43_signed_message now p hwf (by omega) sig (hs _ _ hsig)).1, ← hp]
    exact h3
  · intro hl
    refine ⟨sigRr (recordAt now sig), ?_, rfl⟩
    show push s.ar _ = _
    unfold push
    rw [if_neg (by omega)]

/-- A TXT record for "a." with the given strings. -/
def exTxt (ts : List Bytes) : Rr := ⟨[97, 0x2e], 16, 1, 60, some [.txts ts]⟩

def exAnswer (ts : List Bytes) : Msg := ⟨0, 0, 0, 33792, [], [exTxt ts], [], [], ednsInit⟩

theorem exGood (ts : List Bytes) (h : ts.length ≤ 255 ∧ ∀ b ∈ ts, b.length ≤ 255) (hs : (ts.map fun b => 1 + b.length).sum < 65536) : Answer (exAnswer ts) := by
  refine ⟨(by decide : 33792 < 65536), (by decide : 0 < 16), (by decide : 0 < 16), ⟨by simp [exAnswer], ?_⟩, ⟨by simp [exAnswer], by simp [exAnswer]⟩,
    ⟨by simp [exAnswer], by simp [exAnswer]⟩⟩
  simp only [exAnswer, List.mem_singleton, forall_eq]
  refine ⟨⟨[[97]], by simp only [OkName, OkLabel]; decide, by decide, rfl⟩, (by decide : 16 < 65536), (by decide : 1 < 65536), (by decide : 60 < 4294967296), ⟨_, rfl, ⟨h, trivial⟩, ?_⟩⟩
  simpa [readLayout, exTxt, valsSize, valSize] using hs

/-- C27 is false of EDNS: the client has it, the response is cut off, and then has neither EDNS
nor a mark that it was cut off. -/
theorem C27_edns_false : ∃ b r m w s, create b = .ok r ∧ r.edns = true ∧ Answer m ∧ m.an ≠ [] ∧ finalize id none 0 m r = .ok w ∧ decode w = .ok s ∧
    s.edns.enabled = false ∧ s.an = [] ∧ s.flags.testBit 9 = false := by
  obtain ⟨w, h1, h2⟩ := okWith_spec (r := finalize id none 0 (exAnswer [List.replicate 255 97, List.replicate 255 98]) (exReq 1))
    (p := fun (w : Bytes) => okWith (fun (s : Msg) => decide (s.edns.enabled = false ∧ s.an = [] ∧ s.flags.testBit 9 = false)) (decode w)) (by decide +kernel)
  obtain ⟨s, h3, h4⟩ := okWith_spec h2
  refine ⟨exQuery 1 1 0, exReq 1, _, w, s, by decide +kernel, rfl, exGood _ ?_ (by decide +kernel), by decide, h1, h3, of_decide_eq_true h4⟩
  exact ⟨by decide, by decide +kernel⟩

/-- The end of a TXT record that together with the EDNS data looks like a SIG(0) record. -/
def exFake : Bytes := [0, 0, 24, 0, 255, 0, 0, 0, 0, 0, 83] ++ List.replicate 72 0

/-- C27 is false of signed responses: here a TXT record of an answer looks like a SIG(0) record
with the EDNS data. The signature takes the place of both, and the response cannot be read. -/
theorem C27_signed_false : ∃ b r m o, create b = .ok r ∧ Answer m ∧ finalize id (some fun _ => some (List.replicate 64 1)) 0 m r = .ok o ∧ decode o = .err () := by
  obtain ⟨o, h1, h2⟩ := okWith_spec (r := finalize id (some fun _ => some (List.replicate 64 1)) 0 (exAnswer [exFake]) (exReq 1))
    (p := fun (w : Bytes) => decide (decode w = .err ())) (by decide +kernel)
  exact ⟨exQuery 1 1 0, exReq 1, _, o, by decide +kernel, exGood _ ⟨by decide, by decide +kernel⟩ (by decide +kernel), h1, of_decide_eq_true h2⟩

/-! ### C56: DNSSEC records only for those who want them -/

/-- C56: every record of a response is one of the answer, in its order; and if the client did not
set the DO bit, it is none of the DNSSEC types, unless this type was asked for, or any type was
asked for and the answer is recursive. -/
theorem C56_records (b : Bytes) (r : Req) (hc : create b = .ok r) (m : Msg) (hm : Answer m) (H : Bytes → Bytes) (now : Int) :
    ∃ w s, finalize H none now m r = .ok w ∧ decode w = .ok s ∧ s.an.Sublist m.an ∧ s.ns.Sublist m.ns ∧ s.ar.Sublist m.ar ∧
      ∀ x, x ∈ s.an ∨ x ∈ s.ns ∨ x ∈ s.ar → x.type ∈ dnssecTypes → r.dnssec = true ∨ x.type = r.type ∨ r.type = 255 ∧ m.flags.testBit 7 = true := by
  obtain ⟨n, -, w, s, h1, -, h2, h3, -, h5⟩ := C27_response_partial b r hc m hm H now
  obtain ⟨-, -, -, -, -, g1, g2, g3⟩ := sent_head h1.qd h5
  rw [h1.an] at g1
  rw [h1.ns] at g2
  rw [h1.ar] at g3
  refine ⟨w, s, h2, h3, g1.sublist.trans List.filter_sublist, g2.sublist.trans List.filter_sublist, g3.sublist.trans List.filter_sublist, ?_⟩
  intro x hx ht
  have : ∃ l, x ∈ forClient r (m.flags.testBit 7) l := by
    rcases hx with hx | hx | hx
    · exact ⟨_, g1.subset hx⟩
    · exact ⟨_, g2.subset hx⟩
    · exact ⟨_, g3.subset hx⟩
  obtain ⟨l, hl⟩ := this
  have := (List.mem_filter.1 hl).2
  simp only [Bool.or_eq_true, Bool.and_eq_true, decide_eq_true_eq] at this
  rcases this with ((h | h) | h) | h
  · exact .inl h
  · exact .inr (.inr ⟨h.2, h.1⟩)
  · exact .inr (.inl h)
  · exact absurd ht h

/-- C56: a client that sets the DO bit gets everything, if there is room. -/
theorem C56_all (b : Bytes) (r : Req) (hc : create b = .ok r) (hd : r.dnssec = true) (m : Msg) (hm : Answer m) (H : Bytes → Bytes) (now : Int) :
    ∃ n full w s, Response m r n ∧ encode n = .ok full ∧ finalize H none now m r = .ok w ∧ decode w = .ok s ∧
      (full.length ≤ r.maxSize → s.an = m.an ∧ s.ns = m.ns ∧ s.ar = m.ar ∧ s.edns = n.edns) := by
  obtain ⟨n, full, w, s, h1, h0, h2, h3, h4, h5⟩ := C27_response_partial b r hc m hm H now
  have hall : ∀ l, forClient r (m.flags.testBit 7) l = l := fun l => forClient_none l (by rw [hd]; rfl)
  refine ⟨n, full, w, s, h1, h0, h2, h3, fun hl => ?_⟩
  rcases h5 with rfl | ⟨k, -, -, -, h6, -⟩
  · exact ⟨by rw [h1.an, hall], by rw [h1.ns, hall], by rw [h1.ar, hall], rfl⟩
  · exact absurd (h6 full h0) (by omega)

example : ∃ b r, create b = .ok r := ⟨exQuery 1 1 0, exReq 1, by decide +kernel⟩
example : Answer (exAnswer [[1, 2, 3]]) := exGood _ ⟨by decide, by decide⟩ (by decide)

end Verif.Props.Req
