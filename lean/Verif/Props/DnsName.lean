import Verif.Lemmas.DnsSer
/-
C21, C22 and C23: parsing, serialising and compressing of names.
-/
namespace Verif.Props.DnsName
open Verif.DnsName Verif.Spec.DnsName

/-! ### C21 -/

/-- C21: parsing at a position of a packet, or of other bytes with or without a packet to
follow pointers in, always ends without reading outside them or writing outside the name. -/
theorem C21_safe (msg : Option Bytes) (s : Bytes) : parse msg s ≠ .ub := parse_ne_ub msg s

/-- C21: what is read is a valid text that fits its buffer of 256 bytes with its terminator;
a non-empty prefix of the input is consumed. -/
theorem C21_result (msg : Option Bytes) (s name rest : Bytes) (h : parse msg s = .ok (name, rest)) :
    (∃ ls, OkName ls ∧ name = text ls) ∧ name.length + 1 ≤ 256 ∧ ∃ p, p ≠ [] ∧ s = p ++ rest := by
  obtain ⟨ls, e, d, hw, hd, hok, rfl, rfl⟩ := (parse_iff _ _ _ _).1 h
  have := hw.le
  have h2 := hok.2
  refine ⟨⟨ls, hok, rfl⟩, by omega, s.take e, ?_, (List.take_append_drop e s).symm⟩
  intro e0
  have := congrArg List.length e0
  rw [List.length_take] at this
  simp only [List.length_nil] at this
  omega

/-- C21: at offset `o` of a packet, with `n` bytes allowed, exactly the names that stand
there within the limit, reached over at most ten pointers, are read. -/
theorem C21_meaning (msg : Bytes) (o n : Nat) (name rest : Bytes) :
    parse (some msg) ((msg.drop o).take n) = .ok (name, rest) ↔
      ∃ ls e d, Expands false msg o ls e d ∧ d ≤ 10 ∧ e ≤ o + n ∧ OkName ls ∧ name = text ls ∧ rest = ((msg.drop o).take n).drop (e - o) := by
  constructor
  · intro h
    obtain ⟨ls, e, d, hw, hd, hok, rfl, rfl⟩ := (parse_iff _ _ _ _).1 h
    have h1 := hw.expands o n rfl
    have h2 := hw.le.1
    rw [List.length_take] at h2
    exact ⟨ls, o + e, d, h1, hd, by omega, hok, rfl, by rw [Nat.add_sub_cancel_left]⟩
  · rintro ⟨ls, e, d, he, hd, hn, hok, rfl, rfl⟩
    exact parse_at he hd hok hn

/-- C21: a place of a packet holds one name only. -/
theorem C21_unique {back : Bool} {msg : Bytes} {o : Nat} {a b : List Bytes} {e e' d d' : Nat} (h : Expands back msg o a e d) (h' : Expands back msg o b e' d') :
    a = b ∧ e = e' ∧ d = d' := Expands.unique h h'

/-- Without a packet pointers are refused: what is read stands there in full. -/
theorem C21_plain (s name rest : Bytes) (h : parse none s = .ok (name, rest)) :
    ∃ ls e, Expands false s 0 ls e 0 ∧ OkName ls ∧ name = text ls ∧ rest = s.drop e := by
  obtain ⟨ls, e, d, hw, hd, hok, rfl, rfl⟩ := (parse_iff _ _ _ _).1 h
  exact ⟨ls, e, hw.plain, hok, rfl, rfl⟩

/-- A pointer into a packet: "b." followed by the name at offset 1. -/
example : parse (some [9, 1, 0x61, 0, 1, 0x62, 0xc0, 1, 7]) [1, 0x62, 0xc0, 1, 7] = .ok ([0x62, 0x2e, 0x61, 0x2e], [7]) := by decide +kernel
/-- A pointer to itself. -/
example : parse (some [0xc0, 0]) [0xc0, 0] = .err () := by decide +kernel
/-- A label that is cut off. -/
example : parse none [5, 0x61, 0x62] = .err () := by decide +kernel

/-! ### C22 -/

/-- C22: a valid name is written in its wire form, of the reported size, with a buffer and
without one; the bytes are read back as the same name. -/
theorem C22_round_trip_partial (ls : List Bytes) (h : OkName ls) (cap : Nat) (hc : (wire ls).length ≤ cap) (msg : Option Bytes) (rest : Bytes) :
    pack (some cap) (text ls) = .ok ((wire ls).length, wire ls) ∧ pack none (text ls) = .ok ((wire ls).length, []) ∧
      parse msg (wire ls ++ rest) = .ok (text ls, rest) := by
  refine ⟨?_, ?_, parse_wire msg h rest⟩
  · unfold pack
    rw [Option.map_some, serialize_plain h [] (by omega)]
    rfl
  · unfold pack
    rw [Option.map_none, serialize_dry h []]
    rfl

/-- C22: a string is accepted iff it is the text of a valid name, or that with one dot too
many in front. In particular strings with empty labels elsewhere, with labels over 63
characters, over 255 characters or without a final dot are refused. -/
theorem C22_refused_partial (s : Bytes) (h : 0 ∉ s) :
    ∃ n, pack none s = .ok (n, []) ∧
      (n ≠ 0 ↔ (∃ ls, OkName ls ∧ s = text ls) ∨ ∃ ls, ls ≠ [] ∧ (∀ l ∈ ls, OkLabel l) ∧ s = 0x2e :: body ls ∧ s.length ≤ 255) :=
  pack_none s h

/-- C22: the check of a name supplies the final dot and then accepts the same strings. -/
theorem C22_verify_partial (s : Bytes) (h : 0 ∉ s) :
    ∃ b, verify s = .ok b ∧ (b = true ↔
      (∃ ls, OkName ls ∧ (if s.getLast? = some 0x2e then s else s ++ [0x2e]) = text ls) ∨
        ∃ ls, ls ≠ [] ∧ (∀ l ∈ ls, OkLabel l) ∧ (if s.getLast? = some 0x2e then s else s ++ [0x2e]) = 0x2e :: body ls ∧ (body ls).length ≤ 254) := by
  refine ⟨_, verify_eq s, ?_⟩
  have h0 : 0 ∉ (if s.getLast? = some 0x2e then s else s ++ [0x2e]) := by
    split
    · exact h
    · simp [h]
  generalize (if s.getLast? = some 0x2e then s else s ++ [0x2e]) = x at *
  obtain ⟨n, hn, hiff⟩ := pack_none x h0
  rw [hn]
  simp only [Bool.and_eq_true, decide_eq_true_eq, bne_iff_ne, ne_eq]
  constructor
  · rintro ⟨hl, hne⟩
    rcases hiff.1 hne with hh | ⟨ls, h1, h2, h3, h4⟩
    · exact .inl hh
    · refine .inr ⟨ls, h1, h2, h3, ?_⟩
      rw [h3, List.length_cons] at h4
      omega
  · rintro (⟨ls, h1, rfl⟩ | ⟨ls, h1, h2, rfl, h4⟩)
    · exact ⟨h1.2, hiff.2 (.inl ⟨ls, h1, rfl⟩)⟩
    · have hl : (0x2e :: body ls).length ≤ 255 := by rw [List.length_cons]; omega
      exact ⟨hl, hiff.2 (.inr ⟨ls, h1, h2, rfl, hl⟩)⟩

/-- C22 is false as stated: an empty first label is accepted, and what is written for it is
the root followed by rubbish. -/
theorem C22_leading_dot_false : verify [0x2e, 0x61, 0x2e] = .ok true ∧ pack (some 256) [0x2e, 0x61, 0x2e] = .ok (4, [0, 1, 0x61, 0]) ∧
    parse none [0, 1, 0x61, 0] = .ok ([0x2e], [1, 0x61, 0]) := by decide +kernel

/-- C22 is false as stated: names of 256 bytes on the wire are accepted (and read). -/
theorem C22_wire_length_false : ∃ ls, OkName ls ∧ (wire ls).length = 256 ∧ verify (text ls) = .ok true ∧ parse none (wire ls) = .ok (text ls, []) := by
  have hok : OkName (List.replicate 4 (List.replicate 62 0x61) ++ [[0x61, 0x61]]) := by
    refine ⟨?_, by decide +kernel⟩
    intro l hl
    simp only [List.mem_append, List.mem_replicate, List.mem_singleton] at hl
    rcases hl with ⟨_, rfl⟩ | rfl
    · exact ⟨by decide, by decide, by decide, by decide⟩
    · exact ⟨by decide, by decide, by decide, by decide⟩
  refine ⟨_, hok, by decide +kernel, by decide +kernel, ?_⟩
  have := parse_wire none hok []
  rwa [List.append_nil] at this

/-- Bytes 0xff and 0xfe of a label on the wire do not come back: they are sent as 0 and '.'. -/
theorem C22_bytes_false : parse none [1, 0xff, 0] = .ok ([0xff, 0x2e], []) ∧ pack (some 256) [0xff, 0x2e] = .ok (3, [1, 0, 0]) := by decide +kernel

theorem okName_www : OkName [[0x77, 0x77, 0x77], [0xff, 0x68]] := by
  refine ⟨?_, by decide⟩
  intro l hl
  rcases List.mem_cons.1 hl with rfl | hl
  · exact ⟨by decide, by decide, by decide, by decide⟩
  · rw [List.mem_singleton] at hl
    subst hl
    exact ⟨by decide, by decide, by decide, by decide⟩

example : pack (some 8) (text [[0x77, 0x77, 0x77], [0xff, 0x68]]) = .ok (8, [3, 0x77, 0x77, 0x77, 2, 0, 0x68, 0]) :=
  (C22_round_trip_partial _ okName_www 8 (by decide) none []).1
/-- Refused: no final dot, an empty label, too long a label. -/
example : pack none [0x61] = .ok (0, []) ∧ pack none [0x61, 0x2e, 0x2e] = .ok (0, []) ∧ pack none (List.replicate 64 0x61 ++ [0x2e]) = .ok (0, []) := by decide +kernel

/-! ### C23 -/

/-- C23: names written one after another into one message, each followed by any other bytes:
all are written, take no more room than without compression, and at the place of each stands
that name, every pointer on the way going to an earlier place; a reader with no limit on
pointers finds it. -/
theorem C23_names (ns : List (List Bytes × Bytes)) (hdr : Bytes) (cap : Nat) (hok : ∀ x ∈ ns, OkName x.1) (hh : 0 < hdr.length)
    (hcap : hdr.length + (ns.map fun x => (wire x.1).length + x.2.length).sum ≤ cap) :
    ∃ m ps, writeAll cap hdr [] (ns.map fun x => (text x.1, x.2)) = .ok (m, ps) ∧ m.length ≤ hdr.length + (ns.map fun x => (wire x.1).length + x.2.length).sum ∧
      hdr <+: m ∧ ps.length = ns.length ∧
      ∀ (i : Nat) (ls : List Bytes) (gap : Bytes), ns[i]? = some (ls, gap) → ∃ o e d, ps[i]? = some o ∧ Expands true m o ls e d ∧ d ≤ ls.length := by
  obtain ⟨x, ps, h1, h2, h3, h4⟩ := writeAll_spec (cap := cap) ns hdr [] hok hh (fun s o h => by cases h) hcap
  have h2' : x.length ≤ (ns.map fun x => (wire x.1).length + x.2.length).sum := h2
  exact ⟨hdr ++ x, ps, h1, by rw [List.length_append]; omega, List.prefix_append _ _, h3, h4⟩

/-- C23: this program's reader, with its limit of ten pointers, recovers each name of at most
ten labels. Missing: names of more labels may be lost (`C23_chain_false`). -/
theorem C23_read_partial (ns : List (List Bytes × Bytes)) (hdr : Bytes) (cap : Nat) (hok : ∀ x ∈ ns, OkName x.1) (hh : 0 < hdr.length)
    (hcap : hdr.length + (ns.map fun x => (wire x.1).length + x.2.length).sum ≤ cap) :
    ∃ m ps, writeAll cap hdr [] (ns.map fun x => (text x.1, x.2)) = .ok (m, ps) ∧
      ∀ (i : Nat) (ls : List Bytes) (gap : Bytes), ns[i]? = some (ls, gap) → ls.length ≤ 10 →
        ∃ o e, ps[i]? = some o ∧ parse (some m) (m.drop o) = .ok (text ls, m.drop e) := by
  obtain ⟨m, ps, h1, _, _, _, h4⟩ := C23_names ns hdr cap hok hh hcap
  refine ⟨m, ps, h1, ?_⟩
  intro i ls gap hi hl
  obtain ⟨o, e, d, ho, he, hd⟩ := h4 i ls gap hi
  have hmem : (ls, gap) ∈ ns := List.mem_of_getElem? hi
  exact ⟨o, e, ho, parse_at' he (by omega) (hok _ hmem)⟩

/-- "a.", "b.a.", "c.b.a." and so on. -/
def nested (k : Nat) : List (List Bytes × Bytes) := (List.range k).map fun i => ((List.range (i + 1)).reverse.map fun j => [UInt8.ofNat (97 + j)], [])

theorem nested_ok (k : Nat) (hk : k ≤ 20) : ∀ x ∈ nested k, OkName x.1 := by
  intro x hx
  unfold nested at hx
  obtain ⟨i, hi, rfl⟩ := List.mem_map.1 hx
  rw [List.mem_range] at hi
  have : ∀ i : Fin 20, (((List.range (i.val + 1)).reverse.map fun j => [UInt8.ofNat (97 + j)]).all fun l => decide (1 ≤ l.length ∧ l.length ≤ 63) && !l.contains 0 && !l.contains 0x2e) = true ∧
      (text ((List.range (i.val + 1)).reverse.map fun j => [UInt8.ofNat (97 + j)])).length ≤ 255 := by decide +kernel
  obtain ⟨h1, h2⟩ := this ⟨i, by omega⟩
  refine ⟨?_, h2⟩
  intro l hl
  have := List.all_eq_true.1 h1 l hl
  simp only [Bool.and_eq_true, decide_eq_true_eq, Bool.not_eq_true', List.contains_eq_mem, decide_eq_false_iff_not] at this
  exact ⟨this.1.1.1, this.1.1.2, this.1.2, this.2⟩

/-- C23 without the bound is false: after twelve nested names the reader refuses the last,
which it would reach over eleven pointers. -/
theorem C23_chain_false : ∃ m ps o, writeAll 512 (List.replicate 12 0) [] ((nested 12).map fun x => (text x.1, x.2)) = .ok (m, ps) ∧
    ps[11]? = some o ∧ parse (some m) (m.drop o) = .err () := by
  refine ⟨List.replicate 12 0 ++ [1, 97, 0, 1, 98, 192, 12, 1, 99, 192, 15, 1, 100, 192, 19, 1, 101, 192, 23, 1, 102, 192, 27, 1, 103, 192, 31, 1, 104, 192, 35, 1, 105, 192, 39, 1, 106, 192, 43, 1, 107, 192, 47, 1, 108, 192, 51],
    [12, 15, 19, 23, 27, 31, 35, 39, 43, 47, 51, 55], 55, ?_, ?_, ?_⟩ <;> decide +kernel

/-- "example.", then "www.example." after ten other bytes: the second name is a label and a pointer. -/
example : writeAll 64 (List.replicate 12 0) [] [([0x65, 0x78, 0x2e], [1, 1]), ([0x77, 0x2e, 0x65, 0x78, 0x2e], [])] =
    .ok (List.replicate 12 0 ++ [2, 0x65, 0x78, 0, 1, 1, 1, 0x77, 0xc0, 12], [12, 18]) := by decide +kernel
example : ∃ m ps, writeAll 512 (List.replicate 12 0) [] ((nested 10).map fun x => (text x.1, x.2)) = .ok (m, ps) ∧ ps.length = 10 := by
  obtain ⟨m, ps, h1, _, _, h3, _⟩ := C23_names (nested 10) (List.replicate 12 0) 512 (nested_ok 10 (by omega)) (by decide) (by decide +kernel)
  exact ⟨m, ps, h1, by simpa [nested] using h3⟩

end Verif.Props.DnsName
