import Verif.Spec.Resource
import Verif.Props.DnsName
import Verif.Lemmas.Bio
/-
Decoding of resources.
-/
namespace Verif.Resource
open Verif.Bio Verif.DnsName Verif.Dns Verif.Spec.DnsName Verif.Spec.Resource

theorem bytesAt_split {d : Bytes} {o : Nat} {b : Bytes} (h : BytesAt d o b) : d.drop o = b ++ d.drop (o + b.length) := by
  unfold BytesAt at h
  have := List.take_append_drop b.length (d.drop o)
  rw [h, List.drop_drop] at this
  exact this.symm

theorem bytesAt_le {d : Bytes} {o : Nat} {b : Bytes} (h : BytesAt d o b) (hb : b ≠ []) : o + b.length ≤ d.length := by
  unfold BytesAt at h
  have := congrArg List.length h
  rw [List.length_take, List.length_drop] at this
  have : 0 < b.length := List.length_pos_iff.2 hb
  omega

theorem nameAt_read {d : Bytes} {o e : Nat} {n : Bytes} (h : NameAt d o n e) : parse (some d) (d.drop o) = .ok (n, d.drop e) ∧ o < e ∧ e ≤ d.length := by
  obtain ⟨ls, k, h1, h2, h3, rfl⟩ := h
  obtain ⟨h4, h5⟩ := h1.le
  refine ⟨?_, h5, h4⟩
  have := (Props.DnsName.C21_meaning d o (d.length - o) (text ls) (d.drop e)).2
    ⟨ls, e, k, h1, h2, by omega, h3, rfl, by rw [List.take_of_length_le (by simp), List.drop_drop]; congr 1; omega⟩
  rwa [List.take_of_length_le (by simp)] at this

theorem readIp_append {n : Nat} {ip w : Bytes} (h : ip.length = n) : readIp n (ip ++ w) = .ok (ip, w) := by
  unfold readIp
  rw [readBytes_append' h]

theorem txtLoop_append : ∀ (ts : List Bytes) (w : Bytes) (acc : List Bytes), (∀ t ∈ ts, t.length ≤ 255) →
    txtLoop ts.length ((ts.map fun t => UInt8.ofNat t.length :: t).flatten ++ w) acc = .ok (.txt (acc ++ ts) true, w)
  | [], w, acc, _ => by simp [txtLoop]
  | t :: ts, w, acc, h => by
    have ht := h t List.mem_cons_self
    have e : ((t :: ts).map fun t => UInt8.ofNat t.length :: t).flatten ++ w = leBytes 1 t.length ++ (t ++ ((ts.map fun t => UInt8.ofNat t.length :: t).flatten ++ w)) := by
      simp [show leBytes 1 t.length = [UInt8.ofNat t.length] from rfl]
    rw [e, List.length_cons, txtLoop, readU8_append (by omega)]
    simp only
    rw [readBytes_append]
    simp only
    rw [txtLoop_append ts w _ fun x hx => h x (List.mem_cons_of_mem _ hx)]
    simp

theorem recAt_read {d : Bytes} {o e : Nat} {r : Rec} (h : RecAt d o r e) :
    ∃ t s, d.drop o = t :: s ∧ readRec d t.toNat s = .ok (r, d.drop e) ∧ o < e ∧ e ≤ d.length := by
  cases h with
  | ds h1 h2 h3 h4 h =>
    rename_i tag alg dt dig
    have hs := bytesAt_split h
    have hle := bytesAt_le h (by simp)
    simp only [List.length_append, List.length_cons, List.length_nil, beBytes_length] at hs hle
    refine ⟨0, beBytes 2 tag ++ (leBytes 1 alg ++ (leBytes 1 dt ++ (leBytes 1 dig.length ++ (dig ++ d.drop (o + 6 + dig.length))))), ?_, ?_, by omega, by omega⟩
    · rw [hs]
      rw [show o + (0 + 1 + 2 + (0 + 1 + 1 + 1) + List.length dig) = o + 6 + dig.length by omega]
      simp [leBytes]
    · show readDs _ = _
      unfold readDs
      rw [if_neg (by simp; omega), readU16be_append h1]
      simp only [Out.bind]
      rw [readU8_append h2]
      simp only
      rw [readU8_append h3]
      simp only
      rw [readU8_append (by omega)]
      simp only
      rw [if_neg (by omega), readBytes_append]
      dsimp only
      rw [if_neg (by omega)]
  | ns h hn =>
    obtain ⟨h1, h2, h3⟩ := nameAt_read hn
    refine ⟨1, d.drop (o + 1), bytesAt_split h, ?_, by omega, h3⟩
    show readNs d _ = _
    unfold readNs readName
    rw [h1]
    rfl
  | glue4 h hn hl hi =>
    obtain ⟨h1, h2, h3⟩ := nameAt_read hn
    have := bytesAt_le hi (by intro h0; rw [h0] at hl; cases hl)
    refine ⟨2, d.drop (o + 1), bytesAt_split h, ?_, by omega, by omega⟩
    show readGlue4 d _ = _
    unfold readGlue4 readName
    rw [h1]
    simp only [Out.bind, Bool.not_true, Bool.false_eq_true, if_false]
    rw [bytesAt_split hi, readIp_append hl, hl]
  | glue6 h hn hl hi =>
    obtain ⟨h1, h2, h3⟩ := nameAt_read hn
    have := bytesAt_le hi (by intro h0; rw [h0] at hl; cases hl)
    refine ⟨3, d.drop (o + 1), bytesAt_split h, ?_, by omega, by omega⟩
    show readGlue6 d _ = _
    unfold readGlue6 readName
    rw [h1]
    simp only [Out.bind, Bool.not_true, Bool.false_eq_true, if_false]
    rw [bytesAt_split hi, readIp_append hl, hl]
  | synth4 hl h =>
    rename_i ip
    have hs := bytesAt_split h
    have hle := bytesAt_le h (by simp)
    simp only [List.length_cons, hl] at hs hle
    refine ⟨4, ip ++ d.drop (o + 5), hs, ?_, by omega, by omega⟩
    show (readIp 4 _).bind _ = _
    rw [readIp_append hl]
    rfl
  | synth6 hl h =>
    rename_i ip
    have hs := bytesAt_split h
    have hle := bytesAt_le h (by simp)
    simp only [List.length_cons, hl] at hs hle
    refine ⟨5, ip ++ d.drop (o + 17), hs, ?_, by omega, by omega⟩
    show (readIp 16 _).bind _ = _
    rw [readIp_append hl]
    rfl
  | txt h1 h2 h =>
    rename_i ts
    have hs := bytesAt_split h
    have hle := bytesAt_le h (by simp)
    simp only [List.length_append, List.length_cons, List.length_nil] at hs hle
    refine ⟨6, leBytes 1 ts.length ++ ((ts.map fun t => UInt8.ofNat t.length :: t).flatten ++ d.drop (o + 2 + (ts.map fun t => UInt8.ofNat t.length :: t).flatten.length)), ?_, ?_, by omega, by omega⟩
    · rw [hs]
      rw [show ∀ k, o + (0 + 1 + 1 + k) = o + 2 + k by intro k; omega]
      simp [leBytes]
    · rw [show ∀ s, readRec d (UInt8.toNat 6) s = readTxt s from fun _ => rfl]
      unfold readTxt
      rw [readU8_append (by omega)]
      simp only
      rw [txtLoop_append ts _ [] h2]
      rfl

theorem decodeLoop_eq {d : Bytes} {o : Nat} {rs : List Rec} (h : RecsAt d o rs) : ∀ (fuel : Nat) (acc : List Rec), acc.length + rs.length ≤ 255 → d.length - o < fuel →
    decodeLoop d fuel (d.drop o) acc = .ok (acc ++ rs) := by
  induction h with
  | nil =>
    intro fuel acc _ hf
    match fuel, hf with
    | fuel + 1, _ => simp [decodeLoop]
  | cons h hr ih =>
    rename_i o e r rs
    intro fuel acc hl hf
    match fuel, hf with
    | fuel + 1, hf =>
      obtain ⟨t, s, h1, h2, h3, h4⟩ := recAt_read h
      rw [List.length_cons] at hl
      rw [h1, decodeLoop, h2]
      simp only [Out.bind]
      rw [if_neg (by omega), ih fuel _ (by simp; omega) (by omega)]
      simp

theorem decode_eq {d : Bytes} {rs : List Rec} (h : Encodes d rs) (hl : rs.length ≤ 255) : decode d = .ok rs := by
  obtain ⟨h0, h1⟩ := h
  have hs := bytesAt_split h0
  simp only [List.drop_zero, List.length_cons, List.length_nil, Nat.zero_add] at hs
  unfold decode
  have e : readU8 d = .ok (0, d.drop 1) := by
    have := readU8_append (v := 0) (r := d.drop 1) (by decide)
    rw [show (leBytes 1 0 ++ d.drop 1 : Bytes) = [0] ++ d.drop 1 from rfl, ← hs] at this
    exact this
  rw [e]
  simp only [Out.bind]
  rw [if_neg (by simp)]
  have := decodeLoop_eq h1 ((d.drop 1).length + 1) [] (by simpa using hl) (by simp)
  rw [this]
  rfl

theorem recAt_good {d : Bytes} {o e : Nat} {r : Rec} (h : RecAt d o r e) : GoodRec r := by
  cases h with
  | ds h1 h2 h3 h4 _ => exact ⟨h1, h2, h3, h4⟩
  | ns _ hn => obtain ⟨ls, _, _, _, h3, rfl⟩ := hn; exact ⟨ls, h3, rfl⟩
  | glue4 _ hn hl _ => obtain ⟨ls, _, _, _, h3, rfl⟩ := hn; exact ⟨⟨ls, h3, rfl⟩, hl⟩
  | glue6 _ hn hl _ => obtain ⟨ls, _, _, _, h3, rfl⟩ := hn; exact ⟨⟨ls, h3, rfl⟩, hl⟩
  | synth4 hl _ => exact hl
  | synth6 hl _ => exact hl
  | txt h1 h2 _ => exact ⟨rfl, h1, h2⟩

theorem recsAt_good {d : Bytes} {o : Nat} {rs : List Rec} (h : RecsAt d o rs) : ∀ r ∈ rs, GoodRec r := by
  induction h with
  | nil => simp
  | cons h _ ih =>
    intro r hr
    rcases List.mem_cons.1 hr with rfl | hr
    · exact recAt_good h
    · exact ih r hr

/-! ### Safety of reading -/

theorem readBytes_ok {n : Nat} {s b r : Bytes} (h : readBytes n s = .ok (b, r)) : b.length = n ∧ s = b ++ r := by
  have := readBytes_eq_ok.1 h
  obtain ⟨h1, h2⟩ := this
  exact ⟨h2, h1⟩

theorem readIp_safe (n : Nat) (s : Bytes) : ∃ b r, readIp n s = .ok (b, r) ∧ b.length = n ∧ r.length ≤ s.length := by
  unfold readIp
  cases h : readBytes n s with
  | ub => exact absurd h (readBytes_ne_ub _ _)
  | err e => exact ⟨_, _, rfl, by simp, Nat.le_refl _⟩
  | ok p =>
    obtain ⟨b, r⟩ := p
    obtain ⟨h1, h2⟩ := readBytes_ok h
    exact ⟨b, r, rfl, h1, by rw [h2]; simp⟩

theorem readU8_len {s r : Bytes} {v : Nat} (h : readU8 s = .ok (v, r)) : r.length + 1 = s.length := by
  have := (readU8_eq_ok.1 h).1
  rw [this]
  simp
  omega

theorem readName_safe (d s : Bytes) : ∃ b n r, readName d s = .ok (b, n, r) ∧ r.length ≤ s.length := by
  unfold readName
  cases h : parse (some d) s with
  | ub => exact absurd h (Props.DnsName.C21_safe _ _)
  | err e => exact ⟨_, _, _, rfl, Nat.le_refl _⟩
  | ok p =>
    obtain ⟨n, r⟩ := p
    obtain ⟨_, _, q, _, h2⟩ := Props.DnsName.C21_result _ _ _ _ h
    exact ⟨_, _, _, rfl, by rw [h2]; simp⟩

theorem readDs_safe (s : Bytes) : ∃ x r, readDs s = .ok (x, r) ∧ r.length ≤ s.length := by
  unfold readDs
  split
  · exact ⟨_, _, rfl, Nat.le_refl _⟩
  · rename_i hl
    have hl : 5 ≤ s.length := Nat.not_lt.1 hl
    match s, hl with
    | a :: b :: c :: d :: e :: w, _ =>
      have e1 : readU16be (a :: b :: c :: d :: e :: w) = .ok (a.toNat * 256 + b.toNat, c :: d :: e :: w) := by
        rw [readU16be_eq_ok]
        have := a.toNat_lt
        have := b.toNat_lt
        refine ⟨?_, by omega⟩
        have h1 : UInt8.ofNat (a.toNat * 256 + b.toNat) = b := by apply UInt8.toNat.inj; simp
        have h2 : UInt8.ofNat ((a.toNat * 256 + b.toNat) / 256) = a := by apply UInt8.toNat.inj; simp; omega
        simp [beBytes, leBytes, h1, h2]
      have u8 : ∀ (x : UInt8) (w : Bytes), readU8 (x :: w) = .ok (x.toNat, w) := by
        intro x w
        have := readU8_append (v := x.toNat) (r := w) x.toNat_lt
        simpa [leBytes] using this
      rw [e1]
      simp only [Out.bind, u8]
      split
      · exact ⟨_, _, rfl, by simp; omega⟩
      · cases h : readBytes e.toNat w with
        | ub => exact absurd h (readBytes_ne_ub _ _)
        | err e => exact ⟨_, _, rfl, by simp; omega⟩
        | ok p =>
          obtain ⟨b', r⟩ := p
          obtain ⟨h1, h2⟩ := readBytes_ok h
          dsimp only
          rw [if_neg (by omega)]
          exact ⟨_, _, rfl, by rw [h2]; simp; omega⟩

theorem txtLoop_safe : ∀ (n : Nat) (s : Bytes) (acc : List Bytes), ∃ x r, txtLoop n s acc = .ok (x, r) ∧ r.length ≤ s.length
  | 0, s, acc => ⟨_, _, rfl, Nat.le_refl _⟩
  | n + 1, s, acc => by
    rw [txtLoop]
    cases h : readU8 s with
    | ub => exact absurd h (readU8_ne_ub _)
    | err e => exact ⟨_, _, rfl, Nat.le_refl _⟩
    | ok p =>
      obtain ⟨v, r⟩ := p
      have h1 := readU8_len h
      simp only
      cases h' : readBytes v r with
      | ub => exact absurd h' (readBytes_ne_ub _ _)
      | err e => exact ⟨_, _, rfl, by omega⟩
      | ok q =>
        obtain ⟨b, w⟩ := q
        obtain ⟨_, h2⟩ := readBytes_ok h'
        obtain ⟨x, r', h3, h4⟩ := txtLoop_safe n w (acc ++ [b])
        have := congrArg List.length h2
        rw [List.length_append] at this
        exact ⟨x, r', h3, by omega⟩

theorem readRec_safe (d : Bytes) (t : Nat) (s : Bytes) : readRec d t s = .err () ∨ ∃ x r, readRec d t s = .ok (x, r) ∧ r.length ≤ s.length := by
  unfold readRec
  split
  · exact .inr (readDs_safe s)
  · obtain ⟨b, n, r, h, hl⟩ := readName_safe d s
    unfold readNs
    rw [h]
    exact .inr ⟨_, _, rfl, hl⟩
  · obtain ⟨b, n, r, h, hl⟩ := readName_safe d s
    obtain ⟨b', r', h', _, hl'⟩ := readIp_safe 4 r
    unfold readGlue4
    rw [h]
    simp only [Out.bind]
    split
    · exact .inr ⟨_, _, rfl, hl⟩
    · rw [h']
      exact .inr ⟨_, _, rfl, Nat.le_trans hl' hl⟩
  · obtain ⟨b, n, r, h, hl⟩ := readName_safe d s
    obtain ⟨b', r', h', _, hl'⟩ := readIp_safe 16 r
    unfold readGlue6
    rw [h]
    simp only [Out.bind]
    split
    · exact .inr ⟨_, _, rfl, hl⟩
    · rw [h']
      exact .inr ⟨_, _, rfl, Nat.le_trans hl' hl⟩
  · obtain ⟨b', r', h', _, hl'⟩ := readIp_safe 4 s
    rw [h']
    exact .inr ⟨_, _, rfl, hl'⟩
  · obtain ⟨b', r', h', _, hl'⟩ := readIp_safe 16 s
    rw [h']
    exact .inr ⟨_, _, rfl, hl'⟩
  · unfold readTxt
    cases h : readU8 s with
    | ub => exact absurd h (readU8_ne_ub _)
    | err e => exact .inr ⟨_, _, rfl, Nat.le_refl _⟩
    | ok p =>
      obtain ⟨v, r⟩ := p
      have h1 := readU8_len h
      obtain ⟨x, r', h2, h3⟩ := txtLoop_safe v r []
      exact .inr ⟨x, r', h2, by omega⟩
  · exact .inl rfl

theorem decodeLoop_safe (d : Bytes) : ∀ (fuel : Nat) (s : Bytes) (acc : List Rec), s.length < fuel → acc.length + s.length ≤ 255 →
    decodeLoop d fuel s acc = .err () ∨ ∃ rs, decodeLoop d fuel s acc = .ok rs ∧ rs.length ≤ 255
  | fuel + 1, s, acc, hf, hl => by
    match s with
    | [] => exact .inr ⟨acc, rfl, by simpa using hl⟩
    | t :: s =>
      simp only [List.length_cons] at hl hf
      rw [decodeLoop]
      rcases readRec_safe d t.toNat s with h | ⟨x, r, h, hr⟩
      · rw [h]; exact .inl rfl
      · rw [h]
        simp only [Out.bind]
        rw [if_neg (by omega)]
        exact decodeLoop_safe d fuel r (acc ++ [x]) (by omega) (by simp; omega)

end Verif.Resource
