import Verif.Model.Sig0
import Verif.Spec.Sig0
namespace Verif.Sig0
open Verif.Spec.Sig0

theorem memSlice_mid {a b c w : Bytes} {i n : Nat} (hw : w = a ++ b ++ c) (hi : i = a.length) (hn : n = b.length) :
    (memSlice w i n : Out Unit Bytes) = .ok b := by
  subst hw hi hn
  unfold memSlice
  rw [if_pos (by simp only [List.length_append]; omega)]
  simp

theorem u16_mid {a c w : Bytes} {i n : Nat} (hw : w = a ++ beBytes 2 n ++ c) (hi : i = a.length) (h : n < 65536) : u16 w i = .ok n := by
  unfold u16
  rw [memSlice_mid hw hi (by simp)]
  simp [beNat_beBytes_of_lt (k := 2) (n := n) (by simpa using h)]

theorem u32_mid {a c w : Bytes} {i n : Nat} (hw : w = a ++ beBytes 4 n ++ c) (hi : i = a.length) (h : n < 2 ^ 32) : u32 w i = .ok n := by
  unfold u32
  rw [memSlice_mid hw hi (by simp)]
  simp [beNat_beBytes_of_lt (k := 4) (n := n) (by simpa using h)]

theorem u8_mid {a c w : Bytes} {i : Nat} {b : UInt8} (hw : w = a ++ [b] ++ c) (hi : i = a.length) : u8 w i = .ok b.toNat := by
  subst hw hi
  simp [u8, memGet]

/-- Any 2 bytes are the big-endian form of a number. -/
theorem two (b : Bytes) (h : b.length = 2) : ∃ n, n < 65536 ∧ b = beBytes 2 n :=
  ⟨beNat b, by have := beNat_lt b; rw [h] at this; simpa using this, by have := beBytes_beNat b; rw [h] at this; exact this.symm⟩
theorem four (b : Bytes) (h : b.length = 4) : ∃ n, n < 2 ^ 32 ∧ b = beBytes 4 n :=
  ⟨beNat b, by have := beNat_lt b; rw [h] at this; simpa using this, by have := beBytes_beNat b; rw [h] at this; exact this.symm⟩
theorem one (b : Bytes) (h : b.length = 1) : ∃ x, b = [x] := List.length_eq_one_iff.1 h

/-- Cut `n` bytes off. -/
theorem cut (w : Bytes) (n : Nat) (h : n ≤ w.length) : ∃ a b : Bytes, w = a ++ b ∧ a.length = n ∧ b.length = w.length - n :=
  ⟨w.take n, w.drop n, (List.take_append_drop n w).symm, by simp [h], by simp⟩

/-- Any 94 bytes have the layout of a record. -/
theorem layout (rr : Bytes) (h : rr.length = 94) : ∃ (name : UInt8) (type cls ttl size covered : Nat) (rest : Bytes),
    type < 65536 ∧ cls < 65536 ∧ ttl < 2 ^ 32 ∧ size < 65536 ∧ covered < 65536 ∧ rest.length = 81 ∧
    rr = [name] ++ beBytes 2 type ++ beBytes 2 cls ++ beBytes 4 ttl ++ beBytes 2 size ++ beBytes 2 covered ++ rest := by
  obtain ⟨a1, r1, rfl, h1, k1⟩ := cut rr 1 (by omega)
  obtain ⟨a2, r2, rfl, h2, k2⟩ := cut r1 2 (by omega)
  obtain ⟨a3, r3, rfl, h3, k3⟩ := cut r2 2 (by omega)
  obtain ⟨a4, r4, rfl, h4, k4⟩ := cut r3 4 (by omega)
  obtain ⟨a5, r5, rfl, h5, k5⟩ := cut r4 2 (by omega)
  obtain ⟨a6, r6, rfl, h6, k6⟩ := cut r5 2 (by omega)
  obtain ⟨x, rfl⟩ := one a1 h1
  obtain ⟨n2, b2, rfl⟩ := two a2 h2
  obtain ⟨n3, b3, rfl⟩ := two a3 h3
  obtain ⟨n4, b4, rfl⟩ := four a4 h4
  obtain ⟨n5, b5, rfl⟩ := two a5 h5
  obtain ⟨n6, b6, rfl⟩ := two a6 h6
  exact ⟨x, n2, n3, n4, n5, n6, r6, b2, b3, b4, b5, b6, by omega, by simp only [List.append_assoc]⟩

/-- Any 81 bytes are the end of a record. -/
theorem layout' (rd : Bytes) (h : rd.length = 81) : ∃ r : Rec, r.WF ∧ beBytes 2 0 ++ rd = r.fields ++ r.sig := by
  obtain ⟨a1, r1, rfl, h1, k1⟩ := cut rd 1 (by omega)
  obtain ⟨a2, r2, rfl, h2, k2⟩ := cut r1 1 (by omega)
  obtain ⟨a3, r3, rfl, h3, k3⟩ := cut r2 4 (by omega)
  obtain ⟨a4, r4, rfl, h4, k4⟩ := cut r3 4 (by omega)
  obtain ⟨a5, r5, rfl, h5, k5⟩ := cut r4 4 (by omega)
  obtain ⟨a6, r6, rfl, h6, k6⟩ := cut r5 2 (by omega)
  obtain ⟨a7, r7, rfl, h7, k7⟩ := cut r6 1 (by omega)
  obtain ⟨x1, rfl⟩ := one a1 h1
  obtain ⟨x2, rfl⟩ := one a2 h2
  obtain ⟨n3, b3, rfl⟩ := four a3 h3
  obtain ⟨n4, b4, rfl⟩ := four a4 h4
  obtain ⟨n5, b5, rfl⟩ := four a5 h5
  obtain ⟨n6, b6, rfl⟩ := two a6 h6
  obtain ⟨x7, rfl⟩ := one a7 h7
  exact ⟨⟨x1, x2, n3, n4, n5, n6, x7, r7⟩, ⟨b3, b4, b5, b6, by simp only; omega⟩, by simp [Rec.fields]⟩

theorem checkRecord_layout {name : UInt8} {type cls ttl size covered : Nat} {rest : Bytes} (h1 : type < 65536) (h2 : cls < 65536)
    (h3 : ttl < 2 ^ 32) (h4 : size < 65536) (h5 : covered < 65536) :
    checkRecord ([name] ++ beBytes 2 type ++ beBytes 2 cls ++ beBytes 4 ttl ++ beBytes 2 size ++ beBytes 2 covered ++ rest) =
      .ok (decide (name.toNat = 0 ∧ type = 24 ∧ cls = 255 ∧ ttl = 0 ∧ size = 83 ∧ covered = 0)) := by
  unfold checkRecord
  rw [u8_mid (a := []) (b := name) (c := beBytes 2 type ++ beBytes 2 cls ++ beBytes 4 ttl ++ beBytes 2 size ++ beBytes 2 covered ++ rest)
    (by simp) (by simp)]
  rw [u16_mid (a := [name]) (n := type) (c := beBytes 2 cls ++ beBytes 4 ttl ++ beBytes 2 size ++ beBytes 2 covered ++ rest) (by simp) (by simp) h1]
  rw [u16_mid (a := [name] ++ beBytes 2 type) (n := cls) (c := beBytes 4 ttl ++ beBytes 2 size ++ beBytes 2 covered ++ rest) (by simp)
    (by simp) h2]
  rw [u32_mid (a := [name] ++ beBytes 2 type ++ beBytes 2 cls) (n := ttl) (c := beBytes 2 size ++ beBytes 2 covered ++ rest) (by simp)
    (by simp) h3]
  rw [u16_mid (a := [name] ++ beBytes 2 type ++ beBytes 2 cls ++ beBytes 4 ttl) (n := size) (c := beBytes 2 covered ++ rest) (by simp)
    (by simp) h4]
  rw [u16_mid (a := [name] ++ beBytes 2 type ++ beBytes 2 cls ++ beBytes 4 ttl ++ beBytes 2 size) (n := covered) (c := rest) (by simp)
    (by simp) h5]
  simp only [Out.bind_ok, Out.pure_eq]
  repeat' split
  all_goals simp_all

theorem fields_length (r : Rec) : r.fields.length = 19 := by simp [Rec.fields]
theorem rec_length {r : Rec} (h : r.WF) : r.bytes.length = 94 := by simp [Rec.bytes, fields_length, h.sig]

theorem parts (w : Bytes) (h : 12 ≤ w.length) : ∃ p : Parts, p.WF ∧ w = p.bytes := by
  obtain ⟨a, r, rfl, h1, k1⟩ := cut w 10 (by omega)
  obtain ⟨b, c, rfl, h2, k2⟩ := cut r 2 (by omega)
  obtain ⟨n, hn, rfl⟩ := two b h2
  exact ⟨⟨a, n, c⟩, ⟨h1, hn⟩, by simp [Parts.bytes]⟩

theorem parts_arcount {p : Parts} (h : p.WF) (x : Bytes) : u16 (p.bytes ++ x) 10 = .ok p.arcount :=
  u16_mid (a := p.head) (c := p.body ++ x) (by simp [Parts.bytes]) h.head.symm h.arcount

theorem withRecord_eq (p : Parts) (r : Rec) : withRecord p r = (⟨p.head, p.arcount + 1, p.body⟩ : Parts).bytes ++ r.bytes := rfl

theorem parts_length {p : Parts} (h : p.WF) : p.bytes.length = 12 + p.body.length := by
  simp [Parts.bytes, h.head]; omega

theorem withRecord_length {p : Parts} {r : Rec} (hp : p.WF) (hr : r.WF) : (withRecord p r).length = 12 + p.body.length + 94 := by
  simp [withRecord, hp.head, rec_length hr]; omega

theorem signed_last {w : Bytes} {p : Parts} {r : Rec} (h : IsSigned w p r) :
    (memSlice w (w.length - 94) 94 : Out Unit Bytes) = .ok r.bytes := by
  obtain ⟨hp, ha, hr, rfl⟩ := h
  refine memSlice_mid (a := p.head ++ beBytes 2 (p.arcount + 1) ++ p.body) (c := []) (by simp [withRecord]) ?_ (rec_length hr).symm
  rw [withRecord_length hp hr]
  simp [hp.head]; omega

/-- The test for a signature is right, and always safe. -/
theorem hasSig_spec (w : Bytes) : ∃ b, hasSig w = .ok b ∧ (b = true ↔ ∃ p r, IsSigned w p r) := by
  unfold hasSig
  by_cases hl : w.length < 94 + 12
  · rw [if_pos hl]
    refine ⟨false, rfl, ?_⟩
    simp only [Bool.false_eq_true, false_iff]
    rintro ⟨p, r, hp, ha, hr, rfl⟩
    rw [withRecord_length hp hr] at hl
    omega
  · rw [if_neg hl]
    obtain ⟨q, rr, rfl, hq, hrr0⟩ := cut w (w.length - 94) (by omega)
    rw [List.length_append] at hq hrr0 hl
    have hrr : rr.length = 94 := by omega
    obtain ⟨p, hp, rfl⟩ := parts q (by omega)
    rw [parts_arcount hp, memSlice_mid (a := p.bytes) (b := rr) (c := []) (by simp) (by rw [List.length_append]; omega) hrr.symm]
    simp only [Out.bind_ok, Out.pure_eq]
    obtain ⟨name, type, cls, ttl, size, covered, rest, b1, b2, b3, b4, b5, hrest, rfl⟩ := layout rr hrr
    rw [checkRecord_layout b1 b2 b3 b4 b5]
    by_cases hac : p.arcount < 1
    · rw [if_pos hac]
      refine ⟨false, rfl, ?_⟩
      simp only [Bool.false_eq_true, false_iff]
      rintro ⟨p', r, hp', ha, hr, he⟩
      have := congrArg (fun w => u16 w 10) he
      simp only [parts_arcount hp] at this
      rw [withRecord_eq, parts_arcount (p := ⟨p'.head, p'.arcount + 1, p'.body⟩) ⟨hp'.head, ha⟩] at this
      have := Out.ok.inj this
      simp only at this
      omega
    · rw [if_neg hac]
      refine ⟨_, rfl, ?_⟩
      rw [decide_eq_true_iff]
      constructor
      · rintro ⟨hn, rfl, rfl, rfl, rfl, rfl⟩
        obtain ⟨r, hr, he⟩ := layout' rest hrest
        have : name = 0 := UInt8.toNat.inj (by simpa using hn)
        subst this
        refine ⟨⟨p.head, p.arcount - 1, p.body⟩, r, ⟨hp.head, by have := hp.arcount; simp only; omega⟩, ?_, hr, ?_⟩
        · have := hp.arcount; simp only; omega
        · simp only [withRecord, Rec.bytes, ← he, Parts.bytes, Nat.sub_add_cancel (show 1 ≤ p.arcount by omega), List.append_assoc]
      · rintro ⟨p', r, h⟩
        have e1 := signed_last h
        rw [memSlice_mid (a := p.bytes) (c := []) (by rw [List.append_nil]) (by rw [List.length_append]; omega) hrr.symm] at e1
        have e2 := congrArg checkRecord (Out.ok.inj e1)
        rw [checkRecord_layout b1 b2 b3 b4 b5] at e2
        have e3 : r.bytes = [0] ++ beBytes 2 24 ++ beBytes 2 255 ++ beBytes 4 0 ++ beBytes 2 83 ++ beBytes 2 0 ++
            ([r.algorithm, r.labels] ++ beBytes 4 r.origTtl ++ beBytes 4 r.expiration ++ beBytes 4 r.inception ++
              beBytes 2 r.keyTag ++ [r.signer] ++ r.sig) := by simp [Rec.bytes, Rec.fields]
        rw [e3, checkRecord_layout (by omega) (by omega) (by omega) (by omega) (by omega)] at e2
        simp only [Out.ok.injEq, decide_eq_decide] at e2
        exact e2.2 (by simp)

theorem hasSig_signed {w : Bytes} {p : Parts} {r : Rec} (h : IsSigned w p r) : hasSig w = .ok true := by
  obtain ⟨b, h1, h2⟩ := hasSig_spec w
  rw [h1, h2.2 ⟨p, r, h⟩]

theorem preimage_signed {w : Bytes} {p : Parts} {r : Rec} (h : IsSigned w p r) : preimage w = .ok (some (signedData p r)) := by
  unfold preimage
  rw [hasSig_signed h]
  obtain ⟨hp, ha, hr, rfl⟩ := h
  have hl := withRecord_length hp hr
  simp only [Out.bind_ok, Bool.not_true, Bool.false_eq_true, if_false]
  rw [withRecord_eq, parts_arcount (p := ⟨p.head, p.arcount + 1, p.body⟩) ⟨hp.head, ha⟩, ← withRecord_eq]
  rw [memSlice_mid (a := p.head ++ beBytes 2 (p.arcount + 1) ++ p.body ++ ([0] ++ beBytes 2 24 ++ beBytes 2 255 ++ beBytes 4 0 ++ beBytes 2 83))
    (b := r.fields) (c := r.sig) (by simp [withRecord, Rec.bytes]) (by rw [hl]; simp [hp.head]; omega) (fields_length r).symm]
  rw [memSlice_mid (a := []) (b := p.head) (c := beBytes 2 (p.arcount + 1) ++ p.body ++ r.bytes) (by simp [withRecord]) (by simp) hp.head.symm]
  rw [memSlice_mid (a := p.head ++ beBytes 2 (p.arcount + 1)) (b := p.body) (c := r.bytes) (by simp [withRecord]) (by simp [hp.head])
    (by rw [hl]; omega)]
  simp [signedData, Parts.bytes]

theorem readRecord_eq (now : Int) {r : Rec} (hr : r.WF) : readRecord now (r.fields ++ r.sig) =
    .ok (if r.algorithm = 253 ∧ r.labels = 0 ∧ r.origTtl = 0 ∧ r.signer = 0 ∧ r.inception ≤ (now % 2 ^ 32).toNat ∧
        (now % 2 ^ 32).toNat ≤ r.expiration then some (r.sig, r.keyTag) else none) := by
  unfold readRecord
  rw [u16_mid (a := []) (n := 0) (c := [r.algorithm, r.labels] ++ beBytes 4 r.origTtl ++ beBytes 4 r.expiration ++ beBytes 4 r.inception ++
    beBytes 2 r.keyTag ++ [r.signer] ++ r.sig) (by simp [Rec.fields]) (by simp) (by omega)]
  rw [u8_mid (a := beBytes 2 0) (b := r.algorithm) (c := [r.labels] ++ beBytes 4 r.origTtl ++ beBytes 4 r.expiration ++ beBytes 4 r.inception ++
    beBytes 2 r.keyTag ++ [r.signer] ++ r.sig) (by simp [Rec.fields]) (by simp)]
  rw [u8_mid (a := beBytes 2 0 ++ [r.algorithm]) (b := r.labels) (c := beBytes 4 r.origTtl ++ beBytes 4 r.expiration ++ beBytes 4 r.inception ++
    beBytes 2 r.keyTag ++ [r.signer] ++ r.sig) (by simp [Rec.fields]) (by simp)]
  rw [u32_mid (a := beBytes 2 0 ++ [r.algorithm, r.labels]) (n := r.origTtl) (c := beBytes 4 r.expiration ++ beBytes 4 r.inception ++
    beBytes 2 r.keyTag ++ [r.signer] ++ r.sig) (by simp [Rec.fields]) (by simp) hr.origTtl]
  rw [u32_mid (a := beBytes 2 0 ++ [r.algorithm, r.labels] ++ beBytes 4 r.origTtl) (n := r.expiration) (c := beBytes 4 r.inception ++
    beBytes 2 r.keyTag ++ [r.signer] ++ r.sig) (by simp [Rec.fields]) (by simp) hr.expiration]
  rw [u32_mid (a := beBytes 2 0 ++ [r.algorithm, r.labels] ++ beBytes 4 r.origTtl ++ beBytes 4 r.expiration) (n := r.inception) (c :=
    beBytes 2 r.keyTag ++ [r.signer] ++ r.sig) (by simp [Rec.fields]) (by simp) hr.inception]
  rw [u16_mid (a := beBytes 2 0 ++ [r.algorithm, r.labels] ++ beBytes 4 r.origTtl ++ beBytes 4 r.expiration ++ beBytes 4 r.inception)
    (n := r.keyTag) (c := [r.signer] ++ r.sig) (by simp [Rec.fields]) (by simp) hr.keyTag]
  rw [u8_mid (a := beBytes 2 0 ++ [r.algorithm, r.labels] ++ beBytes 4 r.origTtl ++ beBytes 4 r.expiration ++ beBytes 4 r.inception ++
    beBytes 2 r.keyTag) (b := r.signer) (c := r.sig) (by simp [Rec.fields]) (by simp)]
  rw [memSlice_mid (a := r.fields) (b := r.sig) (c := []) (by simp) (fields_length r).symm hr.sig.symm]
  simp only [Out.bind_ok, Out.pure_eq]
  have e1 : ∀ (x : UInt8) (n : Nat) (hn : n < 256), x.toNat = n ↔ x = UInt8.ofNat n := by
    intro x n hn
    constructor
    · intro h; apply UInt8.toNat.inj; rw [h, UInt8.toNat_ofNat']; omega
    · rintro rfl; rw [UInt8.toNat_ofNat']; omega
  generalize (now % 2 ^ 32).toNat = t
  have a1 := e1 r.algorithm 253 (by omega)
  have a2 := e1 r.labels 0 (by omega)
  have a3 := e1 r.signer 0 (by omega)
  have c1 : UInt8.ofNat 253 = 253 := rfl
  have c2 : UInt8.ofNat 0 = 0 := rfl
  rw [c1] at a1
  rw [c2] at a2 a3
  rw [if_neg (by simp)]
  by_cases h1 : r.algorithm = 253
  · by_cases h2 : r.labels = 0
    · by_cases h3 : r.origTtl = 0
      · by_cases h4 : r.signer = 0
        · by_cases h5 : r.inception ≤ t
          · by_cases h6 : t ≤ r.expiration
            · rw [if_neg (by simp [h1]), if_neg (by simp [h2, h3]), if_neg (by simp [h4]), if_neg (by omega), if_neg (by omega),
                if_pos ⟨h1, h2, h3, h4, h5, h6⟩]
            · rw [if_neg (by simp [h1]), if_neg (by simp [h2, h3]), if_neg (by simp [h4]), if_neg (by omega), if_pos (by omega),
                if_neg (by simp [h6])]
          · rw [if_neg (by simp [h1]), if_neg (by simp [h2, h3]), if_neg (by simp [h4]), if_pos (by omega), if_neg (by simp [h5])]
        · rw [if_neg (by simp [h1]), if_neg (by simp [h2, h3]), if_pos (by rw [Ne, a3]; exact h4), if_neg (by simp [h4])]
      · rw [if_neg (by simp [h1]), if_pos (Or.inr h3), if_neg (by simp [h3])]
    · rw [if_neg (by simp [h1]), if_pos (Or.inl (by rw [Ne, a2]; exact h2)), if_neg (by simp [h2])]
  · rw [if_pos (by rw [Ne, a1]; exact h1), if_neg (by simp [h1])]

theorem getSig_signed (now : Int) {w : Bytes} {p : Parts} {r : Rec} (h : IsSigned w p r) : getSig now w =
    .ok (if r.algorithm = 253 ∧ r.labels = 0 ∧ r.origTtl = 0 ∧ r.signer = 0 ∧ r.inception ≤ (now % 2 ^ 32).toNat ∧
        (now % 2 ^ 32).toNat ≤ r.expiration then some (r.sig, r.keyTag) else none) := by
  unfold getSig
  rw [hasSig_signed h]
  obtain ⟨hp, ha, hr, rfl⟩ := h
  have hl := withRecord_length hp hr
  simp only [Out.bind_ok, Bool.not_true, Bool.false_eq_true, if_false]
  rw [memSlice_mid (a := p.head ++ beBytes 2 (p.arcount + 1) ++ p.body ++ ([0] ++ beBytes 2 24 ++ beBytes 2 255 ++ beBytes 4 0 ++ beBytes 2 83))
    (b := r.fields ++ r.sig) (c := []) (by simp [withRecord, Rec.bytes]) (by rw [hl]; simp [hp.head]; omega)
    (by simp [fields_length, hr.sig])]
  rw [Out.bind_ok, readRecord_eq now hr]

theorem record_eq (now : Int) (sig : Bytes) : record now sig = (recordAt now sig).bytes := by
  simp [record, Rec.bytes, Rec.fields, recordAt]

theorem recordAt_wf (now : Int) {sig : Bytes} (h : sig.length = 64) : (recordAt now sig).WF := by
  refine ⟨by simp [recordAt], ?_, ?_, by simp [recordAt], h⟩ <;> simp only [recordAt] <;> omega

end Verif.Sig0
