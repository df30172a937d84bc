import Verif.Lemmas.Sig0
/-
C43: SIG(0) signing is recognised by the verifier.
-/
namespace Verif.Props.Sig0
open Verif.Sig0 Verif.Spec.Sig0

/-- Every message of 12 bytes or more is, in one way, a message without a SIG(0) record,
plus possibly such a record. -/
theorem plain_exists (w : Bytes) (h : 12 ≤ w.length) : ∃ p, Plain w p := by
  by_cases hs : ∃ p r, IsSigned w p r
  · obtain ⟨p, r, hs⟩ := hs
    exact ⟨p, .signed r hs⟩
  · obtain ⟨p, hp, rfl⟩ := parts w h
    exact ⟨p, .unsigned hp rfl fun q r hq => hs ⟨q, r, hq⟩⟩

/-- C43: recognition is exact and safe: every byte string is either recognised as signed,
and then it is some message with a counted SIG(0) record at its end, or it is not. -/
theorem C43_recognise (w : Bytes) : ∃ b, hasSig w = .ok b ∧ (b = true ↔ ∃ p r, IsSigned w p r) := hasSig_spec w

/-- C43: signing appends a record for the current time and counts it, in place of the record
that may already be there. The signature is over the record without signature and the
message without record. -/
theorem C43_sign (H : Bytes → Bytes) (signer : Bytes → Option Bytes) (hs : ∀ h s, signer h = some s → s.length = 64)
    (now : Int) (w : Bytes) (p : Parts) (h : Plain w p) :
    sign H signer now w = .ok (if p.arcount = 65535 then none else
      (signer (H (signedData p (recordAt now [])))).map fun sig => withRecord p (recordAt now sig)) := by
  have pre : ∀ sig, signedData p (recordAt now sig) = signedData p (recordAt now []) := fun sig => rfl
  have finish : ∀ (hp : p.WF) (o : Bytes), o = p.head ++ beBytes 2 ((p.arcount + 1) % 65536) ++ p.body →
      ((preimage (o ++ record now (List.replicate 64 0))).bind fun pre => match pre with
        | none => pure none
        | some q => match signer (H q) with
          | none => pure none
          | some sig => pure (some (o ++ record now sig))) =
      .ok (if p.arcount = 65535 then none else
        (signer (H (signedData p (recordAt now [])))).map fun sig => withRecord p (recordAt now sig)) := by
    intro hp o ho
    by_cases hmax : p.arcount = 65535
    · rw [if_pos hmax]
      have hno : hasSig (o ++ record now (List.replicate 64 0)) = .ok false := by
        obtain ⟨b, hb, hb'⟩ := hasSig_spec (o ++ record now (List.replicate 64 0))
        rw [hb]
        cases b with
        | false => rfl
        | true =>
          exfalso
          obtain ⟨q, r, hq, ha, hr, he⟩ := hb'.1 rfl
          have e1 : u16 (o ++ record now (List.replicate 64 0)) 10 = .ok 0 := by
            rw [ho, hmax]
            exact u16_mid (a := p.head) (n := 0) (c := p.body ++ record now (List.replicate 64 0)) (by simp) hp.head.symm (by omega)
          rw [he, withRecord_eq, parts_arcount (p := ⟨q.head, q.arcount + 1, q.body⟩) ⟨hq.head, ha⟩] at e1
          exact absurd (Out.ok.inj e1) (by simp)
      simp only [preimage, hno, Out.bind_ok]
      rfl
    · rw [if_neg hmax]
      have hlt : p.arcount + 1 < 65536 := by have := hp.arcount; omega
      have e : ∀ sig, o ++ record now sig = withRecord p (recordAt now sig) := by
        intro sig
        rw [record_eq, withRecord, ho, Nat.mod_eq_of_lt hlt]
      simp only [e]
      rw [preimage_signed ⟨hp, hlt, recordAt_wf now (by simp), rfl⟩, pre]
      simp only [Out.bind]
      cases signer (H (signedData p (recordAt now []))) <;> rfl
  have hlen : ¬ w.length < 12 := by
    cases h with
    | signed r h => obtain ⟨hp, _, hr, rfl⟩ := h; rw [withRecord_length hp hr]; omega
    | unsigned hp h _ => subst h; rw [parts_length hp]; omega
  unfold sign
  rw [if_neg hlen]
  cases h with
  | signed r h =>
    have hh := hasSig_signed h
    obtain ⟨hp, ha, hr, rfl⟩ := h
    rw [hh, withRecord_eq, parts_arcount (p := ⟨p.head, p.arcount + 1, p.body⟩) ⟨hp.head, ha⟩, ← withRecord_eq]
    simp only [Out.bind_ok, strip, if_true]
    have ht : (withRecord p r).take ((withRecord p r).length - 94) = p.head ++ beBytes 2 (p.arcount + 1) ++ p.body := by
      rw [withRecord_length hp hr, withRecord, List.take_append_of_le_length (by simp [hp.head]; omega)]
      exact List.take_of_length_le (by simp [hp.head]; omega)
    refine finish hp _ ?_
    rw [ht]
    have e : ((p.arcount + 1 + 1) % 65536 + 65535) % 65536 = (p.arcount + 1) % 65536 := by omega
    rw [e]
    simp [hp.head, List.drop_append, List.take_append]
  | unsigned hp hw no =>
    subst hw
    obtain ⟨b, hb, hb'⟩ := hasSig_spec p.bytes
    have : b = false := by
      cases b with
      | false => rfl
      | true => obtain ⟨q, r, hq⟩ := hb'.1 rfl; exact absurd hq (no q r)
    subst this
    have := parts_arcount hp []
    rw [List.append_nil] at this
    rw [hb, this]
    simp only [Out.bind_ok, strip, Bool.false_eq_true, if_false]
    refine finish hp _ ?_
    simp [Parts.bytes, hp.head, List.drop_append, List.take_append]

/-- C43: the signed message is 94 bytes longer than the message without a record, so it has
the same length as a message that had one, and it is recognised. -/
theorem C43_signed_message (now : Int) (p : Parts) (hp : p.WF) (ha : p.arcount + 1 < 65536) (sig : Bytes) (hs : sig.length = 64) :
    (withRecord p (recordAt now sig)).length = p.bytes.length + 94 ∧
    IsSigned (withRecord p (recordAt now sig)) p (recordAt now sig) ∧
    hasSig (withRecord p (recordAt now sig)) = .ok true ∧
    ∀ r, r.WF → (withRecord p r).length = (withRecord p (recordAt now sig)).length := by
  have h : IsSigned (withRecord p (recordAt now sig)) p (recordAt now sig) := ⟨hp, ha, recordAt_wf now hs, rfl⟩
  refine ⟨?_, h, hasSig_signed h, fun r hr => ?_⟩
  · rw [withRecord_length hp (recordAt_wf now hs), parts_length hp]
  · rw [withRecord_length hp (recordAt_wf now hs), withRecord_length hp hr]

/-- C43: the message without its record is determined by the message. -/
theorem C43_plain_unique (w : Bytes) (p q : Parts) (hp : Plain w p) (hq : Plain w q) : p = q := by
  have inj : ∀ {a b : Parts} {x y : Bytes}, a.head.length = 10 → b.head.length = 10 → a.arcount < 65536 → b.arcount < 65536 →
      a.bytes ++ x = b.bytes ++ y → x.length = y.length → a = b := by
    intro a b x y h1 h2 h3 h4 e hl
    have e' := (List.append_inj' e hl).1
    simp only [Parts.bytes, List.append_assoc] at e'
    obtain ⟨e1, e2⟩ := List.append_inj e' (by rw [h1, h2])
    obtain ⟨e3, e4⟩ := List.append_inj e2 (by simp)
    have e5 := congrArg beNat e3
    rw [beNat_beBytes_of_lt (by simpa using h3), beNat_beBytes_of_lt (by simpa using h4)] at e5
    cases a; cases b
    simp_all
  cases hp with
  | signed r hp =>
    cases hq with
    | signed s hq =>
      obtain ⟨p1, p2, p3, rfl⟩ := hp
      obtain ⟨q1, q2, q3, e⟩ := hq
      have := inj (a := ⟨p.head, p.arcount + 1, p.body⟩) (b := ⟨q.head, q.arcount + 1, q.body⟩) p1.head q1.head p2 q2 e
        (by rw [rec_length p3, rec_length q3])
      cases p; cases q
      simp_all
    | unsigned wf h no => exact absurd hp (no p r)
  | unsigned wf h no =>
    cases hq with
    | signed s hq => exact absurd hq (no q s)
    | unsigned wf' h' no' => exact inj (x := []) (y := []) wf.head wf'.head wf.arcount wf'.arcount (by rw [← h, ← h']) rfl

/-- C43: signing twice is signing once, later: nothing of the first record remains. -/
theorem C43_sign_twice (H : Bytes → Bytes) (signer : Bytes → Option Bytes) (hs : ∀ h s, signer h = some s → s.length = 64)
    (now later : Int) (w out : Bytes) (h : sign H signer now w = .ok (some out)) :
    sign H signer later out = sign H signer later w := by
  have hlen : 12 ≤ w.length := by
    rcases Nat.lt_or_ge w.length 12 with hl | hl
    · rw [sign, if_pos hl] at h; cases h
    · exact hl
  obtain ⟨p, hp⟩ := plain_exists w hlen
  rw [C43_sign H signer hs now w p hp] at h
  rw [C43_sign H signer hs later w p hp]
  have h := Out.ok.inj h
  by_cases hm : p.arcount = 65535
  · rw [if_pos hm] at h; cases h
  · rw [if_neg hm] at h
    cases hsig : signer (H (signedData p (recordAt now []))) with
    | none => rw [hsig] at h; cases h
    | some sig =>
      rw [hsig] at h
      simp only [Option.map_some, Option.some.injEq] at h
      have wf : p.WF := by
        cases hp with
        | signed r h => exact h.1
        | unsigned wf _ _ => exact wf
      have := C43_signed_message now p wf (by have := wf.arcount; omega) sig (hs _ _ hsig)
      rw [h] at this
      exact C43_sign H signer hs later out p (.signed _ this.2.1)

/-- C43: the digest does not depend on the signature bytes. -/
theorem C43_digest_ignores_signature (w : Bytes) (p : Parts) (r : Rec) (h : IsSigned w p r) (sig : Bytes) (hs : sig.length = 64) :
    preimage w = .ok (some (signedData p r)) ∧ preimage (withRecord p { r with sig := sig }) = preimage w := by
  refine ⟨preimage_signed h, ?_⟩
  rw [preimage_signed h]
  obtain ⟨hp, ha, hr, rfl⟩ := h
  exact preimage_signed (r := { r with sig := sig }) ⟨hp, ha, ⟨hr.origTtl, hr.expiration, hr.inception, hr.keyTag, hs⟩, rfl⟩

/-- C43: the digest depends on everything else: signed messages with the same digest input
are the same up to the signature bytes. -/
theorem C43_digest_binds (w w' : Bytes) (p p' : Parts) (r r' : Rec) (h : IsSigned w p r) (h' : IsSigned w' p' r')
    (e : preimage w = preimage w') : w.take (w.length - 64) = w'.take (w'.length - 64) := by
  rw [preimage_signed h, preimage_signed h'] at e
  simp only [Out.ok.injEq, Option.some.injEq] at e
  obtain ⟨hp, ha, hr, rfl⟩ := h
  obtain ⟨hp', ha', hr', rfl⟩ := h'
  obtain ⟨e1, e2⟩ := List.append_inj e (by rw [fields_length, fields_length])
  have key : ∀ (p : Parts) (r : Rec), p.WF → r.WF → (withRecord p r).take ((withRecord p r).length - 64) =
      p.head ++ beBytes 2 (p.arcount + 1) ++ p.body ++ ([0] ++ beBytes 2 24 ++ beBytes 2 255 ++ beBytes 4 0 ++ beBytes 2 83) ++ r.fields := by
    intro p r hp hr
    have : withRecord p r = p.head ++ beBytes 2 (p.arcount + 1) ++ p.body ++
        ([0] ++ beBytes 2 24 ++ beBytes 2 255 ++ beBytes 4 0 ++ beBytes 2 83) ++ r.fields ++ r.sig := by simp [withRecord, Rec.bytes]
    have hl := withRecord_length hp hr
    rw [hl, this, List.take_append_of_le_length (by simp [hp.head, fields_length]; omega)]
    exact List.take_of_length_le (by simp [hp.head, fields_length]; omega)
  rw [key p r hp hr, key p' r' hp' hr', e1]
  simp only [Parts.bytes, List.append_assoc] at e2
  obtain ⟨f1, f2⟩ := List.append_inj e2 (by rw [hp.head, hp'.head])
  obtain ⟨f3, f4⟩ := List.append_inj f2 (by simp)
  have f5 := congrArg beNat f3
  rw [beNat_beBytes_of_lt (by simpa using hp.arcount), beNat_beBytes_of_lt (by simpa using hp'.arcount)] at f5
  rw [f1, f4, f5]

/-- C43: the signature is handed out exactly in the window from six hours before to six
hours after the time of signing. (Between 1970-01-01 06:00 and 2106-02-07 00:28, where the
32-bit times do not wrap.) -/
theorem C43_window (now t : Int) (hn : 21600 ≤ now ∧ now + 21600 < 2 ^ 32) (ht : 0 ≤ t ∧ t < 2 ^ 32) (p : Parts) (hp : p.WF)
    (ha : p.arcount + 1 < 65536) (sig : Bytes) (hs : sig.length = 64) :
    getSig t (withRecord p (recordAt now sig)) =
      .ok (if now - 6 * 60 * 60 ≤ t ∧ t ≤ now + 6 * 60 * 60 then some (sig, 0) else none) := by
  rw [getSig_signed t (p := p) (r := recordAt now sig) ⟨hp, ha, recordAt_wf now hs, rfl⟩]
  congr 1
  have hiff : ((recordAt now sig).algorithm = 253 ∧ (recordAt now sig).labels = 0 ∧ (recordAt now sig).origTtl = 0 ∧ (recordAt now sig).signer = 0 ∧
      (recordAt now sig).inception ≤ (t % 2 ^ 32).toNat ∧ (t % 2 ^ 32).toNat ≤ (recordAt now sig).expiration) ↔
      (now - 6 * 60 * 60 ≤ t ∧ t ≤ now + 6 * 60 * 60) := by
    simp only [recordAt, true_and]
    omega
  by_cases hc : now - 6 * 60 * 60 ≤ t ∧ t ≤ now + 6 * 60 * 60
  · rw [if_pos hc, if_pos (hiff.2 hc)]; rfl
  · rw [if_neg hc, if_neg (fun h => hc (hiff.1 h))]

/-- C43: the verifier never reads outside the message and no assertion fails. -/
theorem C43_verify_safe (H : Bytes → Bytes) (check : Bytes → Bytes → Bool) (now : Int) (w : Bytes) :
    (∃ b, verify H check now w = .ok b) ∧ (∃ x, getSig now w = .ok x) ∧ (∃ x, preimage w = .ok x) := by
  obtain ⟨b, hb, hb'⟩ := hasSig_spec w
  cases b with
  | false => exact ⟨⟨false, by simp [verify, getSig, hb]⟩, ⟨none, by simp [getSig, hb]⟩, ⟨none, by simp [preimage, hb]⟩⟩
  | true =>
    obtain ⟨p, r, h⟩ := hb'.1 rfl
    refine ⟨?_, ⟨_, getSig_signed now h⟩, ⟨_, preimage_signed h⟩⟩
    unfold verify
    rw [getSig_signed now h, preimage_signed h]
    split <;> exact ⟨_, rfl⟩

/-- C43: what was signed verifies during the window, if the signature scheme accepts its own
signatures. -/
theorem C43_verifies (H : Bytes → Bytes) (signer : Bytes → Option Bytes) (check : Bytes → Bytes → Bool)
    (hs : ∀ h s, signer h = some s → s.length = 64) (hc : ∀ h s, signer h = some s → check h s = true)
    (now t : Int) (hn : 21600 ≤ now ∧ now + 21600 < 2 ^ 32) (ht : now - 6 * 60 * 60 ≤ t ∧ t ≤ now + 6 * 60 * 60)
    (w out : Bytes) (h : sign H signer now w = .ok (some out)) : verify H check t out = .ok true := by
  have hlen : 12 ≤ w.length := by
    rcases Nat.lt_or_ge w.length 12 with hl | hl
    · rw [sign, if_pos hl] at h; cases h
    · exact hl
  obtain ⟨p, hp⟩ := plain_exists w hlen
  rw [C43_sign H signer hs now w p hp] at h
  have h := Out.ok.inj h
  by_cases hm : p.arcount = 65535
  · rw [if_pos hm] at h; cases h
  · rw [if_neg hm] at h
    cases hsig : signer (H (signedData p (recordAt now []))) with
    | none => rw [hsig] at h; cases h
    | some sig =>
      rw [hsig] at h
      simp only [Option.map_some, Option.some.injEq] at h
      subst h
      have wf : p.WF := by
        cases hp with
        | signed r h => exact h.1
        | unsigned wf _ _ => exact wf
      have hlt : p.arcount + 1 < 65536 := by have := wf.arcount; omega
      unfold verify
      rw [C43_window now t hn (by omega) p wf hlt sig (hs _ _ hsig), if_pos ht,
        preimage_signed (C43_signed_message now p wf hlt sig (hs _ _ hsig)).2.1]
      show Out.ok (check (H (signedData p (recordAt now []))) sig) = _
      rw [hc _ _ hsig]

/-- A query with no additional records, and the same with one signature. -/
def exParts : Parts := { head := List.replicate 10 1, arcount := 0, body := [1, 2, 3] }
def exSigned : Bytes := withRecord exParts (recordAt 1700000000 (List.replicate 64 7))

example : exParts.WF ∧ exParts.bytes.length = 15 ∧ IsSigned exSigned exParts (recordAt 1700000000 (List.replicate 64 7)) :=
  ⟨⟨by decide, by decide⟩, by decide, ⟨by decide, by decide⟩, by decide, recordAt_wf _ (by decide), rfl⟩

theorem exParts_plain : Plain exParts.bytes exParts := by
  refine .unsigned ⟨by decide, by decide⟩ rfl ?_
  rintro q r ⟨hq, _, hr, he⟩
  have := congrArg List.length he
  rw [withRecord_length hq hr] at this
  have : exParts.bytes.length = 15 := by decide
  omega

example : sign (fun _ => []) (fun _ => some (List.replicate 64 7)) 1700000000 exParts.bytes = .ok (some exSigned) := by decide +kernel

end Verif.Props.Sig0
