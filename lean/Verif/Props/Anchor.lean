import Verif.Model.DnssecEnv
import Verif.Spec.Anchor
import Verif.Props.Dnssec
import Verif.Props.Ecc
import Verif.Props.Sha256
/-
C75: the keys the program publishes, the trust anchor it gives its resolver, and the signatures it makes.
-/
namespace Verif.Props.Anchor
open Verif Verif.Model.Ecc Verif.DnssecEnv Verif.Spec.Anchor Verif.Lemmas.EccKeys Verif.Lemmas.EccSign Verif.Lemmas.EccVli
open Verif.Lemmas.EccLadder Verif.Dns Verif.Dnssec Verif.Spec.Dns Verif.Spec.DnsName Verif.Spec.Dnssec
open Verif.Spec.Ecc (Valid n p)

/-- The public keys, as src/dnssec.h has them in comments (there compressed). -/
def kskPub : Bytes := beBytes 32 kskX ++ beBytes 32 kskY
def zskPub : Bytes := beBytes 32 zskX ++ beBytes 32 zskY

theorem ksk_pub : makePubkey kskPriv = some kskPub := by
  rw [Ecc.C73_pubkey_partial rfl (by decide +kernel) (by decide +kernel) (by decide +kernel)]
  obtain ⟨h, e⟩ := ksk_point
  have hk : beNat kskPriv = 0x1c74c825c5b0f08cf6be846bfc93c423f03e3e1f6202fb2d96474b1520bbafad := by decide +kernel
  rw [hk, e, Spec.Ecc.encode, Ecc.F_cast (by decide +kernel), Ecc.F_cast (by decide +kernel)]
  rfl

theorem zsk_pub : makePubkey zskPriv = some zskPub := by
  rw [Ecc.C73_pubkey_partial rfl (by decide +kernel) (by decide +kernel) (by decide +kernel)]
  obtain ⟨h, e⟩ := zsk_point
  have hk : beNat zskPriv = 0x54276ff8604a3494c5c76d6651f14b289c7253ba636be4bfd7969308f48da47d := by decide +kernel
  rw [hk, e, Spec.Ecc.encode, Ecc.F_cast (by decide +kernel), Ecc.F_cast (by decide +kernel)]
  rfl

variable {al : Nat → Bool} {mem : Bytes} {rand : Nat → Option Vli} {qsort : List Bytes → List Bytes} {now : Int}

theorem ksk_mul : Spec.Ecc.encode (beNat kskPriv • Spec.Ecc.G) = some kskPub :=
  (Ecc.C73_pubkey_partial rfl (by decide +kernel) (by decide +kernel) (by decide +kernel)).symm.trans ksk_pub
theorem zsk_mul : Spec.Ecc.encode (beNat zskPriv • Spec.Ecc.G) = some zskPub :=
  (Ecc.C73_pubkey_partial rfl (by decide +kernel) (by decide +kernel) (by decide +kernel)).symm.trans zsk_pub

theorem dnskey_spec {priv pub : Bytes} (h : makePubkey priv = some pub) (b : Bool) : dnskeyCreate (env al mem rand qsort now) priv b =
    some ⟨[0x2e], 48, 1, 10800, some [.num (256 + if b then 1 else 0), .num 3, .num 13, .bytes pub]⟩ := by
  have : (env al mem rand qsort now).pubkey priv = some pub := h
  unfold dnskeyCreate
  rw [this]
  rfl

/-- The key-signing key and the zone-signing key the program publishes. -/
def kskRr : Rr := ⟨[0x2e], 48, 1, 10800, some [.num 257, .num 3, .num 13, .bytes kskPub]⟩
def zskRr : Rr := ⟨[0x2e], 48, 1, 10800, some [.num 256, .num 3, .num 13, .bytes zskPub]⟩

/-- C75. Both keys are always there, and are those of the private keys built in. -/
theorem C75_keys : ksk (env al mem rand qsort now) = .ok kskRr ∧ zsk (env al mem rand qsort now) = .ok zskRr ∧
    Spec.Ecc.encode (beNat kskPriv • Spec.Ecc.G) = some kskPub ∧ Spec.Ecc.encode (beNat zskPriv • Spec.Ecc.G) = some zskPub := by
  refine ⟨?_, ?_, ksk_mul, zsk_mul⟩
  · rw [ksk, dnskey_spec ksk_pub]; rfl
  · rw [zsk, dnskey_spec zsk_pub]; rfl

theorem env_H (hm : mem.length = 64) (d : Bytes) : (env al mem rand qsort now).H d = Spec.Sha256.sha256 d := by
  unfold env
  simp only [(Sha256.C63_oneshot hm al d).1]

/-- C75. The trust anchor the resolver is given is the DS record of the key-signing key the program publishes, and the
program's own DS record is the same. -/
theorem C75_anchor (hm : mem.length = 64) : ∃ tag digest, trustAnchor = dsText tag 13 2 digest ∧
    ds (env al mem rand qsort now) = .ok ⟨[0x2e], 43, 1, 10800, some [.num tag, .num 13, .num 2, .bytes digest]⟩ ∧
    digest = Spec.Sha256.sha256 ([0] ++ [1, 1, 3, 13] ++ kskPub) ∧
    tag = (words ([1, 1, 3, 13] ++ kskPub) + words ([1, 1, 3, 13] ++ kskPub) / 65536) % 65536 := by
  refine ⟨_, _, ?_, ?_, rfl, rfl⟩
  · decide +kernel
  · obtain ⟨b, rfl, h⟩ := Dnssec.C45_ds (E := env al mem rand qsort now) (pub := kskPub) C75_keys.1 rfl (by decide +kernel)
    rw [h, env_H hm]
    rfl

theorem kskPub_length : kskPub.length = 64 := by decide +kernel
theorem zskPub_length : zskPub.length = 64 := by decide +kernel

theorem good_key {pub : Bytes} (hp : pub.length = 64) {flags : Nat} (hf : flags < 65536) :
    Dnssec.GoodKey ⟨[0x2e], 48, 1, 10800, some [.num flags, .num 3, .num 13, .bytes pub]⟩ 13
      ((words (beBytes 2 flags ++ [3, 13] ++ pub) + words (beBytes 2 flags ++ [3, 13] ++ pub) / 65536) % 65536) := by
  refine ⟨⟨⟨⟨[], by simp only [OkName, OkLabel]; decide, rfl⟩, (by decide : 48 < 65536), (by decide : 1 < 65536), (by decide : 10800 < 4294967296), ⟨_, rfl, hf, (by decide : 3 < 256), (by decide : 13 < 256), trivial, trivial⟩⟩, ?_⟩, rfl,
    ⟨_, _, _, _, rfl, ⟨_, _, rfl, ⟨_, _, rfl, ⟨_, _, rfl, ⟨_, _, rfl, rfl, rfl⟩, rfl⟩, rfl⟩, ?_⟩, rfl⟩⟩
  · intro vs hv
    cases Option.some.inj hv
    show 2 + (1 + (1 + (pub.length + 0))) < 65536
    omega
  · simp

theorem sha256_length (d : Bytes) : (Spec.Sha256.sha256 d).length = 32 := by
  unfold Spec.Sha256.sha256
  simp [beBytes_length]

/-- What a section is after signing the records of one type in it, if `Q` is the public key and `tag` its tag: nothing
was signed, as there was no signature, or there is one RRSIG record more, with the type, TTL and number of labels of the
set, for two weeks on either side of now, and its signature is valid for the SHA-256 hash of its own fields and the
canonical rows of exactly those records, in order. It may have a second half of zero; then it is not valid. -/
def Signed (rand : Nat → Option Vli) (now : Int) (priv : Bytes) (tag : Nat) (Q : Spec.Ecc.Point) (ls : List Bytes) (type ttl : Nat) (rs rs' : List Rr) : Prop :=
  ∃ (s : Rrsig) (d : Bytes) (rows : List Row), SigOk s ∧ s.typeCovered = type ∧ s.origTtl = ttl ∧ s.labels = ls.length ∧ s.algorithm = 13 ∧
    s.keyTag = tag ∧ (s.expiration : Int) = (now + 14 * 86400) % 2 ^ 32 ∧ (s.inception : Int) = (now - 14 * 86400) % 2 ^ 32 ∧
    s.signer = [0x2e] ∧ SigBytes s d ∧ (∀ x ∈ rows, IsRow x) ∧ rows.Pairwise (fun a b => a.rd < b.rd) ∧
    (∀ c, c ∈ rows.map (·.rr) ↔ ∃ r ∈ rs, r.type = type ∧ c = canonAt ttl r) ∧
    ((∀ sig, sign rand priv (Spec.Sha256.sha256 (d ++ (rows.map (·.bytes)).flatten)) ≠ .ok sig) ∧ rs' = rs ∨
      ∃ sig, rs' = rs ++ [⟨(text ls).map low, 46, 1, 10800, some { s with signature := sig }.vals⟩] ∧
        (beNat (sig.drop 32) ≠ 0 → Valid Q (Spec.Sha256.sha256 (d ++ (rows.map (·.bytes)).flatten)) sig))

theorem signed (hm : mem.length = 64) (hq : Sorts qsort) {rs : List Rr} (hn : rs.length < 255) {ls : List Bytes} (hls : OkName ls) {type cls ttl : Nat}
    (h : RrSet (text ls) type cls ttl (rs.filter fun r => r.type = type)) (h24 : type ≠ 24)
    (hl : ∀ i v, rand i = some v → v.length = 4) (hr : ∀ i v, rand i = some v → val v % n ≠ 0 ∧ val v % n ≠ 1)
    {pub : Bytes} (hp : pub.length = 64) {flags : Nat} (hf : flags < 65536) {priv : Bytes} (hpl : priv.length = 32) :
    ∃ rs', signType (env al mem rand qsort now) rs type ⟨[0x2e], 48, 1, 10800, some [.num flags, .num 3, .num 13, .bytes pub]⟩ priv = .ok rs' ∧
      Signed rand now priv ((words (beBytes 2 flags ++ [3, 13] ++ pub) + words (beBytes 2 flags ++ [3, 13] ++ pub) / 65536) % 65536)
        (beNat priv • Spec.Ecc.G) ls type ttl rs rs' := by
  obtain ⟨s, d, rows, a1, a2, a3, a4, a5, a6, a7, a8, a9, a10, a11, a12, a13, a14⟩ :=
    Dnssec.C45_section (E := env al mem rand qsort now) hq hn hls h h24 (good_key hp hf) priv
  have hsg : s.signer = [0x2e] := a9
  rw [env_H hm] at a14
  have he : ∀ hash, (env al mem rand qsort now).ecdsa priv hash = match sign rand priv hash with | .ok s => some s | _ => none := fun _ => rfl
  rw [he] at a14
  cases hs : sign rand priv (Spec.Sha256.sha256 (d ++ (rows.map (·.bytes)).flatten)) with
  | ok sig =>
    rw [hs] at a14
    exact ⟨_, a14, s, d, rows, a1, a2, a3, a4, a5, a6, a7, a8, hsg, a10, a11, a12, a13,
      .inr ⟨sig, rfl, Ecc.C74_valid_partial hpl (sha256_length _) hl hr hs⟩⟩
  | err e =>
    rw [hs] at a14
    exact ⟨_, a14, s, d, rows, a1, a2, a3, a4, a5, a6, a7, a8, hsg, a10, a11, a12, a13, .inl ⟨fun _ => by rw [hs]; simp, rfl⟩⟩
  | ub =>
    rw [hs] at a14
    exact ⟨_, a14, s, d, rows, a1, a2, a3, a4, a5, a6, a7, a8, hsg, a10, a11, a12, a13, .inl ⟨fun _ => by rw [hs]; simp, rfl⟩⟩

/-- C75. Signing with either key gives a section whose new RRSIG record verifies under the key published for it, whose
tag it carries, unless a number drawn is 0 or 1 modulo `n` or the second half of the signature is zero. -/
theorem C75_rrsig_partial (hm : mem.length = 64) (hq : Sorts qsort) {rs : List Rr} (hn : rs.length < 255) {ls : List Bytes} (hls : OkName ls)
    {type cls ttl : Nat} (h : RrSet (text ls) type cls ttl (rs.filter fun r => r.type = type)) (h24 : type ≠ 24)
    (hl : ∀ i v, rand i = some v → v.length = 4) (hr : ∀ i v, rand i = some v → val v % n ≠ 0 ∧ val v % n ≠ 1) :
    (∃ Q rs', Spec.Ecc.encode Q = some kskPub ∧ signKsk (env al mem rand qsort now) rs type = .ok rs' ∧
      Signed rand now kskPriv 35215 Q ls type ttl rs rs') ∧
    (∃ Q rs', Spec.Ecc.encode Q = some zskPub ∧ signZsk (env al mem rand qsort now) rs type = .ok rs' ∧
      Signed rand now zskPriv 60944 Q ls type ttl rs rs') := by
  have tk : (words (beBytes 2 257 ++ [3, 13] ++ kskPub) + words (beBytes 2 257 ++ [3, 13] ++ kskPub) / 65536) % 65536 = 35215 := by decide +kernel
  have tz : (words (beBytes 2 256 ++ [3, 13] ++ zskPub) + words (beBytes 2 256 ++ [3, 13] ++ zskPub) / 65536) % 65536 = 60944 := by decide +kernel
  obtain ⟨k, kr, ks⟩ := signed (al := al) (now := now) hm hq hn hls h h24 hl hr kskPub_length (flags := 257) (by decide) (priv := kskPriv) rfl
  obtain ⟨z, zr, zs⟩ := signed (al := al) (now := now) hm hq hn hls h h24 hl hr zskPub_length (flags := 256) (by decide) (priv := zskPriv) rfl
  rw [tk] at ks
  rw [tz] at zs
  refine ⟨⟨_, k, ksk_mul, ?_, ks⟩, ⟨_, z, zsk_mul, ?_, zs⟩⟩
  · rw [signKsk, C75_keys.1]; exact kr
  · rw [signZsk, C75_keys.2.1]; exact zr

/-- With 2 drawn, the name servers in the section of Verif/Props/Dnssec.lean get a signature. -/
example : ∃ Q rs', Spec.Ecc.encode Q = some zskPub ∧
    signZsk (env (fun _ => true) (List.replicate 64 0) (fun _ => some [2, 0, 0, 0]) Dnssec.isort 1600000000) Dnssec.sect 2 = .ok rs' ∧
    rs'.length = 5 ∧ Signed (fun _ => some [2, 0, 0, 0]) 1600000000 zskPriv 60944 Q [[0x61]] 2 21600 Dnssec.sect rs' := by
  have hn := n_eq
  have v1 : val [2, 0, 0, 0] = 2 := rfl
  have v2 : val [2, 0, 0, 0] % n = 2 := by rw [v1, Nat.mod_eq_of_lt (by omega)]
  obtain ⟨-, Q, rs', h1, h2, h3⟩ := C75_rrsig_partial (al := fun _ => true) (mem := List.replicate 64 0) (rand := fun _ => some [2, 0, 0, 0])
    (now := 1600000000) rfl Dnssec.isort_sorts (rs := Dnssec.sect) (by decide) (ls := [[0x61]]) (by simp only [OkName, OkLabel]; decide)
    Dnssec.sect_set (by decide) (by intro i v h; cases h; rfl) (by intro i v h; cases h; omega)
  refine ⟨Q, rs', h1, h2, ?_, h3⟩
  obtain ⟨s, d, rows, -, -, -, -, -, -, -, -, -, -, -, -, -, ⟨h, -⟩ | ⟨sig, h, -⟩⟩ := h3
  · obtain ⟨sig, hs⟩ := Ecc.C74_signs (rand := fun _ => some [2, 0, 0, 0]) zskPriv (Spec.Sha256.sha256 (d ++ (rows.map (·.bytes)).flatten))
      rfl rfl (by omega) (by omega) (by omega) (by
        intro x y h e
        obtain ⟨h', e'⟩ := two_point
        rw [v1, e', WeierstrassCurve.Affine.Point.some.injEq] at e
        rw [← e.1, Ecc.F_cast (by decide +kernel)]
        decide +kernel)
    exact absurd hs (h sig)
  · rw [h]; rfl

end Verif.Props.Anchor
