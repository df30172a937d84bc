import Verif.Model.Dns
import Verif.Model.Label
import Verif.Model.Req
/-
Model of the DNSSEC part of src/dns.c and of src/dnssec.c. SHA-256 (`H`), ECDSA over P-256 and
libc's qsort are parameters. Allocation succeeds. The clock is read once where C reads it
twice (src/dns.c:3107-3108).
-/
namespace Verif.Dnssec
open Verif.Bio Verif.DnsName Verif.Dns Verif.Label

/-- What is outside the program: SHA-256, qsort with raw_rr_cmp, the signature of a hash and the
public key for a private key, and hsk_now. -/
structure Env where
  H : Bytes → Bytes
  qsort : List Bytes → List Bytes
  ecdsa : Bytes → Bytes → Option Bytes
  pubkey : Bytes → Option Bytes
  now : Int

/-- hsk_dns_rd_encode (src/dns.c:1872-1895). -/
def encodeRd (type : Nat) (rd : List Val) : Out Unit Bytes :=
  (wRd none type rd 0 []).bind fun n => (wRd (some ⟨n.1, false⟩) type rd 0 []).bind fun x => (memSlice x.2.1 0 n.1).bind fun b => .ok b

/-- hsk_dns_rr_clone (src/dns.c:870-890). -/
def cloneRr (r : Rr) : Out Unit Rr := (encodeRr r).bind fun b => decodeRr b

/-! ### Keys -/

/-- The loop of hsk_dns_dnskey_keytag (src/dns.c:2895-2902), over uint32_t; `odd` is `i & 1`. -/
def tagLoop : Bytes → Bool → Nat → Nat
  | [], _, tag => tag
  | c :: s, odd, tag => tagLoop s (!odd) ((tag + if odd then c.toNat else c.toNat * 256) % 4294967296)

/-- hsk_dns_dnskey_keytag (src/dns.c:2884-2910). -/
def keytag (rd : List Val) : Out Unit Nat :=
  (encodeRd 48 rd).bind fun data =>
    let tag := tagLoop data false 0
    .ok ((tag + tag / 65536 % 65536) % 4294967296 % 65536)

/-- hsk_dns_dnskey_create (src/dns.c:2933-2968) for the root zone. -/
def dnskeyCreate (E : Env) (priv : Bytes) (ksk : Bool) : Option Rr :=
  (E.pubkey priv).map fun pub => ⟨[0x2e], 48, 1, 10800, some [.num (256 + if ksk then 1 else 0), .num 3, .num 13, .bytes pub]⟩

/-- hsk_dns_ds_create (src/dns.c:2970-3030). -/
def dsCreate (E : Env) (key : Rr) : Out Unit Rr :=
  match key.type, key.rd with
  | 48, some rd =>
    (keytag rd).bind fun tag => (encodeRd 48 rd).bind fun data => (pack (some 256) (lowered key.name)).bind fun owner =>
      match rd with
      | [_, _, .num alg, _] => .ok ⟨lowered key.name, 43, key.cls, key.ttl, some [.num tag, .num alg, .num 2, .bytes (E.H (owner.2 ++ data))]⟩
      | _ => .ub
  | _, _ => .err ()

/-! ### Signing -/

/-- hsk_dns_rrsig_rd_t (src/dns.h:158-170). -/
structure Rrsig where
  typeCovered : Nat
  algorithm : Nat
  labels : Nat
  origTtl : Nat
  expiration : Nat
  inception : Nat
  keyTag : Nat
  signer : Bytes
  signature : Bytes
  deriving DecidableEq, Repr

/-- The fields in the order of `writeLayout`. -/
def Rrsig.vals (s : Rrsig) : List Val :=
  [.num s.typeCovered, .num s.algorithm, .num s.labels, .num s.origTtl, .num s.expiration, .num s.inception, .num s.keyTag, .name s.signer, .bytes s.signature]

/-- hsk_dns_rrsig_tbs (src/dns.c:2912-2931). -/
def tbs (s : Rrsig) : Out Unit Bytes := encodeRd 46 { s with signer := lowered s.signer, signature := [] }.vals

def lowerVal : Val → Val
  | .name s => .name (lowered s)
  | v => v

/-- The names in the record data (src/dns.c:3199-3227). The data of a SIG record has no fields;
they are accessed as those of an RRSIG record. -/
def lowerRd (type : Nat) (rd : List Val) : Out Unit (List Val) :=
  if type = 24 then .ub
  else if type = 2 ∨ type = 5 ∨ type = 6 ∨ type = 12 ∨ type = 15 ∨ type = 46 ∨ type = 33 ∨ type = 39 then .ok (rd.map lowerVal)
  else .ok rd

/-- One record as it is signed (src/dns.c:3188-3238). -/
def rawRr (ttl : Nat) (r : Rr) : Out Unit Bytes :=
  (cloneRr r).bind fun c =>
    match c.rd with
    | none => .ub
    | some rd => (lowerRd c.type rd).bind fun rd => encodeRr { c with name := lowered c.name, ttl := ttl, rd := some rd }

/-- The loop over the records (src/dns.c:3188-3239). -/
def rawRrs (ttl : Nat) : List Rr → Out Unit (List Bytes)
  | [] => .ok []
  | r :: rs => (rawRr ttl r).bind fun b => (rawRrs ttl rs).bind fun bs => .ok (b :: bs)

/-- The part of a record that raw_rr_cmp compares (src/dns.c:3378-3395). Failed assertions are `ub`. -/
def rawKey (b : Bytes) : Out Unit Bytes :=
  match parse none b with
  | .ok r => if r.2.length < 10 then .ub else .ok (r.2.drop 10)
  | _ => .ub

/-- Comparison of the record data (src/dns.c:3397-3410). -/
def cmpBytes : Bytes → Bytes → Int
  | [], [] => 0
  | [], _ :: _ => -1
  | _ :: _, [] => 1
  | x :: xs, y :: ys => if x < y then -1 else if y < x then 1 else cmpBytes xs ys

/-- raw_rr_cmp (src/dns.c:3374-3411). -/
def rawCmp (a b : Bytes) : Out Unit Int := (rawKey a).bind fun x => (rawKey b).bind fun y => .ok (cmpBytes x y)

/-- Sorting (src/dns.c:3241): with two or more records, all of them are compared. -/
def sortRaw (E : Env) (l : List Bytes) : Out Unit (List Bytes) :=
  if 2 ≤ l.length ∧ (l.any fun b => (rawKey b) == .ub) then .ub else .ok (E.qsort l)

/-- The loop over the sorted records (src/dns.c:3252-3263): what goes into the hash. -/
def unique : Option Bytes → List Bytes → Bytes
  | _, [] => []
  | last, x :: xs => if last = some x then unique last xs else x ++ unique (some x) xs

/-- What hsk_dns_sighash hashes (src/dns.c:3164-3283). -/
def signedData (E : Env) (s : Rrsig) (rs : List Rr) : Out Unit Bytes :=
  if rs = [] then .err ()
  else (rawRrs s.origTtl rs).bind fun raw => (sortRaw E raw).bind fun raw => (tbs s).bind fun d => .ok (d ++ unique none raw)

/-- hsk_dns_sign_rrsig (src/dns.c:3118-3162); `s` is what the caller has filled in. -/
def signRrsig (E : Env) (priv : Bytes) (s : Rrsig) (rs : List Rr) : Out Unit Rrsig :=
  match rs with
  | [] => .err ()
  | r :: _ =>
    let s := { s with origTtl := r.ttl, typeCovered := r.type, labels := count r.name, signature := [] }
    (signedData E s rs).bind fun d =>
      match E.ecdsa priv (E.H d) with
      | none => .err ()
      | some sig => .ok { s with signature := sig }

/-- hsk_dns_sign_rrset (src/dns.c:3066-3116). -/
def signRrset (E : Env) (key : Rr) (priv : Bytes) (rs : List Rr) : Out Unit Rr :=
  match rs, key.type, key.rd with
  | r :: _, 48, some rd =>
    (keytag rd).bind fun tag =>
      match rd with
      | [_, _, .num alg, _] =>
        (signRrsig E priv ⟨0, alg, 0, 0, ((E.now + 1209600) % 4294967296).toNat, ((E.now - 1209600) % 4294967296).toNat, tag, lowered key.name, []⟩ rs).bind fun s =>
          .ok ⟨lowered r.name, 46, key.cls, key.ttl, some s.vals⟩
      | _ => .ub
  | _, _, _ => .err ()

/-- hsk_dns_sign_type (src/dns.c:3032-3064): the section afterwards. The callers ignore the result. -/
def signType (E : Env) (rs : List Rr) (type : Nat) (key : Rr) (priv : Bytes) : Out Unit (List Rr) :=
  if rs.length ≥ 255 then .ok rs
  else match signRrset E key priv (rs.filter fun r => r.type = type) with
    | .ub => .ub
    | .err _ => .ok rs
    | .ok sig => .ok (rs ++ [sig])

/-! ### The built-in keys -/

/-- hsk_dnssec_ksk (src/dnssec.h:9-11). -/
def kskPriv : Bytes :=
  [0x1c, 0x74, 0xc8, 0x25, 0xc5, 0xb0, 0xf0, 0x8c, 0xf6, 0xbe, 0x84, 0x6b, 0xfc, 0x93, 0xc4, 0x23,
   0xf0, 0x3e, 0x3e, 0x1f, 0x62, 0x02, 0xfb, 0x2d, 0x96, 0x47, 0x4b, 0x15, 0x20, 0xbb, 0xaf, 0xad]

/-- hsk_dnssec_zsk (src/dnssec.h:15-17). -/
def zskPriv : Bytes :=
  [0x54, 0x27, 0x6f, 0xf8, 0x60, 0x4a, 0x34, 0x94, 0xc5, 0xc7, 0x6d, 0x66, 0x51, 0xf1, 0x4b, 0x28,
   0x9c, 0x72, 0x53, 0xba, 0x63, 0x6b, 0xe4, 0xbf, 0xd7, 0x96, 0x93, 0x08, 0xf4, 0x8d, 0xa4, 0x7d]

/-- hsk_dnssec_get_ksk (src/dnssec.c:12-23). -/
def ksk (E : Env) : Out Unit Rr := match dnskeyCreate E kskPriv true with | some k => .ok k | none => .ub

/-- hsk_dnssec_get_zsk (src/dnssec.c:25-36). -/
def zsk (E : Env) : Out Unit Rr := match dnskeyCreate E zskPriv false with | some k => .ok k | none => .ub

/-- hsk_dnssec_get_ds (src/dnssec.c:38-47). -/
def ds (E : Env) : Out Unit Rr := (ksk E).bind fun k => match dsCreate E k with | .ok d => .ok d | _ => .ub

/-- hsk_dnssec_sign_ksk (src/dnssec.c:49-55). -/
def signKsk (E : Env) (rs : List Rr) (type : Nat) : Out Unit (List Rr) := (ksk E).bind fun k => signType E rs type k kskPriv

/-- hsk_dnssec_sign_zsk (src/dnssec.c:57-63). -/
def signZsk (E : Env) (rs : List Rr) (type : Nat) : Out Unit (List Rr) := (zsk E).bind fun k => signType E rs type k zskPriv

end Verif.Dnssec
