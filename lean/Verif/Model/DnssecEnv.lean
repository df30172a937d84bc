import Verif.Model.Dnssec
import Verif.Model.Ecc
import Verif.Model.Hash
/-
The program's own SHA-256 and ECDSA in the place of the parameters of Verif/Model/Dnssec.lean, and the trust anchor.
-/
namespace Verif.DnssecEnv
open Verif Verif.Model.Ecc

/-- The hash, the keys and the signatures of src/dns.c:2945 (hsk_ecc_make_pubkey), 3021-3025, 3246-3265 (SHA-256) and
3151 (hsk_ecc_sign). The hash is fed in pieces, which makes no difference (C63). `mem` is what the context of the hash
holds at first, `al` the alignment of its pointers, `rand` what the system's random numbers are. -/
def env (al : Nat → Bool) (mem : Bytes) (rand : Nat → Option Vli) (qsort : List Bytes → List Bytes) (now : Int) : Dnssec.Env where
  H d := match Hash.sha256 al mem d with | .ok h => h | _ => []
  qsort := qsort
  ecdsa priv hash := match sign rand priv hash with | .ok s => some s | _ => none
  pubkey := makePubkey
  now := now

/-- HSK_TRUST_ANCHOR (src/constants.h:35-36), which hsk_rs_open hands to the resolver library (src/rs.c:234). -/
def trustAnchor : Bytes :=
  ". DS 35215 13 2 ".toUTF8.toList ++ "7C50EA94A63AEECB65B510D1EAC1846C973A89D4AB292287D5A4D715136B57A3".toUTF8.toList

end Verif.DnssecEnv
