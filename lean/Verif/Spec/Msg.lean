import Verif.Model.Msg
import Verif.Lemmas.Header
import Verif.Props.Addr
/-
What a well-formed P2P message is: every field has the width it has in the protocol, and
lists have at most the protocol's length.
-/
namespace Verif.Spec.Msg
open Verif.Msg

/-- Printable ASCII, tab, line feed or carriage return. -/
def Text (b : Bytes) : Prop :=
  ∀ c ∈ b, (32 ≤ c.toNat ∧ c.toNat ≤ 126) ∨ c.toNat = 9 ∨ c.toNat = 10 ∨ c.toNat = 13

def Fits : Msg → Prop
  | .version v => v.version < 2 ^ 32 ∧ v.services < 2 ^ 64 ∧ v.time < 2 ^ 64 ∧ Props.Addr.Fits v.remote ∧ v.nonce < 2 ^ 64 ∧
      v.agent.length ≤ 255 ∧ Text v.agent ∧ v.height < 2 ^ 32
  | .verack => True
  | .ping n => n < 2 ^ 64
  | .pong n => n < 2 ^ 64
  | .getaddr => True
  | .addr l => l.length ≤ 1000 ∧ ∀ a ∈ l, Props.Addr.Fits a
  | .getheaders l stop => l.length ≤ 64 ∧ (∀ h ∈ l, h.length = 32) ∧ stop.length = 32
  | .headers n l => n = l.length ∧ l.length ≤ 2000 ∧ ∀ h ∈ l, Header.WF h
  | .sendheaders => True
  | .getproof root key => root.length = 32 ∧ key.length = 32
  | .proof root key p => root.length = 32 ∧ key.length = 32 ∧ ∃ (s r : Bytes), Proof.read s = .ok (p, r)

/-- All messages but the one this node never writes. -/
def Written : Msg → Prop
  | .proof _ _ _ => False
  | _ => True

end Verif.Spec.Msg
