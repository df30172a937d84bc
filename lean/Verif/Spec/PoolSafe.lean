import Verif.Spec.Pool
import Verif.Lemmas.Framing
import Verif.Props.Chain
/-
What C59 assumes, and which inputs are to blame if it fails.
-/
namespace Verif.Pool
open Verif.Spec.Pool
open Verif.Msg (Msg)
open Verif.Framing (Rep)
open Verif.Spec.Framing (cut)

/-- A chain that comes about from `c0` by offering it headers with the work they claim, at
times that are not off the scale. -/
structure Offered (e : Env) (g : Header.Hdr) (c0 c : Chain.State) : Prop where
  by_ : ∃ ops, Props.Chain.Plausible e.H g ops ∧ (∀ op ∈ ops, Worked e.H op.2) ∧ Chain.run e.P e.H c0 ops = .ok c

/-- What C59 assumes of the surroundings: the chain is one just started from the genesis
header `g`; no header hashes to what the genesis header names as its parent; the clock
shows times after 1970 and not off the scale; and no 2^32 headers in a row are found. -/
structure World (e : Env) (g : Header.Hdr) (c0 : Chain.State) : Prop where
  boot : Props.Chain.Booted e.P e.H g c0
  noLoop : ∀ h, e.H h ≠ g.prevBlock
  clock : ∀ t, 0 ≤ e.clock t ∧ e.clock t < 2 ^ 62
  height : ∀ c, Offered e g c0 c → c.height < 2 ^ 32

/-- Messages that can make the node misbehave: a version message with an agent of 255
characters or a time that is off the scale. -/
def Rude : Msg → Prop
  | .version v => 255 ≤ v.agent.length ∨ 2 ^ 62 ≤ v.time
  | _ => False

/-- Complete messages, command and payload, that can make the node misbehave: those, and an
empty payload of addr, getheaders or headers (C47_safe_partial). -/
def Provoking (fr : Nat × Bytes) : Prop :=
  (fr.2 = [] ∧ (fr.1 = 5 ∨ fr.1 = 10 ∨ fr.1 = 11)) ∨ ∃ m, Msg.decode fr.1 fr.2 = .ok m ∧ Rude m

/-- Events that can make the node misbehave: a lookup of a name of 256 bytes or more (which
hsk_ns never makes), and data by which such a message is completed. Here `pre` are the bytes
of an unfinished message that the peer has sent before. -/
def Provokes (e : Env) (p : Pool) : Ev → Prop
  | .resolve name _ => 256 ≤ name.length
  | .data id data => ∃ q ∈ p.peers, q.id = id ∧ q.st = .handshake ∧ ∃ pre, Rep e.magic q.frame pre ∧
      ∃ fr ∈ (cut e.magic (pre ++ data)).1, Provoking fr
  | _ => False

end Verif.Pool
