import Verif.Model.Msg
/-
The wire format of the P2P protocol, read off a whole byte stream: each message is a
4-byte magic, a command byte, a 4-byte length of at most 8000000 (little endian) and that
many bytes of payload.
-/
namespace Verif.Spec.Framing
open Verif.Msg (Msg)

/-- How a stream ends: in the middle of a message, or with a header nobody may send. -/
inductive End where
  | inside (rest : Bytes)
  | bad
  deriving DecidableEq, Repr

def magicOf (s : Bytes) : Nat := leNat (s.take 4)
def cmdOf (s : Bytes) : Nat := leNat ((s.drop 4).take 1)
def sizeOf (s : Bytes) : Nat := leNat ((s.drop 5).take 4)

/-- The messages (command and payload) of a stream and what is left of it. -/
def cut (magic : Nat) (s : Bytes) : List (Nat × Bytes) × End :=
  if h : s.length < 9 then ([], .inside s)
  else if magicOf s ≠ magic ∨ sizeOf s > 8000000 then ([], .bad)
  else if s.length < 9 + sizeOf s then ([], .inside s)
  else
    let r := cut magic (s.drop (9 + sizeOf s))
    ((cmdOf s, (s.drop 9).take (sizeOf s)) :: r.1, r.2)
termination_by s.length
decreasing_by simp only [List.length_drop]; omega

/-- Messages are handled in order; one that cannot be decoded, or whose handler fails, is
the last. Commands outside the protocol are passed over. -/
def deliver {σ : Type} (handle : σ → Msg → Out Unit (Bool × σ)) : List (Nat × Bytes) → σ → Out Unit (Bool × σ)
  | [], s => .ok (true, s)
  | (cmd, payload) :: rest, s =>
    if cmd ∈ [0, 1, 2, 3, 4, 5, 10, 11, 12, 26, 27] then
      match Msg.decode cmd payload with
      | .ok m => (handle s m).bind fun r => if r.1 then deliver handle rest r.2 else .ok (false, r.2)
      | .err _ => .ok (false, s)
      | .ub => .ub
    else deliver handle rest s

/-- The meaning of a whole stream: `true` if the connection goes on. -/
def meaning {σ : Type} (magic : Nat) (handle : σ → Msg → Out Unit (Bool × σ)) (stream : Bytes) (s : σ) : Out Unit (Bool × σ) :=
  (deliver handle (cut magic stream).1 s).bind fun r => .ok (r.1 && decide ((cut magic stream).2 ≠ .bad), r.2)

end Verif.Spec.Framing
