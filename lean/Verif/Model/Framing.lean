import Verif.Model.Msg
/-
Model of the message framing of src/pool.c: hsk_peer_on_read, hsk_peer_parse_hdr and
hsk_peer_parse. What is done with a decoded message is a parameter, a function on a state
`σ` that yields `true` for HSK_SUCCESS; Verif.Model.Pool supplies hsk_peer_handle_msg.
Allocation succeeds.
-/
namespace Verif.Framing
open Verif.Bio
open Verif.Msg (Msg)

/-- The fields msg_hdr, msg, msg_pos, msg_len and msg_cmd of a peer (src/pool.h:80-84):
`buf` is the filled part of `msg`, so msg_pos is its length; `need` is msg_len. -/
structure Frame where
  hdr : Bool
  buf : Bytes
  need : Nat
  cmd : Nat
  deriving DecidableEq, Repr

/-- As set by hsk_peer_init (src/pool.c:866-872) and at the end of hsk_peer_parse
(src/pool.c:1752-1756). -/
def fresh : Frame := { hdr := false, buf := [], need := 9, cmd := 0 }

/-- HSK_MAX_MESSAGE (src/constants.h:17). -/
def maxMessage : Nat := 8000000

/-- hsk_peer_parse_hdr (src/pool.c:1663-1714) on the buffered bytes `msg`; `err` is any
failure. -/
def parseHdr (magic : Nat) (msg : Bytes) : Out Unit Frame := do
  let (m, s) ← readU32 msg
  if m ≠ magic then .err ()
  else do
    let (cmd, s) ← readU8 s
    let (size, _) ← readU32 s
    if size > maxMessage then .err ()
    else pure { hdr := true, buf := [], need := size, cmd := cmd }

/-- The commands for which hsk_msg_str does not answer "unknown" (src/msg.c:359-399). -/
def known (cmd : Nat) : Bool :=
  cmd = 0 ∨ cmd = 1 ∨ cmd = 2 ∨ cmd = 3 ∨ cmd = 4 ∨ cmd = 5 ∨ cmd = 10 ∨ cmd = 11 ∨ cmd = 12 ∨ cmd = 26 ∨ cmd = 27

/-- What is done with a complete message (src/pool.c:1721-1744). -/
def body {σ : Type} (handle : σ → Msg → Out Unit (Bool × σ)) (cmd : Nat) (msg : Bytes) (s : σ) : Out Unit (Bool × σ) :=
  if known cmd then
    match Msg.decode cmd msg with
    | .ok m => handle s m
    | .err _ => .ok (false, s)
    | .ub => .ub
  else .ok (true, s)

/-- hsk_peer_parse (src/pool.c:1716-1759) with `msg` the full buffer. -/
def parse {σ : Type} (magic : Nat) (handle : σ → Msg → Out Unit (Bool × σ)) (f : Frame) (msg : Bytes) (s : σ) :
    Out Unit (Bool × Frame × σ) :=
  if f.hdr then (body handle f.cmd msg s).bind fun r => .ok (r.1, fresh, r.2)
  else match parseHdr magic msg with
    | .ok g => .ok (true, g, s)
    | .err _ => .ok (false, f, s)
    | .ub => .ub

/-- The loop of hsk_peer_on_read (src/pool.c:1647-1660); `false` is the early return, on
which the caller destroys the peer. The first argument bounds the rounds of the loop;
running out of it is `ub`, and Verif.Props.Framing shows that it does not happen. -/
def loop {σ : Type} (magic : Nat) (handle : σ → Msg → Out Unit (Bool × σ)) :
    Nat → Bytes → Frame → σ → Out Unit (Bool × Frame × σ)
  | 0, _, _, _ => .ub
  | n + 1, data, f, s =>
    if f.buf.length + data.length ≥ f.need then
      if f.buf.length > f.need then .ub
      else
        (parse magic handle f (f.buf ++ data.take (f.need - f.buf.length)) s).bind fun r =>
          if r.1 then loop magic handle n (data.drop (f.need - f.buf.length)) r.2.1 r.2.2 else .ok r
    else .ok (true, { f with buf := f.buf ++ data }, s)

/-- One call of hsk_peer_on_read past its guard (src/pool.c:1647-1660). -/
def feed {σ : Type} (magic : Nat) (handle : σ → Msg → Out Unit (Bool × σ)) (data : Bytes) (f : Frame) (s : σ) :
    Out Unit (Bool × Frame × σ) :=
  loop magic handle (2 * data.length + 3) data f s

/-- The successive reads of one connection: each chunk is what one read callback brings,
and after a failure there are no more (the peer is destroyed, src/pool.c:1653-1656). -/
def readAll {σ : Type} (magic : Nat) (handle : σ → Msg → Out Unit (Bool × σ)) :
    List Bytes → Frame → σ → Out Unit (Bool × Frame × σ)
  | [], f, s => .ok (true, f, s)
  | d :: ds, f, s => (feed magic handle d f s).bind fun r => if r.1 then readAll magic handle ds r.2.1 r.2.2 else .ok r

end Verif.Framing
