import Verif.Spec.Chain
import Verif.Model.Chain
/-
How the chain specification reads the state of the model: a stored header as a
block, the network constants as rules, and the ancestor list of a header.
-/
namespace Verif.Chain
open Verif.Spec.Chain

def blk (e : Entry) : Block :=
  { hash := e.hash, prev := e.hdr.prevBlock, time := e.hdr.time, bits := e.hdr.bits,
    height := e.height, work := beNat e.work }

def rules (P : Params) : Rules :=
  { powBits := P.bits, powLimit := beNat P.limit, noRetarget := P.noRetarget,
    targetReset := P.targetReset }

/-- `l` is the list of `e` and its stored ancestors, newest first, down to one
whose parent is not stored. -/
inductive Path (m : HashMap) : Entry → List Entry → Prop
  | root {e : Entry} : AMap.get m e.hdr.prevBlock = none → Path m e [e]
  | step {e p : Entry} {l : List Entry} : AMap.get m e.hdr.prevBlock = some p → Path m p l →
      Path m e (e :: l)

/-- Offering headers one after the other, each with the clock value at that time. -/
def run (P : Params) (H : Header.Hdr → Bytes) : State → List (Int × Header.Hdr) → Out Unit State
  | s, [] => .ok s
  | s, (now, h) :: ops => (add P H s now h).bind fun r => run P H r.2 ops

end Verif.Chain
