import Verif.Model.AMap
import Verif.Model.Header
/-
Model of src/chain.c.

Simplifications:
- the hash tables are finite maps (refinement: C33); allocation succeeds;
- header objects are values: the two maps of the C chain share them, but after
  insertion nothing changes them except `next`, which only links the temporary
  lists of hsk_chain_reorganize and is reset there (src/chain.c:556-573);
- heights are unbounded naturals (the C field is uint32);
- logging, hsk_chain_progress (display only) and the write of the checkpoint
  file (modelled in Model/Store.lean) are left out of the state.
- loops that walk parents take fuel; running out of fuel, like a failed assert, is
  `ub`.
-/
namespace Verif.Chain
open Verif.Header

/-- Network constants (src/constants.h:44-239). -/
structure Params where
  bits : Nat            -- HSK_BITS
  limit : Bytes         -- HSK_LIMIT
  chainwork : Bytes     -- HSK_CHAINWORK
  noRetarget : Bool     -- HSK_NO_RETARGETTING
  targetReset : Bool    -- HSK_TARGET_RESET
  treeInterval : Nat    -- HSK_TREE_INTERVAL
  maxTipAge : Nat       -- HSK_MAX_TIP_AGE
  deriving Repr, DecidableEq

/-- A header with its cached hash (src/header.h:29-30). -/
structure Node where
  hdr : Hdr
  hash : Bytes
  deriving Repr, DecidableEq

/-- A header placed in the chain: `height`, `work` filled in
(src/header.h:31-32). -/
structure Entry where
  hdr : Hdr
  hash : Bytes
  height : Nat
  work : Bytes
  deriving Repr, DecidableEq

abbrev HashMap := AMap Bytes Entry

/-- hsk_chain_t (src/chain.h:16-28). -/
structure State where
  hashes : HashMap
  heights : AMap Nat Entry
  orphans : AMap Bytes Node
  prevs : AMap Bytes Node
  height : Nat
  initHeight : Nat
  tip : Entry
  synced : Bool
  deriving Repr, DecidableEq

/-- Result codes of hsk_chain_add (src/error.h:35-44). -/
inductive Rc
  | success | timeTooNew | duplicate | duplicateOrphan | negTarget | highHash
  | timeTooOld | badDiffBits | orphan
  deriving Repr, DecidableEq

/-- Reinterpretation of a uint64 as int64. -/
def toI64 (n : Nat) : Int := if n < 2 ^ 63 then (n : Int) else (n : Int) - 2 ^ 64
/-- Conversion of an int64 to uint64. -/
def toU64 (i : Int) : Nat := (i % 2 ^ 64).toNat

/-- hsk_chain_has_work (src/chain.c:244-247). -/
def hasWork (P : Params) (tip : Entry) : Bool := memcmp tip.work P.chainwork ≥ 0

/-- hsk_chain_maybe_sync (src/chain.c:249-264); `now` is hsk_timedata_now. -/
def maybeSync (P : Params) (now : Int) (s : State) : State :=
  if s.synced then s
  else if toI64 s.tip.hdr.time < now - P.maxTipAge then s
  else if !hasWork P s.tip then s
  else { s with synced := true }

/-- hsk_chain_init_genesis (src/chain.c:95-129) for a decoded genesis header;
`err` cannot happen, `ub` is the assert on calc_work. -/
def initGenesis (P : Params) (H : Hdr → Bytes) (now : Int) (g : Hdr) : Out Unit State :=
  match calcWork g.bits none with
  | .ok w =>
    let tip : Entry := { hdr := g, hash := H g, height := 0, work := w }
    .ok (maybeSync P now
      { hashes := AMap.set [] tip.hash tip, heights := AMap.set [] tip.height tip, orphans := [],
        prevs := [], height := tip.height, initHeight := tip.height, tip := tip, synced := false })
  | _ => .ub

/-- hsk_chain_get_by_height (src/chain.c:164-167). -/
def getByHeight (s : State) (n : Nat) : Option Entry := AMap.get s.heights n

/-- hsk_chain_safe_root (src/chain.c:179-210). -/
def safeHeight (P : Params) (s : State) : Nat :=
  let mod := s.height % P.treeInterval
  let mod := if mod ≥ 12 then 0 else mod
  s.height - mod

/-- hsk_chain_safe_root (src/chain.c:179-210); `ub` is the failed assert. -/
def safeRoot (P : Params) (s : State) : Out Unit Bytes :=
  match getByHeight s (safeHeight P s) with
  | some e => .ok e.hdr.nameRoot
  | none => .ub

/-- hsk_chain_resolve_orphan (src/chain.c:212-223). -/
def resolveOrphan (s : State) (hash : Bytes) : Option (Node × State) :=
  match AMap.get s.prevs hash with
  | none => none
  | some o => some (o, { s with prevs := AMap.del s.prevs o.hdr.prevBlock,
                                orphans := AMap.del s.orphans o.hash })

/-- The loop of hsk_chain_get_ancestor (src/chain.c:236-239). -/
def ancestorLoop (m : HashMap) (height : Nat) : Nat → Entry → Out Unit Entry
  | 0, _ => .ub
  | fuel + 1, h =>
    if h.height = height then .ok h
    else match AMap.get m h.hdr.prevBlock with
      | none => .ub
      | some p => ancestorLoop m height fuel p

/-- hsk_chain_get_ancestor (src/chain.c:225-242). -/
def getAncestor (m : HashMap) (hdr : Entry) (height : Nat) : Out Unit Entry :=
  if height ≤ hdr.height then ancestorLoop m height (hdr.height + 1) hdr else .ub

/-- The sampling loop of hsk_chain_get_mtp (src/chain.c:346-350). -/
def mtpTimes (m : HashMap) : Nat → Option Entry → List Int
  | 0, _ => []
  | _ + 1, none => []
  | n + 1, some e => toI64 e.hdr.time :: mtpTimes m n (AMap.get m e.hdr.prevBlock)

def orderedInsert (a : Int) : List Int → List Int
  | [] => [a]
  | b :: l => if a ≤ b then a :: b :: l else b :: orderedInsert a l

/-- The C library's qsort with qsort_cmp (src/chain.c:46-58): any correct sort of
integers. -/
def isort : List Int → List Int
  | [] => []
  | a :: l => orderedInsert a (isort l)

/-- hsk_chain_get_mtp (src/chain.c:334-355) for a non-null `prev`. -/
def mtp (m : HashMap) (prev : Entry) : Int :=
  let l := mtpTimes m 11 (some prev)
  (isort l).getD (l.length / 2) 0

/-- The three swaps of hsk_chain_suitable_block (src/chain.c:375-384). -/
def pickMiddle (x y z : Entry) : Entry :=
  let (x, z) := if x.hdr.time > z.hdr.time then (z, x) else (x, z)
  let (_, y) := if x.hdr.time > y.hdr.time then (y, x) else (x, y)
  let (y, _) := if y.hdr.time > z.hdr.time then (z, y) else (y, z)
  y

/-- hsk_chain_suitable_block (src/chain.c:364-385). -/
def suitableBlock (m : HashMap) (z : Entry) : Out Unit Entry :=
  match AMap.get m z.hdr.prevBlock with
  | none => .ub
  | some y => match AMap.get m y.hdr.prevBlock with
    | none => .ub
    | some x => .ok (pickMiddle x y z)

/-- A big number division whose result must exist. -/
def bnDiv (a b : Bn.Num) : Out Unit Bn.Num :=
  match Bn.div a b with
  | some q => .ok q
  | none => .ub

/-- The clamped time span of hsk_chain_retarget (src/chain.c:414-420). -/
def clampActual (lastTime firstTime : Nat) : Nat :=
  let actual : Int := toI64 ((lastTime + 2 ^ 64 - firstTime) % 2 ^ 64)
  let actual := if actual < 21600 then 21600 else actual
  let actual := if actual > 345600 then 345600 else actual
  actual.toNat

/-- hsk_chain_retarget (src/chain.c:387-448). -/
def retarget (P : Params) (first last : Entry) : Out Unit Nat :=
  if last.height ≥ first.height then do
    let d := Bn.sub (Bn.fromArray last.work) (Bn.fromArray first.work)
    let d := Bn.mul d (Bn.fromInt 600)
    let q ← bnDiv d (Bn.fromInt (clampActual last.hdr.time first.hdr.time))
    if Bn.isZero q then pure P.bits
    else do
      let t ← bnDiv (Bn.lshift (Bn.fromInt 1) 256) q
      let t := Bn.sub t (Bn.fromInt 1)
      if Bn.cmp t (Bn.fromArray P.limit) > 0 then pure P.bits
      else pure (powToBits (Bn.toArray t 32))
  else .ub

/-- hsk_chain_get_target (src/chain.c:450-483) for a non-null `prev`. -/
def getTarget (P : Params) (m : HashMap) (time : Int) (prev : Entry) : Out Unit Nat :=
  if P.noRetarget then .ok P.bits
  else if P.targetReset ∧ time > toI64 prev.hdr.time + 600 * 2 then .ok P.bits
  else if prev.height < 144 + 2 then .ok P.bits
  else do
    let last ← suitableBlock m prev
    let ancestor ← getAncestor m prev (prev.height - 144)
    let first ← suitableBlock m ancestor
    retarget P first last

/-- The inner loop of hsk_chain_find_fork (src/chain.c:494-498): outer `none` is
out of fuel, inner `none` the C NULL. -/
def lowerTo (m : HashMap) (height : Nat) : Nat → Entry → Option (Option Entry)
  | 0, _ => none
  | fuel + 1, longer =>
    if longer.height > height then
      match AMap.get m longer.hdr.prevBlock with
      | none => some none
      | some p => lowerTo m height fuel p
    else some (some longer)

/-- hsk_chain_find_fork (src/chain.c:485-510). -/
def findFork (m : HashMap) : Nat → Entry → Entry → Option (Option Entry)
  | 0, _, _ => none
  | fuel + 1, fork, longer =>
    if fork.hash = longer.hash then some (some fork)
    else match lowerTo m fork.height (longer.height + 1) longer with
      | none => none
      | some none => some none
      | some (some longer) =>
        if fork.hash = longer.hash then some (some fork)
        else match AMap.get m fork.hdr.prevBlock with
          | none => some none
          | some fork => findFork m fuel fork longer

/-- The list-building loops of hsk_chain_reorganize (src/chain.c:525-538,
543-554): the entries from `e` down to, excluding, `fork`. -/
def collectTo (m : HashMap) (fork : Entry) : Nat → Entry → Out Unit (List Entry)
  | 0, _ => .ub
  | fuel + 1, e =>
    if e.hash = fork.hash then .ok []
    else match AMap.get m e.hdr.prevBlock with
      | none => .ub
      | some p => (collectTo m fork fuel p).bind fun l => .ok (e :: l)

/-- hsk_chain_reorganize (src/chain.c:512-574): the new height index. -/
def reorganize (s : State) (competitor : Entry) : Out Unit (AMap Nat Entry) :=
  match findFork s.hashes (s.tip.height + 1) s.tip competitor with
  | some (some fork) => do
    let disconnect ← collectTo s.hashes fork (s.tip.height + 1) s.tip
    let connect ← collectTo s.hashes fork (competitor.height + 1) competitor
    let heights := disconnect.foldl (fun hs e => AMap.del hs e.height) s.heights
    pure (connect.tail.reverse.foldl (fun hs e => AMap.set hs e.height e) heights)
  | _ => .ub

/-- hsk_chain_save (src/chain.c:726-754), without the checkpoint flush. -/
def save (P : Params) (now : Int) (s : State) (e : Entry) : State :=
  maybeSync P now
    { s with hashes := AMap.set s.hashes e.hash e, heights := AMap.set s.heights e.height e,
             height := e.height, tip := e }

/-- hsk_chain_insert after the checks (src/chain.c:703-723). -/
def place (P : Params) (now : Int) (s : State) (e : Entry) : Out Unit State :=
  if memcmp e.work s.tip.work ≤ 0 then .ok { s with hashes := AMap.set s.hashes e.hash e }
  else if e.hdr.prevBlock ≠ s.tip.hash then
    (reorganize s e).bind fun hs => .ok (save P now { s with heights := hs } e)
  else .ok (save P now s e)

/-- hsk_chain_insert (src/chain.c:680-724): a reported error, or the new state and
the placed entry. -/
def insert (P : Params) (now : Int) (s : State) (n : Node) (prev : Entry) :
    Out Unit (Except Rc (State × Entry)) :=
  if toI64 n.hdr.time ≤ mtp s.hashes prev then .ok (.error .timeTooOld)
  else
    (getTarget P s.hashes (toI64 n.hdr.time) prev).bind fun bits =>
      if n.hdr.bits ≠ bits then .ok (.error .badDiffBits)
      else
        match calcWork n.hdr.bits (some prev.work) with
        | .ok w =>
          let e : Entry := { hdr := n.hdr, hash := n.hash, height := prev.height + 1, work := w }
          (place P now s e).bind fun s' => .ok (.ok (s', e))
        | _ => .ub

/-- The orphan loop of hsk_chain_add (src/chain.c:652-671). -/
def resolveLoop (P : Params) (now : Int) : Nat → State → Entry → Out Unit (Rc × State)
  | 0, _, _ => .ub
  | fuel + 1, s, prev =>
    match resolveOrphan s prev.hash with
    | none => .ok (.success, s)
    | some (o, s') =>
      (insert P now s' o prev).bind fun
        | .error rc => .ok (rc, s')
        | .ok (s'', e) => resolveLoop P now fuel s'' e

/-- Storing an orphan (src/chain.c:624-645). -/
def addOrphan (s : State) (n : Node) : State :=
  let s := if AMap.size s.orphans > 10000 then { s with prevs := [], orphans := [] } else s
  { s with orphans := AMap.set s.orphans n.hash n, prevs := AMap.set s.prevs n.hdr.prevBlock n }

/-- hsk_chain_add (src/chain.c:576-678). `H` is the header hash, `now` the
adjusted clock. -/
def add (P : Params) (H : Hdr → Bytes) (s : State) (now : Int) (h : Hdr) : Out Unit (Rc × State) :=
  let n : Node := { hdr := h, hash := H h }
  if h.time > toU64 (now + 7200) then .ok (.timeTooNew, s)
  else if AMap.has s.hashes n.hash then .ok (.duplicate, s)
  else if AMap.has s.orphans n.hash then .ok (.duplicateOrphan, s)
  else match verifyPowHash h.bits n.hash with
    | .error .negTarget => .ok (.negTarget, s)
    | .error .highHash => .ok (.highHash, s)
    | .ok () =>
      match AMap.get s.hashes h.prevBlock with
      | none => .ok (.orphan, addOrphan s n)
      | some prev =>
        (insert P now s n prev).bind fun
          | .error rc => .ok (rc, s)
          | .ok (s', e) => resolveLoop P now (AMap.size s'.prevs + 1) s' e

/-- The loop of hsk_chain_get_locator (src/chain.c:308-329). `acc` holds the
hashes written so far (newest first), so `i = acc.length`; a write past the 64
slots of msg->hashes (src/msg.h) is `ub`. The test `i == sizeof(msg->hashes) - 1`
compares with the size in bytes, 64 * 32 - 1. -/
def locatorLoop (s : State) : Nat → Nat → Nat → List Bytes → Out Unit (List Bytes)
  | 0, _, _, _ => .ub
  | fuel + 1, height, step, acc =>
    if height > 0 then
      let height := height - step
      let step := if acc.length > 10 then step * 2 else step
      let height := if acc.length = 64 * 32 - 1 then 0 else height
      match getByHeight s height with
      | none => locatorLoop s fuel height step acc
      | some e =>
        if acc.length < 64 then locatorLoop s fuel height step (e.hash :: acc) else .ub
    else .ok acc.reverse

/-- hsk_chain_get_locator (src/chain.c:297-332). -/
def locator (s : State) : Out Unit (List Bytes) :=
  locatorLoop s (s.height + 1) s.height 1 [s.tip.hash]

end Verif.Chain
