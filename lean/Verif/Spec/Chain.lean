import Verif.Spec.Difficulty
import Verif.Base
/-
The header chain rules of the network, over plain numbers and lists of blocks
(newest first). Nothing here refers to the model of src/chain.c.
-/
namespace Verif.Spec.Chain
open Verif.Spec

structure Block where
  hash : Bytes
  prev : Bytes
  time : Nat
  bits : Nat
  height : Nat
  work : Nat
  deriving DecidableEq

/-- Network constants. -/
structure Rules where
  powBits : Nat        -- minimum difficulty, compact
  powLimit : Nat       -- minimum difficulty, as a target
  noRetarget : Bool    -- difficulty never changes (regtest)
  targetReset : Bool   -- minimum difficulty after a 20 minute gap (testnet)

/-- `m` is the (upper) median of `l`. -/
def IsMedian (m : Nat) (l : List Nat) : Prop :=
  m ∈ l ∧ l.countP (· < m) ≤ l.length / 2 ∧ l.length / 2 < l.countP (· ≤ m)

/-- Of three consecutive blocks `x`, `y`, `z` (oldest first), the one with the
median time; `y` when it is a median; on a tie between `x` and `z` the newer if `y`
is later than both and the older otherwise. -/
def middle (x y z : Block) : Block :=
  if (x.time ≤ y.time ∧ y.time ≤ z.time) ∨ (z.time ≤ y.time ∧ y.time ≤ x.time) then y
  else if x.time < y.time then (if x.time ≤ z.time then z else x)
  else (if x.time ≤ z.time then x else z)

/-- `c` is the compact form of target `t`: byte length and top three bytes, with
the mantissa shifted down when its top bit is set. -/
def IsCompact (t c : Nat) : Prop :=
  (t = 0 ∧ c = 0) ∨
  ∃ e m, 1 ≤ e ∧ 256 ^ (e - 1) ≤ t ∧ t < 256 ^ e ∧
    m = (if e ≤ 3 then t * 256 ^ (3 - e) else t / 256 ^ (e - 3)) ∧
    c = (if 2 ^ 23 ≤ m then (e + 1) * 2 ^ 24 + m / 256 else e * 2 ^ 24 + m)

/-- Elapsed seconds limited to the range six hours to four days. -/
def clampSpan (s : Int) : Nat := (max 21600 (min 345600 s)).toNat

/-- The difficulty that follows from the two reference blocks. -/
def Retarget (R : Rules) (first last : Block) (bits : Nat) : Prop :=
  let q := (last.work - first.work) * 600 / clampSpan ((last.time : Int) - first.time)
  let t := 2 ^ 256 / q - 1
  if q = 0 ∨ R.powLimit < t then bits = R.powBits else IsCompact t bits

/-- `bits` is the difficulty demanded of a block with the given time on top of
`chain` (newest first). -/
def Demanded (R : Rules) (time : Nat) (chain : List Block) (bits : Nat) : Prop :=
  ∃ prev, chain[0]? = some prev ∧
    if R.noRetarget ∨ (R.targetReset ∧ prev.time + 1200 < time) ∨ prev.height < 146 then
      bits = R.powBits
    else ∃ y x a b c, chain[1]? = some y ∧ chain[2]? = some x ∧
      chain[144]? = some c ∧ chain[145]? = some b ∧ chain[146]? = some a ∧
      Retarget R (middle a b c) (middle x y prev) bits

/-- Block `b` names the top of `chain` as its parent. -/
def Linked (b p : Block) : Prop := b.prev = p.hash ∧ b.height = p.height + 1

/-- Block `b` is a valid extension of `p :: l`. -/
structure Extends (R : Rules) (b p : Block) (l : List Block) : Prop where
  linked : Linked b p
  bits : Demanded R b.time (p :: l) b.bits
  later : ∃ m, IsMedian m (((p :: l).take 11).map (·.time)) ∧ m < b.time
  pow : ∃ t, Difficulty.expand b.bits = some t ∧ beNat b.hash ≤ t ∧
    b.work = (p.work + Difficulty.work t) % 2 ^ 256

/-- A list of blocks, newest first, in which every block is either part of the
trusted start of the node (the genesis block, or a checkpoint) or valid on top of
the blocks below it. -/
inductive ValidChain (R : Rules) (trusted : Block → Prop) : List Block → Prop
  | root {b : Block} : trusted b → ValidChain R trusted [b]
  | start {b p : Block} {l : List Block} : trusted b → Linked b p →
      ValidChain R trusted (p :: l) → ValidChain R trusted (b :: p :: l)
  | next {b p : Block} {l : List Block} : Extends R b p l →
      ValidChain R trusted (p :: l) → ValidChain R trusted (b :: p :: l)

end Verif.Spec.Chain
