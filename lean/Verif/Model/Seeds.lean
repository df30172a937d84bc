import Verif.Model.Addrman
/-
Model of hsk_pool_set_seeds, hsk_pool_set_agent and hsk_pool_set_size of src/pool.c. Texts are without their
NUL.
-/
namespace Verif.Seeds
open Verif.Addr (Inet Addr Netaddr)
open Verif.Addrman (Man addEntry u64)

/-- What the calls of other parts yield: the conversion of addresses, and for the k-th address added the
adjusted clock and the random numbers. -/
structure Env where
  I : Inet
  now : Nat → Int
  rnd : Nat → Nat → Nat

/-- hsk_addrman_add_addr (src/addrmgr.c:226-235), as the k-th call. -/
def addAddr (e : Env) (k : Nat) (m : Man) (a : Addr) : Out Unit (Man × Bool) :=
  addEntry m { time := u64 (e.now k), services := 1, addr := a } false (e.now k) (e.rnd k)

/-- The body of the loop at the end of a piece (src/pool.c:266-292): whether the next piece starts afresh, how
many addresses were offered so far, and the address manager. The buffer has 129 bytes. -/
def piece (e : Env) (k : Nat) (m : Man) (seed : Bytes) : Out Unit (Bool × Nat × Man) :=
  if seed.length = 0 then .ok (true, k, m)
  else if seed.length ≥ Addr.maxHost then .ok (false, k, m)
  else (Addr.strcpy (Addr.maxHost + 1) seed).bind fun seed =>
    match Addr.fromString e.I seed 0 with
    | .err _ => .ok (false, k, m)
    | .ub => .ub
    | .ok a => (addAddr e k m a).bind fun (m', b) => .ok (b, k + 1, m')

/-- The loop (src/pool.c:264-293), `n` positions left. `i` is an `int`. -/
def seedsLoop (e : Env) (text : Bytes) : Nat → Nat → Nat → Nat → Man → Out Unit Man
  | 0, _, _, _, m => .ok m
  | n + 1, i, start, k, m =>
    let c := text.getD i 0
    (if c = 0x2c ∨ c = 0 then piece e k m ((text.drop start).take (i - start)) else .ok (false, k, m)).bind fun (b, k, m) =>
      if i ≥ 2 ^ 31 - 1 then .ub
      else seedsLoop e text n (i + 1) (if b then i + 1 else start) k m

/-- hsk_pool_set_seeds (src/pool.c:250-296). It always returns `true`. -/
def setSeeds (e : Env) (m : Man) : Option Bytes → Out Unit Man
  | none => .ok m
  | some text => seedsLoop e text (text.length + 1) 0 0 0 m

/-- HSK_MAX_AGENT (src/pool.h:30). -/
def maxAgent : Nat := 255

/-- `strcat` into a buffer of `size` bytes. -/
def strcat (size : Nat) (a b : Bytes) : Out Unit Bytes := if a.length + b.length + 1 ≤ size then .ok (a ++ b) else .ub

/-- hsk_pool_set_agent (src/pool.c:298-320); `base` is the text in the buffer of 256 bytes (src/pool.c:176-177), `err` is `false`. -/
def setAgent (base : Bytes) : Option Bytes → Out Unit Bytes
  | none => .ok base
  | some ua =>
    if (Addr.strchr 0x2f ua).isSome then .err ()
    else if base.length + ua.length + 1 > maxAgent then .err ()
    else (strcat 256 base ua).bind fun a => strcat 256 a [0x2f]

/-- hsk_pool_set_size (src/pool.c:238-248). -/
def setSize (n : Int) : Option Nat := if n ≤ 0 ∨ n > 1000 then none else some n.toNat

end Verif.Seeds
