import Verif.Model.Words
/-
Model of src/siphash.c and of src/error.c. Both are part of the library; the daemon calls only the second.
-/
namespace Verif.Siphash
open Verif.Words

/-- The variables `v0` to `v3`. -/
structure V where
  v0 : UInt64
  v1 : UInt64
  v2 : UInt64
  v3 : UInt64

/-- ROTL (src/siphash.c:9). -/
def rotl (x b : UInt64) : UInt64 := (x <<< b) ||| (x >>> (64 - b))

/-- SIPROUND (src/siphash.c:11-18), one statement after the other. -/
def sipround (v : V) : V :=
  let v0 := v.v0 + v.v1
  let v1 := rotl v.v1 13
  let v1 := v1 ^^^ v0
  let v0 := rotl v0 32
  let v2 := v.v2 + v.v3
  let v3 := rotl v.v3 16
  let v3 := v3 ^^^ v2
  let v0 := v0 + v3
  let v3 := rotl v3 21
  let v3 := v3 ^^^ v0
  let v2 := v2 + v1
  let v1 := rotl v1 17
  let v1 := v1 ^^^ v2
  let v2 := rotl v2 32
  ⟨v0, v1, v2, v3⟩

/-- read64 (src/siphash.c:20-37) at the place `p`, on a little-endian machine. -/
def read64 (mem : Bytes) (p : Nat) : Out Unit UInt64 := if p + 8 ≤ mem.length then .ok (ld64 (mem.drop p)) else .ub

/-- `data[i]`. -/
def byte (mem : Bytes) (i : Nat) : Out Unit UInt64 := match mem[i]? with
  | some b => .ok b.toUInt64
  | none => .ub

/-- The loop (src/siphash.c:60-67), with the number of turns left and the place of `data`. -/
def blocksLoop (mem : Bytes) : Nat → Nat → V → Out Unit (Nat × V)
  | 0, p, v => .ok (p, v)
  | n + 1, p, v =>
    (read64 mem p).bind fun d =>
    let v := { v with v3 := v.v3 ^^^ d }
    let v := sipround v
    let v := sipround v
    blocksLoop mem n (p + 8) { v with v0 := v.v0 ^^^ d }

/-- The cases of the switch (src/siphash.c:69-87): the one for `j + 1` and those it falls through to. -/
def tail (mem : Bytes) (p : Nat) : Nat → UInt64 → Out Unit UInt64
  | 0, f0 => .ok f0
  | j + 1, f0 => (byte mem (p + j)).bind fun d => tail mem p j (f0 ||| (d <<< (UInt64.ofNat (8 * j))))

/-- The end that the three functions have in common (src/siphash.c:89-102, src/siphash.c:121-134, src/siphash.c:151-164). -/
def finish (v : V) (f0 : UInt64) : UInt64 :=
  let f1 : UInt64 := 0xff
  let v := { v with v3 := v.v3 ^^^ f0 }
  let v := sipround v
  let v := sipround v
  let v := { v with v0 := v.v0 ^^^ f0 }
  let v := { v with v2 := v.v2 ^^^ f1 }
  let v := sipround v
  let v := sipround v
  let v := sipround v
  let v := sipround v
  v.v0 ^^^ v.v1 ^^^ v.v2 ^^^ v.v3

/-- The start (src/siphash.c:46-58, src/siphash.c:107-119). -/
def start (key : Bytes) : Out Unit V :=
  (read64 key 0).bind fun k0 => (read64 key 8).bind fun k1 =>
    .ok ⟨k0 ^^^ 0x736f6d6570736575, k1 ^^^ 0x646f72616e646f6d, k0 ^^^ 0x6c7967656e657261, k1 ^^^ 0x7465646279746573⟩

/-- hsk_siphash (src/siphash.c:39-103, src/siphash.c:167-170) of `len` bytes at `mem`. The number of blocks is of 32 bits. -/
def siphash (mem : Bytes) (len : Nat) (key : Bytes) : Out Unit UInt64 :=
  let blocks := len / 8 % 2 ^ 32
  let f0 : UInt64 := (UInt64.ofNat len) <<< 56
  (start key).bind fun v => (blocksLoop mem blocks 0 v).bind fun (p, v) =>
    (tail mem p (len % 8) f0).bind fun f0 => .ok (finish v f0)

/-- hsk_siphash64 (src/siphash.c:105-135, src/siphash.c:177-180). -/
def siphash64 (num : UInt64) (key : Bytes) : Out Unit UInt64 := (start key).bind fun v => .ok (finish v num)

/-- hsk_siphash32 (src/siphash.c:172-175). -/
def siphash32 (num : UInt32) (key : Bytes) : Out Unit UInt32 := (siphash64 num.toUInt64 key).bind fun h => .ok h.toUInt32

/-- hsk_siphash64k256 (src/siphash.c:137-165, src/siphash.c:187-190). -/
def siphash64k256 (num : UInt64) (key : Bytes) : Out Unit UInt64 :=
  (read64 key 0).bind fun k0 => (read64 key 8).bind fun k1 => (read64 key 16).bind fun k2 => (read64 key 24).bind fun k3 =>
    .ok (finish ⟨k0, k1, k2, k3⟩ num)

/-- hsk_siphash32k256 (src/siphash.c:182-185). -/
def siphash32k256 (num : UInt32) (key : Bytes) : Out Unit UInt32 := (siphash64k256 num.toUInt64 key).bind fun h => .ok h.toUInt32

/-- errstrs (src/error.c:8-42). -/
def errstrs : List String :=
  ["ESUCCESS", "ENOMEM", "ETIMEOUT", "EFAILURE", "EBADARGS", "EENCODING", "EHASHMISMATCH", "ESAMEKEY", "ESAMEPATH", "ENEGDEPTH",
   "EPATHMISMATCH", "ETOODEEP", "EUNKNOWNERROR", "EMALFORMEDNODE", "EINVALIDNODE", "EEARLYEND", "ENORESULT", "EUNEXPECTEDNODE",
   "ERECORDMISMATCH", "ENEGTARGET", "EHIGHHASH", "ETIMETOONEW", "EDUPLICATE", "EDIPLICATEORPHAN", "ETIMETOOOLD", "EBADDDIFFBITS",
   "EORPHAN", "EACTONE", "EACTTWO", "EACTTHREE", "EBADSIZE", "EBADTAG", "EUNKNOWN"]

/-- HSK_MAXERROR (src/error.h:49). -/
def maxError : Int := 32

/-- hsk_strerror (src/error.c:44-49). -/
def strerror (code : Int) : Out Unit String :=
  let i := if code < 0 ∨ code > maxError then maxError else code
  match errstrs[i.toNat]? with
  | some s => .ok s
  | none => .ub

end Verif.Siphash
