import Verif.Base
/-
SHA-3 as FIPS 202 defines it, on messages of whole bytes. A state is its 25 lanes of 64 bits; lane (x, y) is at
the place x + 5 y (3.1.2).
-/
namespace Verif.Spec.Sha3

/-- The lane (x, y), both modulo five. -/
def lane (A : List UInt64) (x y : Nat) : UInt64 := A.getD (x % 5 + 5 * (y % 5)) 0

/-- The state with the given lanes. -/
def state (f : Nat → Nat → UInt64) : List UInt64 := (List.range 25).map fun i => f (i % 5) (i / 5)

def rotl (x : UInt64) (n : Nat) : UInt64 := ⟨x.toBitVec.rotateLeft n⟩

/-- 3.2.1. -/
def theta (A : List UInt64) : List UInt64 :=
  let C := fun x => lane A x 0 ^^^ lane A x 1 ^^^ lane A x 2 ^^^ lane A x 3 ^^^ lane A x 4
  let D := fun x => C (x + 4) ^^^ rotl (C (x + 1)) 1
  state fun x y => lane A x y ^^^ D x

/-- 3.2.2: the lanes in the order in which `rho` visits them. -/
def path : Nat → Nat × Nat
  | 0 => (1, 0)
  | t + 1 => ((path t).2, (2 * (path t).1 + 3 * (path t).2) % 5)

/-- 3.2.2. -/
def rho (A : List UInt64) : List UInt64 :=
  (List.range 24).foldl (fun A' t => A'.set ((path t).1 + 5 * (path t).2) (rotl (lane A (path t).1 (path t).2) ((t + 1) * (t + 2) / 2 % 64))) A

/-- 3.2.3. -/
def pi (A : List UInt64) : List UInt64 := state fun x y => lane A (x + 3 * y) x

/-- 3.2.4. -/
def chi (A : List UInt64) : List UInt64 := state fun x y => lane A x y ^^^ (~~~lane A (x + 1) y &&& lane A (x + 2) y)

/-- 3.2.5, algorithm 5: one step of the shift register of eight bits, the first of which is at place 0. -/
def shift (R : List Bool) : List Bool :=
  let r := fun i => R.getD i false
  [r 7, r 0, r 1, r 2, r 3 != r 7, r 4 != r 7, r 5 != r 7, r 6]

def register : Nat → List Bool
  | 0 => [true, false, false, false, false, false, false, false]
  | t + 1 => shift (register t)

def rc (t : Nat) : Bool := (register (t % 255)).getD 0 false

/-- 3.2.5, algorithm 6: the round constants. -/
def RC (i : Nat) : UInt64 := UInt64.ofNat (((List.range 7).map fun j => if rc (j + 7 * i) then 2 ^ (2 ^ j - 1) else 0).sum)

/-- 3.2.5. -/
def iota (A : List UInt64) (i : Nat) : List UInt64 := A.set 0 (lane A 0 0 ^^^ RC i)

/-- 3.3, 3.4: Keccak-f[1600]. -/
def keccak (A : List UInt64) : List UInt64 := (List.range 24).foldl (fun A i => iota (chi (pi (rho (theta A)))) i) A

/-- 4: absorbing a block of the rate; the state's other bits stay. -/
def absorb (A : List UInt64) (block : Bytes) : List UInt64 :=
  keccak (A.mapIdx fun i w => w ^^^ UInt64.ofNat (leNat ((block.drop (8 * i)).take 8)))

/-- 6.1, 5.1, B.2: the padding to a multiple of `r` bytes, `q` bytes long: the suffix 01, then 10*1. -/
def pad (r : Nat) (m : Bytes) : Bytes :=
  let q := r - m.length % r
  m ++ if q = 1 then [0x86] else [0x06] ++ List.replicate (q - 2) 0 ++ [0x80]

/-- A message cut into so many blocks. -/
def split (r : Nat) : Nat → Bytes → List Bytes
  | 0, _ => []
  | n + 1, m => m.take r :: split r n (m.drop r)

/-- 4, 6.1: the digest of `d` bits; the capacity is `2 d`. -/
def sha3 (d : Nat) (m : Bytes) : Bytes :=
  let r := (1600 - 2 * d) / 8
  let A := (split r ((pad r m).length / r) (pad r m)).foldl absorb (List.replicate 25 0)
  (A.flatMap fun w => leBytes 8 w.toNat).take (d / 8)

end Verif.Spec.Sha3
