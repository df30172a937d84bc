import Verif.Base
/-
ChaCha20 as RFC 8439 defines it.
-/
namespace Verif.Spec.ChaCha

def rotl (x : UInt32) (n : Nat) : UInt32 := ⟨x.toBitVec.rotateLeft n⟩

/-- 2.1: the quarter round, on four numbers. -/
def quarter (a b c d : UInt32) : UInt32 × UInt32 × UInt32 × UInt32 :=
  let a := a + b; let d := rotl (d ^^^ a) 16
  let c := c + d; let b := rotl (b ^^^ c) 12
  let a := a + b; let d := rotl (d ^^^ a) 8
  let c := c + d; let b := rotl (b ^^^ c) 7
  (a, b, c, d)

/-- 2.2: the quarter round, on four places of the state of sixteen words. -/
def quarterAt (s : List UInt32) (x y z w : Nat) : List UInt32 :=
  let q := quarter (s.getD x 0) (s.getD y 0) (s.getD z 0) (s.getD w 0)
  (((s.set x q.1).set y q.2.1).set z q.2.2.1).set w q.2.2.2

/-- 2.3: quarter rounds on the columns of the 4 by 4 matrix, then on its diagonals. -/
def column (s : List UInt32) (i : Nat) : List UInt32 := quarterAt s i (4 + i) (8 + i) (12 + i)
def diagonal (s : List UInt32) (i : Nat) : List UInt32 := quarterAt s i (4 + (i + 1) % 4) (8 + (i + 2) % 4) (12 + (i + 3) % 4)
def innerBlock (s : List UInt32) : List UInt32 := [0, 1, 2, 3].foldl diagonal ([0, 1, 2, 3].foldl column s)

/-- A function `n` times. -/
def times (f : List UInt32 → List UInt32) : Nat → List UInt32 → List UInt32
  | 0, s => s
  | n + 1, s => f (times f n s)

/-- The words of a byte string. -/
def words (n : Nat) (b : Bytes) : List UInt32 := (List.range n).map fun i => UInt32.ofNat (leNat ((b.drop (4 * i)).take 4))

/-- 2.3: the state from key, counter and nonce. -/
def state (key : Bytes) (counter : Nat) (nonce : Bytes) : List UInt32 :=
  [0x61707865, 0x3320646e, 0x79622d32, 0x6b206574] ++ words 8 key ++ [UInt32.ofNat counter] ++ words 3 nonce

/-- 2.3: the block function. -/
def block (key : Bytes) (counter : Nat) (nonce : Bytes) : Bytes :=
  (List.zipWith (· + ·) (times innerBlock 10 (state key counter nonce)) (state key counter nonce)).flatMap fun w => leBytes 4 w.toNat

/-- 2.4: the byte of the key stream at a place; place 0 is the first byte of the block with counter 0. -/
def keyByte (key nonce : Bytes) (i : Nat) : UInt8 := (block key (i / 64) nonce).getD (i % 64) 0

/-- 2.4: a text encrypted (or decrypted) with the key stream from a place on. -/
def crypt (key nonce : Bytes) (start : Nat) (text : Bytes) : Bytes := text.mapIdx fun i b => b ^^^ keyByte key nonce (start + i)

end Verif.Spec.ChaCha
