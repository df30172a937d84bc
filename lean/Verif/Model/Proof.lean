import Verif.Model.Bio
/-
Model of `src/proof-radix.c`: decoding and verification of name proofs.
Blake2b-256 is a parameter `H : Bytes → Bytes`.
-/
namespace Verif.Proof
open Verif.Bio

/-- Error codes returned by `hsk_proof_verify` (`src/error.h`). -/
inductive Err where
  | samePath | sameKey | negDepth | pathMismatch | tooDeep | hashMismatch | encoding
  deriving Repr, DecidableEq

/-- proof-radix.h:13-17 `hsk_proof_node_t`; `pfx` is the whole 32-byte array. -/
structure Node where
  pfx : Bytes
  pfxSize : Nat
  node : Bytes
  deriving Repr, DecidableEq

/-- proof-radix.h:19-32 `hsk_proof_t`; nullable pointers are options. The `nodes`
list stands for `nodes`/`node_count`. -/
structure Proof where
  type : Nat
  depth : Nat
  nodes : List Node
  pfx : Option Bytes
  pfxSize : Nat
  left : Option Bytes
  right : Option Bytes
  nxKey : Option Bytes
  nxHash : Option Bytes
  value : Option Bytes
  valueSize : Nat
  deriving Repr, DecidableEq

/-- proof-radix.h:7-10. -/
def DEADEND : Nat := 0
def SHORT : Nat := 1
def COLLISION : Nat := 2
def EXISTS : Nat := 3

/-- constants.h `HSK_MAX_DATA_SIZE`. -/
def maxDataSize : Nat := 668

/-- proof-radix.c:51-66 `hsk_proof_init`. -/
def init : Proof :=
  { type := DEADEND, depth := 0, nodes := [], pfx := none, pfxSize := 0, left := none,
    right := none, nxKey := none, nxHash := none, value := none, valueSize := 0 }

/-- proof-radix.c:17 `HSK_HAS_BIT(m, i)`: bit `i` counted from the most significant bit
of byte 0; touching a byte outside `m` is undefined. -/
def hasBit {ε : Type} (m : Bytes) (i : Nat) : Out ε Bool := do
  let b ← memGet m (i / 8)
  pure ((b.toNat >>> (7 - i % 8)) % 2 == 1)

/-- proof-radix.c:27-40: the one- or two-byte length. -/
def readBitlenRaw (s : Bytes) : Rd Nat := do
  let (byte, s) ← readU8 s
  if byte &&& 0x80 ≠ 0 then do
    let size := (byte - 0x80) * 256
    let (byte, s) ← readU8 s
    pure (size + byte, s)
  else pure (byte, s)

/-- proof-radix.c:23-49 `read_bitlen`: returns (bits, bytes). -/
def readBitlen (s : Bytes) : Rd (Nat × Nat) := do
  let (size, s) ← readBitlenRaw s
  if size = 0 ∨ size > 256 then .err ()
  else pure ((size, (size + 7) / 8), s)

/-- `read_bytes` into a fixed array of `cap` zero bytes (`calloc` at line 156): copying
more than `cap` bytes is undefined. Result: the array after the copy. -/
def readInto (cap size : Nat) (s : Bytes) : Rd Bytes := do
  let (b, s) ← readBytes size s
  if size > cap then .ub else pure (b ++ List.replicate (cap - size) 0, s)

/-- proof-radix.c:167-178: the optional prefix of one node (32 zero bytes and size 0
when the map bit is clear). -/
def readHead (bit : Bool) (s : Bytes) : Rd (Bytes × Nat) :=
  if bit then do
    let ((size, bytes), s) ← readBitlen s
    let (pfx, s) ← readInto 32 bytes s
    pure ((pfx, size), s)
  else pure ((List.replicate 32 0, 0), s)

/-- proof-radix.c:163-182: the node loop; `i` is the loop counter. -/
def readNodes (map : Bytes) : Nat → Nat → Bytes → Rd (List Node)
  | 0, _, s => pure ([], s)
  | left + 1, i, s => do
    let bit ← hasBit map i
    let ((pfx, size), s) ← readHead bit s
    let (node, s) ← readBytes 32 s
    let (rest, s) ← readNodes map left (i + 1) s
    pure ({ pfx := pfx, pfxSize := size, node := node } :: rest, s)

/-- proof-radix.c:126-244 `hsk_proof_read` on a freshly initialised proof. -/
def read (s : Bytes) : Rd Proof := do
  let (field, s) ← readU16 s
  let type := field / 2 ^ 14
  let depth := field % 2 ^ 14
  if depth > 256 then .err ()
  else do
    let (count, s) ← readU16 s
    if count > 256 then .err ()
    else do
      let bsize := (count + 7) / 8
      let (map, s) ← readBytes bsize s
      let (nodes, s) ← readNodes map count 0 s
      let p := { init with type := type, depth := depth, nodes := nodes }
      if type = DEADEND then pure (p, s)
      else if type = SHORT then do
        let ((size, bytes), s) ← readBitlen s
        let (pfx, s) ← readBytes bytes s
        let (left, s) ← readBytes 32 s
        let (right, s) ← readBytes 32 s
        pure ({ p with pfx := some pfx, pfxSize := size, left := some left,
                       right := some right }, s)
      else if type = COLLISION then do
        let (k, s) ← readBytes 32 s
        let (h, s) ← readBytes 32 s
        pure ({ p with nxKey := some k, nxHash := some h }, s)
      else if type = EXISTS then do
        let (vs, s) ← readU16 s
        if vs > maxDataSize then .err ()
        else do
          let (v, s) ← readBytes vs s
          pure ({ p with value := some v, valueSize := vs }, s)
      else .ub

/-- proof-radix.c:251-281 `hsk_proof_hash_internal`: the hashed bytes. -/
def internalPreimage {ε : Type} (pfx : Bytes) (pfxSize : Nat) (left right : Bytes) :
    Out ε Bytes :=
  if pfxSize = 0 then
    pure ([0x01] ++ left ++ right)
  else do
    let b ← memSlice pfx 0 ((pfxSize + 7) / 8)
    pure ([0x02] ++ writeU16 pfxSize ++ b ++ left ++ right)

/-- proof-radix.c:283-291 `hsk_proof_hash_leaf`: the hashed bytes. -/
def leafPreimage (key hash : Bytes) : Bytes := [0x00] ++ key ++ hash

/-- proof-radix.c:325-332: the comparison loop of `hsk_proof_has`, counting equal bits. -/
def hasLoop {ε : Type} (pfx key : Bytes) : Nat → Nat → Nat → Nat → Out ε Nat
  | 0, _, _, c => pure c
  | len + 1, x, y, c => do
    let a ← hasBit pfx x
    let b ← hasBit key y
    if a ≠ b then pure c
    else hasLoop pfx key len (x + 1) (y + 1) (c + 1)

/-- proof-radix.c:307-335 `hsk_proof_has`. -/
def proofHas {ε : Type} (pfx : Bytes) (pfxSize : Nat) (key : Bytes) (depth : Nat) :
    Out ε Bool :=
  if depth > 256 then .ub  -- assert(len >= 0) at line 318
  else do
    let c ← hasLoop pfx key (min pfxSize (256 - depth)) 0 depth 0
    pure (c == pfxSize)

/-- proof-radix.c:337-368 `hsk_parse_namestate`: the resource bytes. -/
def parseNamestate (data : Bytes) : Out Unit Bytes :=
  if data.length > maxDataSize then .err ()
  else do
    let (nameSize, s) ← readU8 data
    let (_, s) ← readBytes nameSize s
    let (resSize, s) ← readU16 s
    let (res, _) ← readBytes resSize s
    pure res

/-- proof-radix.c:442-462: fold of the node list (last node first), given the key,
the remaining depth and the hash so far. -/
def foldNodes (H : Bytes → Bytes) (key : Bytes) :
    List Node → Nat → Bytes → Out Err (Nat × Bytes)
  | [], depth, next => pure (depth, next)
  | item :: rest, depth, next =>
    if depth < item.pfxSize + 1 then .err .negDepth
    else do
      let depth := depth - 1
      let bit ← hasBit key depth
      let pre ←
        if bit then internalPreimage item.pfx item.pfxSize item.node next
        else internalPreimage item.pfx item.pfxSize next item.node
      let next := H pre
      let depth := depth - item.pfxSize
      let has ← proofHas item.pfx item.pfxSize key depth
      if !has then .err .pathMismatch
      else foldNodes H key rest depth next

/-- Pointers that `hsk_proof_verify` asserts non-null. -/
def deref {ε α : Type} : Option α → Out ε α
  | some a => .ok a
  | none => .ub

/-- The `value_size` bytes at `proof->value` (a null pointer is fine when the size is 0,
line 425). -/
def valueBuf {ε : Type} (p : Proof) : Out ε Bytes :=
  if p.valueSize = 0 then pure []
  else do
    let v ← deref p.value
    memSlice v 0 p.valueSize

/-- proof-radix.c:389-435: re-create the leaf hash. -/
def leafHash (H : Bytes → Bytes) (key : Bytes) (p : Proof) : Out Err Bytes :=
  if p.type = DEADEND then pure (List.replicate 32 0)
  else if p.type = SHORT then do
    let pfx ← deref p.pfx
    if p.pfxSize = 0 then .ub
    else do
      let left ← deref p.left
      let right ← deref p.right
      let has ← proofHas pfx p.pfxSize key p.depth
      if has then .err .samePath
      else do
        let pre ← internalPreimage pfx p.pfxSize left right
        pure (H pre)
  else if p.type = COLLISION then do
    let nk ← deref p.nxKey
    let nh ← deref p.nxHash
    if nk = key then .err .sameKey else pure (H (leafPreimage nk nh))
  else if p.type = EXISTS then do
    let v ← valueBuf p
    pure (H (leafPreimage key (H v)))
  else .ub

/-- What a caller of `hsk_proof_verify` learns on success. -/
inductive Answer where
  | absent
  | present (data : Bytes)
  deriving Repr, DecidableEq

/-- proof-radix.c:370-482 `hsk_proof_verify` (non-null arguments). -/
def verify (H : Bytes → Bytes) (root key : Bytes) (p : Proof) : Out Err Answer :=
  if p.depth > 256 ∨ p.nodes.length > 256 ∨ p.valueSize > maxDataSize then .ub
  else do
    let leaf ← leafHash H key p
    let (depth, next) ← foldNodes H key p.nodes.reverse p.depth leaf
    if depth ≠ 0 then .err .tooDeep
    else if next ≠ root then .err .hashMismatch
    else if p.type = EXISTS then do
      let v ← valueBuf p
      match parseNamestate v with
      | .ok d => pure (.present d)
      | .err _ => .err .encoding
      | .ub => .ub
    else pure .absent

end Verif.Proof
