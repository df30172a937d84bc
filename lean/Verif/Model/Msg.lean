import Verif.Model.Addr
import Verif.Model.Header
import Verif.Model.Proof
/-
Model of src/msg.c: P2P message payloads. A C string in a fixed array is the list of its
bytes before the terminator. Allocation succeeds. The arrays `addrs[1000]` and
`hashes[64]` are lists of their used part; using more than the array holds is `ub`.
-/
namespace Verif.Msg
open Verif.Bio
open Verif.Addr (Netaddr readNetaddr writeNetaddr)
open Verif.Header (Hdr)

/-- hsk_version_msg_t (src/msg.h:30-40). -/
structure Version where
  version : Nat
  services : Nat
  time : Nat
  remote : Netaddr
  nonce : Nat
  agent : Bytes
  height : Nat
  noRelay : Bool

/-- The message structures (src/msg.h:26-93). -/
inductive Msg where
  | version (v : Version)
  | verack
  | ping (nonce : Nat)
  | pong (nonce : Nat)
  | getaddr
  | addr (addrs : List Netaddr)
  | getheaders (hashes : List Bytes) (stop : Bytes)
  | headers (count : Nat) (list : List Hdr)
  | sendheaders
  | getproof (root key : Bytes)
  | proof (root key : Bytes) (p : Proof.Proof)

/-- The `cmd` field (src/msg.h:13-24). -/
def Msg.cmd : Msg → Nat
  | .version _ => 0
  | .verack => 1
  | .ping _ => 2
  | .pong _ => 3
  | .getaddr => 4
  | .addr _ => 5
  | .getheaders _ _ => 10
  | .headers _ _ => 11
  | .sendheaders => 12
  | .getproof _ _ => 26
  | .proof _ _ _ => 27

/-- The characters `slice_ascii` lets through (src/bio.h:213-231). -/
def goodChar (c : UInt8) : Bool :=
  if c &&& 0x80 ≠ 0 then false
  else if c = 0x7f then false
  else if c < 0x20 ∧ c ≠ 0x09 ∧ c ≠ 0x0a ∧ c ≠ 0x0d then false
  else true

/-- `slice_ascii` (src/bio.h:208-235). The loop counter is a byte, so a size of 256 or more
makes the loop endless unless a bad character is met; that is `ub` here. -/
def sliceAscii (size : Nat) (s : Bytes) : Rd Bytes := do
  let (b, s) ← readBytes size s
  if (b.take 256).all goodChar then
    if size < 256 then pure (b, s) else .ub
  else .err ()

/-- `read_ascii` (src/bio.h:238-248) into a buffer of `cap` bytes. -/
def readAscii (cap size : Nat) (s : Bytes) : Rd Bytes := do
  let (b, s) ← sliceAscii size s
  if size + 1 ≤ cap then pure (b, s) else .ub

/-- hsk_version_msg_read (src/msg.c:18-51). -/
def readVersion (s : Bytes) : Rd Version := do
  let (version, s) ← readU32 s
  let (services, s) ← readU64 s
  let (time, s) ← readU64 s
  let (remote, s) ← readNetaddr s
  let (nonce, s) ← readU64 s
  let (size, s) ← readU8 s
  let (agent, s) ← readAscii 256 size s
  let (height, s) ← readU32 s
  let (noRelay, s) ← readU8 s
  pure (⟨version, services, time, remote, nonce, agent, height, noRelay == 1⟩, s)

/-- hsk_version_msg_write (src/msg.c:53-67). -/
def writeVersion (v : Version) : Bytes :=
  writeU32 v.version ++ writeU64 v.services ++ writeU64 v.time ++ writeNetaddr v.remote ++ writeU64 v.nonce ++
    writeU8 v.agent.length ++ v.agent ++ writeU32 v.height ++ writeU8 (if v.noRelay then 1 else 0)

/-- A loop reading `n` items into an array with room for `cap`, `i` of them read. -/
def readMany {α : Type} (rd : Bytes → Rd α) (cap : Nat) : Nat → Nat → Bytes → Rd (List α)
  | 0, _, s => .ok ([], s)
  | n + 1, i, s => do
    let (x, s) ← rd s
    if i < cap then do
      let (r, s) ← readMany rd cap n (i + 1) s
      pure (x :: r, s)
    else .ub

/-- hsk_addr_msg_read (src/msg.c:136-152). -/
def readAddr (s : Bytes) : Rd (List Netaddr) := do
  let (count, s) ← readVarsize s
  if count > 1000 then .err () else readMany readNetaddr 1000 count 0 s

/-- hsk_getheaders_msg_read (src/msg.c:168-187). -/
def readGetheaders (s : Bytes) : Rd (List Bytes × Bytes) := do
  let (count, s) ← readVarsize s
  if count > 64 then .err ()
  else do
    let (hashes, s) ← readMany (readBytes 32) 64 count 0 s
    let (stop, s) ← readBytes 32 s
    pure ((hashes, stop), s)

/-- The list read by the loop of hsk_headers_msg_read. -/
def readHdrs : Nat → Bytes → Rd (List Hdr)
  | 0, s => .ok ([], s)
  | n + 1, s => do
    let (h, s) ← Header.read s
    let (r, s) ← readHdrs n s
    pure (h :: r, s)

/-- hsk_headers_msg_read (src/msg.c:205-243). On failure the list is freed and so is the
message by the caller; the header that failed is leaked. -/
def readHeaders (s : Bytes) : Rd (Nat × List Hdr) := do
  let (count, s) ← readVarsize s
  if count > 2000 then .err ()
  else do
    let (l, s) ← readHdrs count s
    pure ((count, l), s)

/-- hsk_getproof_msg_read (src/msg.c:273-286). -/
def readGetproof (s : Bytes) : Rd (Bytes × Bytes) := do
  let (root, s) ← readBytes 32 s
  let (key, s) ← readBytes 32 s
  pure ((root, key), s)

/-- hsk_proof_msg_read (src/msg.c:296-308). -/
def readProof (s : Bytes) : Rd (Bytes × Bytes × Proof.Proof) := do
  let (root, s) ← readBytes 32 s
  let (key, s) ← readBytes 32 s
  let (p, s) ← Proof.read s
  pure ((root, key, p), s)

/-- hsk_msg_read (src/msg.c:619-659) on a message of command `cmd` fresh from hsk_msg_alloc. -/
def readMsg (cmd : Nat) (s : Bytes) : Rd Msg :=
  match cmd with
  | 0 => do let (v, s) ← readVersion s; pure (.version v, s)
  | 1 => .ok (.verack, s)
  | 2 => do let (n, s) ← readU64 s; pure (.ping n, s)
  | 3 => do let (n, s) ← readU64 s; pure (.pong n, s)
  | 4 => .ok (.getaddr, s)
  | 5 => do let (l, s) ← readAddr s; pure (.addr l, s)
  | 10 => do let (g, s) ← readGetheaders s; pure (.getheaders g.1 g.2, s)
  | 11 => do let (h, s) ← readHeaders s; pure (.headers h.1 h.2, s)
  | 12 => .ok (.sendheaders, s)
  | 26 => do let (g, s) ← readGetproof s; pure (.getproof g.1 g.2, s)
  | 27 => do let (g, s) ← readProof s; pure (.proof g.1 g.2.1 g.2.2, s)
  | _ => .err ()

/-- hsk_msg_decode (src/msg.c:703-706): bytes left over are ignored. -/
def decode (cmd : Nat) (s : Bytes) : Out Unit Msg := (readMsg cmd s).bind fun r => .ok r.1

/-- hsk_msg_write (src/msg.c:661-701) and the functions it calls (src/msg.c:53-67, 93-96,
105-110, 119-124, 131-134, 154-166, 189-203, 245-257, 268-271, 288-294, 310-319): the bytes written.
`ub` if an array is overrun. A proof is written without the proof. -/
def writeMsg : Msg → Out Unit Bytes
  | .version v => if v.agent.length < 256 then .ok (writeVersion v) else .ub
  | .verack => .ok []
  | .ping n => .ok (writeU64 n)
  | .pong n => .ok (writeU64 n)
  | .getaddr => .ok []
  | .addr l => if l.length ≤ 1000 then .ok (writeVarint l.length ++ (l.map writeNetaddr).flatten) else .ub
  | .getheaders l stop => if l.length ≤ 64 then .ok (writeVarint l.length ++ l.flatten ++ stop) else .ub
  | .headers n l => .ok (writeVarint n ++ (l.map Header.write).flatten)
  | .sendheaders => .ok []
  | .getproof root key => .ok (root ++ key)
  | .proof root key _ => .ok (root ++ key)

/-- hsk_msg_size (src/msg.c:713-716): the same functions without a destination; every field
counts what it would write, except that a count is taken from size_varint. -/
def size : Msg → Nat
  | .version v => 4 + 8 + 8 + 88 + 8 + 1 + v.agent.length + 4 + 1
  | .verack => 0
  | .ping _ => 8
  | .pong _ => 8
  | .getaddr => 0
  | .addr l => sizeVarint l.length + 88 * l.length
  | .getheaders l _ => sizeVarint l.length + 32 * l.length + 32
  | .headers n l => sizeVarint n + 236 * l.length
  | .sendheaders => 0
  | .getproof _ _ => 64
  | .proof _ _ _ => 64

end Verif.Msg
