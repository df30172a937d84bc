import Verif.Model.Chain
import Verif.Model.Bio
/-
Model of src/store.c (POSIX branch), of the flush condition in src/chain.c and of
the order of loading in src/daemon.c.

The save path is split in two: the bytes that are written (`encode`), and the file
operations (`saveTrace`). Files are a finite map from names to contents.
-/
namespace Verif.Store
open Verif.Chain Verif.Header Verif.Bio

/-- Network constants used here (src/constants.h:50-84). -/
structure Net where
  magic : Nat     -- HSK_MAGIC
  name : List Char -- HSK_NETWORK_NAME
  window : Nat    -- HSK_STORE_CHECKPOINT_WINDOW
  deriving Repr, DecidableEq

/-- hsk_store_filename (src/store.c:45-60). The second sprintf reads and writes the
same buffer; what every libc in use does with "%s~%u" is taken for granted. -/
def filename (net : Net) (pfx : List Char) (height : Nat) : List Char :=
  let path := pfx ++ '/' :: "checkpoint_".toList ++ net.name ++ ".dat".toList
  if height > 0 then path ++ '~' :: Nat.toDigits 10 height else path

/-- The header loop of hsk_store_write (src/store.c:83-88): `n` headers from
`height`. A missing header is a null pointer dereference. -/
def encodeHeaders (s : State) : Nat → Nat → Out Unit Bytes
  | 0, _ => .ok []
  | n + 1, height =>
    match getByHeight s height with
    | none => .ub
    | some e => (encodeHeaders s n (height + 1)).bind fun r => .ok (write e.hdr ++ r)

/-- The serialisation of hsk_store_write (src/store.c:62-88): the start height and
the bytes. Heights are 32 bit, so `height - 1` at 0 would wrap to 2^32 - 1. -/
def encode (net : Net) (s : State) : Out Unit (Nat × Bytes) :=
  if s.height % net.window = 0 then
    let height := (s.height + 2 ^ 32 - net.window) % 2 ^ 32
    match getByHeight s ((height + 2 ^ 32 - 1) % 2 ^ 32) with
    | none => .ub
    | some prev =>
      (encodeHeaders s 150 height).bind fun hs =>
        .ok (height, writeU32be net.magic ++ writeU8 0 ++ writeU32be height ++ prev.work ++ hs)
  else .ub

/-- Is the chain written after a header was saved (src/chain.c:284-295, 749-751)?
`enabled` is `chain->prefix != NULL`. -/
def flushes (net : Net) (enabled : Bool) (s : State) : Bool :=
  s.height % net.window = 0 && enabled && (s.height + 2 ^ 32 - s.initHeight) % 2 ^ 32 > net.window

/-- File contents by name. -/
abbrev Fs := AMap (List Char) Bytes

/-- How the file operations of one save go: does fopen succeed, in which pieces do
the bytes reach the file and how many of them, does rename succeed. -/
structure Plan where
  opens : Bool
  pieces : List Nat
  written : Nat
  renames : Bool

/-- The states the file system goes through in hsk_store_write
(src/store.c:90-126), the first one excluded. -/
def saveTrace (path tmp : List Char) (content : Bytes) (p : Plan) (fs : Fs) : List Fs :=
  if !p.opens then []
  else
    let opened := AMap.set fs tmp []
    let partials := p.pieces.map fun n => AMap.set fs tmp (content.take (min n p.written))
    let closed := AMap.set fs tmp (content.take p.written)
    let tail :=
      if p.written ≠ content.length then []
      else if !p.renames then [closed]
      else [AMap.set (AMap.del closed tmp) path content]
    opened :: partials ++ [closed] ++ tail

/-- hsk_store_read (src/store.c:199-249): the bytes after magic and version, when
the file is there and acceptable. fread is asked for 35441 bytes. -/
def readFile (net : Net) (fs : Fs) (path : List Char) : Out Unit Bytes :=
  match AMap.get fs path with
  | none => .err ()
  | some file =>
    let data := file.take 35441
    if data.length ≠ 35441 then .err ()
    else do
      let (magic, s) ← readU32be data
      if magic ≠ net.magic then .err ()
      else do
        let (version, s) ← readU8 s
        if version ≠ 0 then .err () else pure s

/-- What hsk_store_inject_checkpoint keeps of the previous header: its hash (none
before the first) and its work. -/
structure Prev where
  hash : Option Bytes
  work : Bytes

/-- The loop of hsk_store_inject_checkpoint (src/store.c:166-194): `n` headers to
go, the next one at `height`. Failed asserts are `ub`, `false` is `err`. -/
def injectLoop (P : Params) (H : Hdr → Bytes) (now : Int) : Nat → Nat → Prev → State → Bytes → Out Unit State
  | 0, _, _, s, _ => .ok s
  | n + 1, height, prev, s, data =>
    (read data).bind fun (hdr, data) =>
      if prev.hash.any (· ≠ hdr.prevBlock) then .ub
      else match calcWork hdr.bits (some prev.work) with
        | .ok w =>
          let e : Entry := { hdr := hdr, hash := H hdr, height := height, work := w }
          injectLoop P H now n (height + 1) { hash := some e.hash, work := w } (save P now s e) data
        | _ => .ub

/-- hsk_store_inject_checkpoint (src/store.c:132-197). -/
def inject (P : Params) (H : Hdr → Bytes) (now : Int) (s : State) (data : Bytes) : Out Unit State :=
  (readU32be data).bind fun (height, data) =>
    if s.initHeight ≥ height then .ok s
    else (readBytes 32 data).bind fun (work, data) =>
      injectLoop P H now 150 height { hash := none, work := work } { s with initHeight := height } data

/-- The file part of hsk_daemon_open (src/daemon.c:625-648): an unreadable file is
ignored, a readable one is injected. -/
def load (P : Params) (H : Hdr → Bytes) (net : Net) (now : Int) (fs : Fs) (path : List Char) (s : State) :
    Out Unit State :=
  match readFile net fs path with
  | .ok data => inject P H now s data
  | .err _ => .ok s
  | .ub => .ub

end Verif.Store
