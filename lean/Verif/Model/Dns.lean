import Verif.Model.DnsName
import Verif.Model.Bio
/-
Model of the message functions of src/dns.c. The record-data structs are lists of values;
which fields a type has, and in which order they are written and read, is said by
`writeLayout` and `readLayout`. Allocation succeeds; what is leaked is not modelled.

Writers with a null `data` (dry runs) are writers without a sink. A writer gives the value the C
function returns and the bytes it stores from its offset on. A store outside the buffer is `ub`.
-/
namespace Verif.Dns
open Verif.Bio Verif.DnsName

/-! ### Types -/

inductive Field
  | u8 | u16 | u32
  /-- a name; compressed if there is a table -/
  | name
  /-- a fixed number of bytes -/
  | fixed (n : Nat)
  /-- all bytes left -/
  | rest
  /-- strings with their lengths, until nothing is left -/
  | txts
  /-- one string with its length -/
  | data8
  deriving DecidableEq, Repr

inductive Val
  | num (n : Nat)
  | name (s : Bytes)
  | bytes (b : Bytes)
  | txts (ts : List Bytes)
  deriving DecidableEq, Repr

/-- A question (hsk_dns_qs_t, src/dns.h:9-17). -/
structure Qs where
  name : Bytes
  type : Nat
  cls : Nat
  deriving DecidableEq, Repr

/-- A record (hsk_dns_rr_t, src/dns.h:9-15). -/
structure Rr where
  name : Bytes
  type : Nat
  cls : Nat
  ttl : Nat
  rd : Option (List Val)
  deriving DecidableEq, Repr

/-- hsk_dns_msg_t.edns (src/dns.h:33-41). -/
structure Edns where
  enabled : Bool
  version : Nat
  flags : Nat
  size : Nat
  code : Nat
  rd : Bytes
  deriving DecidableEq, Repr

/-- hsk_dns_msg_t (src/dns.h:24-42). -/
structure Msg where
  id : Nat
  opcode : Nat
  code : Nat
  flags : Nat
  qd : List Qs
  an : List Rr
  ns : List Rr
  ar : List Rr
  edns : Edns
  deriving DecidableEq, Repr

/-- HSK_DNS_OPT (src/dns.h:297). -/
def typeOpt : Nat := 41

/-- The fields of record data in the order hsk_dns_rd_write writes them
(src/dns.c:1302-1516). -/
def writeLayout (type : Nat) : List Field :=
  if type = 6 then [.name, .name, .u32, .u32, .u32, .u32, .u32]
  else if type = 1 then [.fixed 4]
  else if type = 28 then [.fixed 16]
  else if type = 29 then [.u8, .u8, .u8, .u8, .u32, .u32, .u32]
  else if type = 5 then [.name]
  else if type = 39 then [.name]
  else if type = 2 then [.name]
  else if type = 15 then [.u16, .name]
  else if type = 12 then [.name]
  else if type = 33 then [.u16, .u16, .u16, .name]
  else if type = 16 then [.txts]
  else if type = 43 then [.u16, .u8, .u8, .rest]
  else if type = 53 ∨ type = 52 then [.u8, .u8, .u8, .rest]
  else if type = 44 then [.u8, .u8, .rest]
  else if type = 61 then [.rest]
  else if type = 41 then [.rest]
  else if type = 48 then [.u16, .u8, .u8, .rest]
  else if type = 46 then [.u16, .u8, .u8, .u32, .u32, .u32, .u16, .name, .rest]
  else if type = 256 then [.u16, .u16, .data8]
  else if type = 17 then [.name, .name]
  else if type = 47 then [.name, .rest]
  else [.rest]

/-- The fields of record data in the order hsk_dns_rd_read reads them
(src/dns.c:1523-1870). -/
def readLayout (type : Nat) : List Field :=
  if type = 6 then [.name, .name, .u32, .u32, .u32, .u32, .u32]
  else if type = 1 then [.fixed 4]
  else if type = 28 then [.fixed 16]
  else if type = 29 then [.u8, .u8, .u8, .u8, .u32, .u32, .u32]
  else if type = 5 then [.name]
  else if type = 39 then [.name]
  else if type = 2 then [.name]
  else if type = 15 then [.u16, .name]
  else if type = 12 then [.name]
  else if type = 33 then [.u16, .u16, .u16, .name]
  else if type = 16 then [.txts]
  else if type = 43 then [.u16, .u8, .u8, .rest]
  else if type = 53 ∨ type = 52 then [.u8, .u8, .u8, .rest]
  else if type = 44 then [.u8, .u8, .rest]
  else if type = 61 then [.rest]
  else if type = 41 then [.rest]
  else if type = 48 then [.u16, .u8, .u8, .rest]
  else if type = 46 then [.u16, .u8, .u8, .u32, .u32, .u32, .u16, .name, .rest]
  else if type = 256 then [.u16, .u16, .data8]
  else if type = 17 then [.name, .name]
  else if type = 47 then [.name, .rest]
  else [.rest]

/-! ### Writing -/

/-- The buffer written to: its size, and whether a compression table is used (then the
buffer starts with the message). -/
structure Sink where
  cap : Nat
  cmp : Bool

/-- A writer, given its offset in the buffer: the returned size, the bytes, the table. -/
abbrev Wr := Nat → Table → Out Unit (Nat × Bytes × Table)

/-- write_u8, write_u16be, write_u32be and write_bytes (src/bio.h:271-421): the bytes are
given by the caller. -/
def wBytes (d : Option Sink) (b : Bytes) : Wr := fun off t =>
  match d with
  | none => .ok (b.length, [], t)
  | some k => if off + b.length ≤ k.cap then .ok (b.length, b, t) else .ub

/-- hsk_dns_name_write (src/dns.c:2349-2360): failure of the serialiser is ignored. -/
def wName (d : Option Sink) (n : Bytes) : Wr := fun off t =>
  (serialize (d.map fun k => ⟨off, k.cap, k.cmp⟩) n t).bind fun r => .ok (r.len, r.out, r.table)

/-- One writer after another, sizes added up. -/
def wSeq (f g : Wr) : Wr := fun off t =>
  (f off t).bind fun a => (g (off + a.2.1.length) a.2.2).bind fun b => .ok (a.1 + b.1, a.2.1 ++ b.2.1, b.2.2)

def wNone : Wr := fun _ t => .ok (0, [], t)

def wAll : List Wr → Wr
  | [] => wNone
  | f :: fs => wSeq f (wAll fs)

/-- One field of record data (src/dns.c:1302-1516). A value of another kind than the field
cannot occur in C. -/
def wField (d : Option Sink) : Field → Val → Wr
  | .u8, .num n => wBytes d (writeU8 n)
  | .u16, .num n => wBytes d (writeU16be n)
  | .u32, .num n => wBytes d (writeU32be n)
  | .name, .name s => wName d s
  | .fixed n, .bytes b => wBytes d (b.take n)
  | .rest, .bytes b => wBytes d b
  | .txts, .txts ts => wAll (ts.map fun b => wSeq (wBytes d (writeU8 b.length)) (wBytes d b))
  | .data8, .bytes b => wSeq (wBytes d (writeU8 b.length)) (wBytes d b)
  | _, _ => fun _ _ => .ub

/-- Fields one after another. -/
def wFields (d : Option Sink) : List Field → List Val → Wr
  | [], [] => wNone
  | f :: fs, v :: vs => wSeq (wField d f v) (wFields d fs vs)
  | _, _ => fun _ _ => .ub

/-- hsk_dns_rd_write (src/dns.c:1302-1516). -/
def wRd (d : Option Sink) (type : Nat) (rd : List Val) : Wr := wFields d (writeLayout type) rd

/-- Record data after its length (src/dns.c:753-769). C skips the two bytes of the length
and fills them in last; what is written between depends on the offset only. -/
def wLen (d : Option Sink) (f : Wr) : Wr := fun off t =>
  (f (off + 2) t).bind fun a => (wBytes d (writeU16be a.1) off t).bind fun l => .ok (2 + a.1, l.2.1 ++ a.2.1, a.2.2)

/-- hsk_dns_qs_write (src/dns.c:631-638). -/
def wQs (d : Option Sink) (q : Qs) : Wr :=
  wSeq (wName d q.name) (wSeq (wBytes d (writeU16be q.type)) (wBytes d (writeU16be q.cls)))

/-- hsk_dns_rr_write (src/dns.c:739-772). -/
def wRr (d : Option Sink) (r : Rr) : Wr :=
  wSeq (wName d r.name) (wSeq (wBytes d (writeU16be r.type)) (wSeq (wBytes d (writeU16be r.cls)) (wSeq (wBytes d (writeU32be r.ttl))
    (match r.rd with
    | none => wBytes d (writeU16be 0)
    | some rd => wLen d (wRd d r.type rd)))))

/-- The flags field of a message (src/dns.c:115-118): opcode and the low bits of the code
replace what the flags hold in these places. -/
def wireFlags (m : Msg) : Nat := m.flags / 32768 * 32768 + m.opcode % 16 * 2048 + m.flags / 16 % 128 * 16 + m.code % 16

/-- The record that carries the EDNS data, if there is one (src/dns.c:141-162). -/
def optRr (m : Msg) : Option Rr :=
  let ecode := if m.code > 0x0f then m.code / 16 else m.edns.code
  if m.edns.enabled ∨ m.code > 0x0f then
    some ⟨[0x2e], typeOpt, m.edns.size, ecode % 256 * 16777216 + m.edns.version * 65536 + m.edns.flags, some [.bytes m.edns.rd]⟩
  else none

/-- The header (src/dns.c:120-125). -/
def header (m : Msg) : Bytes :=
  writeU16be m.id ++ writeU16be (wireFlags m) ++ writeU16be m.qd.length ++ writeU16be m.an.length ++ writeU16be m.ns.length ++
    writeU16be (m.ar.length + if m.edns.enabled then 1 else 0)

/-- hsk_dns_msg_write (src/dns.c:101-168). -/
def wMsg (d : Option Sink) (m : Msg) : Wr :=
  wSeq (wBytes d (header m)) (wSeq (wAll (m.qd.map (wQs d))) (wSeq (wAll (m.an.map (wRr d))) (wSeq (wAll (m.ns.map (wRr d)))
    (wSeq (wAll (m.ar.map (wRr d))) (wAll ((optRr m).toList.map (wRr d)))))))

/-- hsk_dns_msg_size (src/dns.c:170-173). -/
def msgSize (m : Msg) : Out Unit Nat := (wMsg none m 0 []).bind fun r => .ok r.1

/-- hsk_dns_msg_encode (src/dns.c:175-193): `data_len` bytes of the buffer. -/
def encode (m : Msg) : Out Unit Bytes :=
  (msgSize m).bind fun n => (wMsg (some ⟨n, true⟩) m 0 []).bind fun r => (memSlice r.2.1 0 r.1).bind fun b => .ok b

/-- hsk_dns_rr_size (src/dns.c:774-777), hsk_dns_rr_encode (src/dns.c:827-845): without
compression. -/
def encodeRr (r : Rr) : Out Unit Bytes :=
  (wRr none r 0 []).bind fun n => (wRr (some ⟨n.1, false⟩) r 0 []).bind fun x => (memSlice x.2.1 0 n.1).bind fun b => .ok b

/-! ### Reading -/

/-- The strings of a TXT record (src/dns.c:1663-1685, 2004-2016): the first 255 are kept.
`fuel` bounds the rounds. -/
def readTxts : Nat → Bytes → List Bytes → Rd (List Bytes)
  | 0, s, acc => if s.length > 0 then .ub else .ok (acc, s)
  | fuel + 1, s, acc =>
    if s.length > 0 then
      (readU8 s).bind fun n => (readBytes n.1 n.2).bind fun b => readTxts fuel b.2 (if acc.length = 255 then acc else acc ++ [b.1])
    else .ok (acc, s)

/-- One field of record data (src/dns.c:1523-1870). -/
def readField (msg : Option Bytes) : Field → Bytes → Rd Val
  | .u8, s => (readU8 s).bind fun r => .ok (.num r.1, r.2)
  | .u16, s => (readU16be s).bind fun r => .ok (.num r.1, r.2)
  | .u32, s => (readU32be s).bind fun r => .ok (.num r.1, r.2)
  | .name, s => (parse msg s).bind fun r => .ok (.name r.1, r.2)
  | .fixed n, s => (readBytes n s).bind fun r => .ok (.bytes r.1, r.2)
  | .rest, s => (readBytes s.length s).bind fun r => .ok (.bytes r.1, r.2)
  | .txts, s => (readTxts s.length s []).bind fun r => .ok (.txts r.1, r.2)
  | .data8, s => (readU8 s).bind fun n => (readBytes n.1 n.2).bind fun r => .ok (.bytes r.1, r.2)

def readFields (msg : Option Bytes) : List Field → Bytes → Rd (List Val)
  | [], s => .ok ([], s)
  | f :: fs, s => (readField msg f s).bind fun v => (readFields msg fs v.2).bind fun vs => .ok (v.1 :: vs.1, vs.2)

/-- hsk_dns_rd_read (src/dns.c:1523-1870). -/
def readRd (msg : Option Bytes) (type : Nat) (s : Bytes) : Rd (List Val) := readFields msg (readLayout type) s

/-- hsk_dns_qs_read (src/dns.c:640-657). -/
def readQs (msg : Option Bytes) (s : Bytes) : Rd Qs :=
  (parse msg s).bind fun n => (readU16be n.2).bind fun t => (readU16be t.2).bind fun c => .ok (⟨n.1, t.1, c.1⟩, c.2)

/-- hsk_dns_rr_read (src/dns.c:780-823). Record data left over after its fields is skipped. -/
def readRr (msg : Option Bytes) (s : Bytes) : Rd Rr :=
  (parse msg s).bind fun n => (readU16be n.2).bind fun t => (readU16be t.2).bind fun c => (readU32be c.2).bind fun l =>
  (readU16be l.2).bind fun k =>
    if k.2.length < k.1 then .err ()
    else (memSlice k.2 0 k.1).bind fun w => (readRd msg t.1 w).bind fun v =>
      .ok (⟨n.1, t.1, c.1, l.1, some v.1⟩, k.2.drop k.1)

/-- hsk_dns_rr_decode (src/dns.c:847-868). -/
def decodeRr (s : Bytes) : Out Unit Rr := (readRr none s).bind fun r => .ok r.1

/-- hsk_dns_rrs_push (src/dns.c:532-544): the record is dropped if there are 255. -/
def push {α : Type} (l : List α) (x : α) : List α := if l.length = 255 then l else l ++ [x]

/-- A section (src/dns.c:361-405): records until the count is reached or nothing is left. -/
def readSection {α : Type} (one : Bytes → Rd α) : Nat → Bytes → List α → Rd (List α)
  | 0, s, acc => .ok (acc, s)
  | n + 1, s, acc => if s.length = 0 then .ok (acc, s) else (one s).bind fun r => readSection one n r.2 (push acc r.1)

/-- What the last section gives: its records, the EDNS data and the code. -/
structure Extra where
  ar : List Rr
  edns : Edns
  code : Nat
  deriving DecidableEq, Repr

/-- One record of the last section (src/dns.c:419-440). -/
def addExtra (e : Extra) (r : Rr) : Extra :=
  if r.type = typeOpt then
    let c := r.ttl / 16777216 % 256
    { e with
      edns := ⟨true, r.ttl / 65536 % 256, r.ttl % 65536, r.cls, c, match r.rd with | some (.bytes b :: _) => b | _ => []⟩
      code := e.code ||| (c * 16) }
  else { e with ar := push e.ar r }

/-- The last section (src/dns.c:407-441). -/
def readExtra (one : Bytes → Rd Rr) : Nat → Bytes → Extra → Rd Extra
  | 0, s, e => .ok (e, s)
  | n + 1, s, e => if s.length = 0 then .ok (e, s) else (one s).bind fun r => readExtra one n r.2 (addExtra e r.1)

/-- hsk_dns_msg_init (src/dns.c:33-51). -/
def ednsInit : Edns := ⟨false, 0, 0, 512, 0, []⟩

/-- hsk_dns_msg_read (src/dns.c:324-452), hsk_dns_msg_decode (src/dns.c:84-99). -/
def decode (b : Bytes) : Out Unit Msg :=
  (readU16be b).bind fun id => (readU16be id.2).bind fun fl => (readU16be fl.2).bind fun qc => (readU16be qc.2).bind fun ac =>
  (readU16be ac.2).bind fun nc => (readU16be nc.2).bind fun rc =>
  (readSection (readQs (some b)) qc.1 rc.2 []).bind fun qd =>
  (readSection (readRr (some b)) ac.1 qd.2 []).bind fun an =>
  (readSection (readRr (some b)) nc.1 an.2 []).bind fun ns =>
  (readExtra (readRr (some b)) rc.1 ns.2 ⟨[], ednsInit, fl.1 % 16⟩).bind fun ar =>
    .ok ⟨id.1, fl.1 / 2048 % 16, ar.1.code, fl.1, qd.1, an.1, ns.1, ar.1.ar, ar.1.edns⟩

/-! ### Truncation -/

/-- Skipping of a question or record (src/dns.c:265-297). `first` is `s == 0`. -/
def skip (msg : Bytes) (first : Bool) (s : Bytes) : Out Unit Bytes :=
  (parse (some msg) s).bind fun n =>
    if first then (if n.2.length < 4 then .err () else .ok (n.2.drop 4))
    else if n.2.length < 8 then .err ()
    else (readU16be (n.2.drop 8)).bind fun k => if k.2.length < k.1 then .err () else .ok (k.2.drop k.1)

/-- The loop over one section (src/dns.c:256-298). `i` is the records read, `s` the unread rest
of the message; `n` is what is left of the count. The result is `j`, the unread rest at `last` and
the unread rest at `data`. -/
def truncSection (msg : Bytes) (max : Nat) (first : Bool) : Nat → Nat → Bytes → Out Unit (Nat × Bytes × Bytes)
  | 0, i, s => .ok (i, s, s)
  | n + 1, i, s =>
    (skip msg first s).bind fun s' => if msg.length - s'.length > max then .ok (i, s, s') else truncSection msg max first n (i + 1) s'

/-- A section of hsk_dns_msg_truncate (src/dns.c:251-301); the loop is entered only at a place
within the limit. -/
def truncStep (msg : Bytes) (max : Nat) (first : Bool) (count : Nat) (last s : Bytes) : Out Unit (Nat × Bytes × Bytes) :=
  if msg.length - s.length > max then .ok (0, last, s) else truncSection msg max first count 0 s

/-- hsk_dns_msg_truncate (src/dns.c:195-322): the bytes of the message before `*len`. -/
def truncate (msg : Bytes) (max : Nat) : Out Unit Bytes :=
  if msg.length < 12 then .err ()
  else if max < 12 then .err ()
  else if msg.length ≤ max then .ok msg
  else
    (readU16be (msg.drop 2)).bind fun fl => (readU16be fl.2).bind fun qc => (readU16be qc.2).bind fun ac =>
    (readU16be ac.2).bind fun nc => (readU16be nc.2).bind fun rc =>
    (truncStep msg max true qc.1 rc.2 rc.2).bind fun a =>
    (truncStep msg max false ac.1 a.2.1 a.2.2).bind fun b =>
    (truncStep msg max false nc.1 b.2.1 b.2.2).bind fun c =>
    (truncStep msg max false rc.1 c.2.1 c.2.2).bind fun d =>
      .ok (((msg.take 4) ++ writeU16be a.1 ++ writeU16be b.1 ++ writeU16be c.1 ++ writeU16be d.1 ++ msg.drop 12).take (msg.length - d.2.1.length))

end Verif.Dns
