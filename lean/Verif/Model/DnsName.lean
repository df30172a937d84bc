import Verif.Model.AMap
import Verif.Base
/-
Model of the name functions of src/dns.c. A C string is the list of its bytes before the
terminator; `char` is signed. A cursor is the list of unread bytes. The compression table,
a hash table of strings, is a finite map.
-/
namespace Verif.DnsName

/-! ### Parsing -/

/-- What a byte of a label becomes in a C string (src/dns.c:2136-2144). -/
def esc (b : UInt8) : UInt8 := if b = 0 then 0xff else if b = 0x2e then 0xfe else b

/-- The loop of hsk_dns_name_parse (src/dns.c:2111-2195). `buf` is the buffer `data` points
to, `name` what has been stored so far (its length is `noff`), `ptr` the pointers followed;
the result is the stored name and `res`. `name` has room for 256 bytes; a store outside it
is `ub`. `fuel` bounds the rounds; running out is `ub`. -/
def parseLoop (msg : Option Bytes) : Nat → Bytes → Nat → Bytes → Nat → Nat → Out Unit (Bytes × Nat)
  | 0, _, _, _, _, _ => .ub
  | fuel + 1, buf, off, name, res, ptr =>
    if off ≥ buf.length then .err ()
    else (memGet buf off).bind fun c =>
      if c = 0 then .ok (name, if ptr = 0 then off + 1 else res)
      else if c.toNat / 64 = 0 then
        if c.toNat > 63 then .err ()
        else if off + 1 + c.toNat > buf.length then .err ()
        else if name.length + c.toNat + 1 > 255 then .err ()
        else (memSlice buf (off + 1) c.toNat).bind fun label =>
          if name.length + c.toNat + 1 > 256 then .ub
          else parseLoop msg fuel buf (off + 1 + c.toNat) (name ++ label.map esc ++ [0x2e]) res ptr
      else if c.toNat / 64 = 3 then
        match msg with
        | none => .err ()
        | some m =>
          if off + 1 ≥ buf.length then .err ()
          else (memGet buf (off + 1)).bind fun c1 =>
            if ptr + 1 > 10 then .err ()
            else parseLoop msg fuel m ((c.toNat - 192) * 256 + c1.toNat) name (if ptr = 0 then off + 2 else res) (ptr + 1)
      else .err ()

/-- hsk_dns_name_parse (src/dns.c:2096-2210), hsk_dns_name_read (src/dns.c:2362-2370); `msg` is `dmp`. With
a null `name` the same steps are made without the stores. The terminator needs room too,
and the cursor must not be moved past its end. -/
def parse (msg : Option Bytes) (s : Bytes) : Out Unit (Bytes × Bytes) :=
  (parseLoop msg 139 s 0 [] 0 0).bind fun r =>
    let name := if r.1.length = 0 then [0x2e] else r.1
    if name.length + 1 > 256 then .ub
    else if r.2 > s.length then .ub
    else .ok (name, s.drop r.2)

/-! ### Serialising -/

/-- What a character of a C string becomes on the wire (src/dns.c:2274-2282). -/
def unesc (c : UInt8) : UInt8 := if c = 0xff then 0 else if c = 0xfe then 0x2e else c

/-- Where a name goes: the start of the name in the message, the size of the message buffer
and whether a compression table is in use. `none` instead is a dry run (`data` is null). -/
structure Dst where
  base : Nat
  cap : Nat
  cmp : Bool

abbrev Table := AMap Bytes Nat

/-- Outcome of hsk_dns_name_serialize: the returned value, `*len`, the bytes before it. -/
structure Ser where
  ok : Bool
  len : Nat
  out : Bytes
  table : Table
  deriving DecidableEq, Repr

/-- Stores at index `i` of `data` (the `n` bytes from there): outside the buffer is `ub`. -/
def store (d : Dst) (i n : Nat) : Out Unit Unit := if d.base + i + n ≤ d.cap then .ok () else .ub

/-- `p` (src/dns.c:2251-2253): the offset recorded for the text from the current label on;
0 if there is none, if the text is the root, or if there is no table. -/
def find (d : Option Dst) (t : Table) (sub : Bytes) : Nat :=
  match d with
  | some d => if d.cmp ∧ sub ≠ [0x2e] then (t.get sub).getD 0 else 0
  | none => 0

/-- Recording of a text (src/dns.c:2254-2257). -/
def remember (d : Option Dst) (t : Table) (sub : Bytes) (off : Nat) : Table :=
  match d with
  | some d => if d.cmp ∧ sub ≠ [0x2e] ∧ d.base + off < 16384 then t.set sub (d.base + off) else t
  | none => t

/-- The end of a name whose rest is in the table at `p` (src/dns.c:2294-2324): `total` is the
length of the whole text, `sub` its rest. -/
def finishPtr (d : Dst) (total : Nat) (sub : Bytes) (off : Nat) (out : Bytes) (p : Nat) (t : Table) : Out Unit Ser :=
  if total > 255 then .ok ⟨false, off, out, t⟩
  else if sub.getLast? ≠ some 0x2e then .ok ⟨false, off, out, t⟩
  else if off + 2 > 256 then .ub
  else (store d off 2).bind fun _ =>
    .ok ⟨true, off + 2, out ++ [UInt8.ofNat ((p ^^^ 0xc000) / 256 % 256), UInt8.ofNat ((p ^^^ 0xc000) % 256)], t⟩

/-- The end of a name written in full (src/dns.c:2294-2307, 2326-2338). -/
def finish (d : Option Dst) (total : Nat) (dot : Bool) (off : Nat) (out : Bytes) (t : Table) : Out Unit Ser :=
  if total > 255 then .ok ⟨false, off, out, t⟩
  else if total = 0 ∨ !dot then .ok ⟨false, off, out, t⟩
  else if total = 1 then .ok ⟨true, off, out, t⟩
  else match d with
    | none => .ok ⟨true, off + 1, out, t⟩
    | some d =>
      if off ≥ 256 then .ok ⟨false, off, out, t⟩
      else (store d off 1).bind fun _ => .ok ⟨true, off + 1, out ++ [0], t⟩

/-- The loop of hsk_dns_name_serialize (src/dns.c:2228-2292): `s` is the unread rest of the
text, `i` the characters read, `cur` those since `begin`, `dot` whether the last was a dot;
`out` the bytes before `off`, none in a dry run. -/
def serLoop (d : Option Dst) : Bytes → Nat → Bytes → Bool → Nat → Bytes → Table → Out Unit Ser
  | [], i, _, dot, off, out, t => finish d i dot off out t
  | c :: s, i, cur, dot, off, out, t =>
    if c ≠ 0x2e then serLoop d s (i + 1) (cur ++ [c]) false off out t
    else if dot then .ok ⟨false, off, out, t⟩
    else if cur.length > 63 then .ok ⟨false, off, out, t⟩
    else match d with
      | none => serLoop d s (i + 1) [] true (off + 1 + cur.length) out t
      | some b =>
        if off + 1 + cur.length > 256 then .ok ⟨false, off, out, t⟩
        else (store b off 1).bind fun _ =>
          if find d t (cur ++ c :: s) ≠ 0 then
            finishPtr b (i + 1 + s.length) (cur ++ c :: s) off out (find d t (cur ++ c :: s)) t
          else (store b (off + 1) cur.length).bind fun _ =>
            serLoop d s (i + 1) [] true (off + 1 + cur.length) (out ++ UInt8.ofNat cur.length :: cur.map unesc)
              (remember d t (cur ++ c :: s) off)

/-- hsk_dns_name_serialize (src/dns.c:2212-2339). -/
def serialize (d : Option Dst) (name : Bytes) (t : Table) : Out Unit Ser := serLoop d name 0 [] false 0 [] t

/-- hsk_dns_name_pack (src/dns.c:2341-2347) of a name into a buffer of `cap` bytes, or
without one: the length (0 is failure) and the bytes. -/
def pack (cap : Option Nat) (name : Bytes) : Out Unit (Nat × Bytes) :=
  (serialize (cap.map fun c => ⟨0, c, false⟩) name []).bind fun r =>
    if r.ok then .ok (r.len, r.out) else .ok (0, [])

/-- hsk_dns_name_dirty (src/dns.c:2405-2430). -/
def dirty (name : Bytes) : Bool :=
  name.any fun c => c = 0x28 || c = 0x29 || c = 0x3b || c = 0x20 || c = 0x40 || c = 0x22 || c = 0x5c || c < 0x20 || c > 0x7e

/-- hsk_dns_name_verify (src/dns.c:2479-2504). -/
def verify (name : Bytes) : Out Unit Bool :=
  if name.getLast? ≠ some 0x2e then
    if name.length + 1 > 255 then .ok false
    else if name.length + 2 > 256 then .ub
    else (pack none (name ++ [0x2e])).bind fun r => .ok (r.1 != 0)
  else if name.length > 255 then .ok false
  else (pack none name).bind fun r => .ok (r.1 != 0)

end Verif.DnsName
