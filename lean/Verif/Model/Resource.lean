import Verif.Model.Base32
import Verif.Model.Addr
import Verif.Model.Req
import Verif.Model.Dnssec
/-
Model of src/resource.c, and of hsk_date (src/utils.c). A resource is the list of its records; its
TTL is constant. Allocation succeeds; what is leaked is not modelled. Results the program
ignores are left out.
-/
namespace Verif.Resource
open Verif.Bio Verif.DnsName Verif.Dns Verif.Label Verif.Req Verif.Dnssec

/-- The records of a resource (src/resource.h:20-51). A text record that was not read to its end
(`whole` is false) has `items` and then one that is freed; what it says of its size is more. -/
inductive Rec
  | ds (tag alg digestType : Nat) (digest : Bytes)
  | ns (name : Bytes)
  | glue4 (name ip : Bytes)
  | glue6 (name ip : Bytes)
  | synth4 (ip : Bytes)
  | synth6 (ip : Bytes)
  | txt (items : List Bytes) (whole : Bool)
  deriving DecidableEq, Repr

/-! ### Decoding -/

/-- hsk_ds_record_read (src/resource.c:38-62): the record is filled in as far as it is read. The digest's
array has 64 bytes (src/resource.h:34). -/
def readDs (s : Bytes) : Out Unit (Rec × Bytes) :=
  if s.length < 5 then .ok (.ds 0 0 0 [], s)
  else (readU16be s).bind fun tag => (readU8 tag.2).bind fun alg => (readU8 alg.2).bind fun dt => (readU8 dt.2).bind fun size =>
    if size.1 > 64 then .ok (.ds tag.1 alg.1 dt.1 [], size.2)
    else match readBytes size.1 size.2 with
      | .ok d => if d.1.length > 64 then .ub else .ok (.ds tag.1 alg.1 dt.1 d.1, d.2)
      | .err _ => .ok (.ds tag.1 alg.1 dt.1 [], size.2)
      | .ub => .ub

/-- What hsk_dns_name_parse (src/dns.c:2096-2210) has stored when it fails: the labels read
before that. -/
def stored (msg : Bytes) : Nat → Bytes → Nat → Bytes → Nat → Bytes
  | 0, _, _, name, _ => name
  | fuel + 1, buf, off, name, ptr =>
    match buf[off]? with
    | none => name
    | some c =>
      if c = 0 then name
      else if c.toNat / 64 = 0 then
        if off + 1 + c.toNat > buf.length then name
        else if name.length + c.toNat + 1 > 255 then name
        else stored msg fuel buf (off + 1 + c.toNat) (name ++ ((buf.drop (off + 1)).take c.toNat).map esc ++ [0x2e]) ptr
      else if c.toNat / 64 = 3 then
        match buf[off + 1]? with
        | none => name
        | some c1 => if ptr + 1 > 10 then name else stored msg fuel msg ((c.toNat - 192) * 256 + c1.toNat) name (ptr + 1)
      else name

/-- A name read into a zeroed buffer: whether it was read, what is in the buffer, and the rest. -/
def readName (msg s : Bytes) : Out Unit (Bool × Bytes × Bytes) :=
  match parse (some msg) s with
  | .ok r => .ok (true, r.1, r.2)
  | .err _ => .ok (false, stored msg 139 s 0 [] 0, s)
  | .ub => .ub

/-- An address read into a zeroed buffer (src/resource.c:85, 98, 107, 116). -/
def readIp (n : Nat) (s : Bytes) : Out Unit (Bytes × Bytes) :=
  match readBytes n s with
  | .ok r => .ok r
  | .err _ => .ok (List.replicate n 0, s)
  | .ub => .ub

/-- hsk_ns_record_read (src/resource.c:64-72). -/
def readNs (msg s : Bytes) : Out Unit (Rec × Bytes) := (readName msg s).bind fun r => .ok (.ns r.2.1, r.2.2)

/-- hsk_glue4_record_read (src/resource.c:74-85). -/
def readGlue4 (msg s : Bytes) : Out Unit (Rec × Bytes) :=
  (readName msg s).bind fun r =>
    if !r.1 then .ok (.glue4 r.2.1 (List.replicate 4 0), r.2.2) else (readIp 4 r.2.2).bind fun a => .ok (.glue4 r.2.1 a.1, a.2)

/-- hsk_glue6_record_read (src/resource.c:87-98). -/
def readGlue6 (msg s : Bytes) : Out Unit (Rec × Bytes) :=
  (readName msg s).bind fun r =>
    if !r.1 then .ok (.glue6 r.2.1 (List.replicate 16 0), r.2.2) else (readIp 16 r.2.2).bind fun a => .ok (.glue6 r.2.1 a.1, a.2)

/-- The loop of hsk_txt_record_read (src/resource.c:132-156). -/
def txtLoop : Nat → Bytes → List Bytes → Out Unit (Rec × Bytes)
  | 0, s, acc => .ok (.txt acc true, s)
  | n + 1, s, acc =>
    match readU8 s with
    | .ub => .ub
    | .err _ => .ok (.txt acc false, s)
    | .ok size =>
      match readBytes size.1 size.2 with
      | .ub => .ub
      | .err _ => .ok (.txt acc false, size.2)
      | .ok b => txtLoop n b.2 (acc ++ [b.1])

/-- hsk_txt_record_read (src/resource.c:118-159). -/
def readTxt (s : Bytes) : Out Unit (Rec × Bytes) :=
  match readU8 s with
  | .ub => .ub
  | .err _ => .ok (.txt [] true, s)
  | .ok n => txtLoop n.1 n.2 []

/-- hsk_record_read (src/resource.c:325-384): only an unknown type fails. -/
def readRec (msg : Bytes) (type : Nat) (s : Bytes) : Out Unit (Rec × Bytes) :=
  match type with
  | 0 => readDs s
  | 1 => readNs msg s
  | 2 => readGlue4 msg s
  | 3 => readGlue6 msg s
  | 4 => (readIp 4 s).bind fun a => .ok (.synth4 a.1, a.2)
  | 5 => (readIp 16 s).bind fun a => .ok (.synth6 a.1, a.2)
  | 6 => readTxt s
  | _ => .err ()

/-- The loop of hsk_resource_decode (src/resource.c:423-438): the array has room for 255 records. -/
def decodeLoop (msg : Bytes) : Nat → Bytes → List Rec → Out Unit (List Rec)
  | 0, _, _ => .ub
  | fuel + 1, s, acc =>
    match s with
    | [] => .ok acc
    | t :: s => (readRec msg t.toNat s).bind fun r => if acc.length ≥ 255 then .ub else decodeLoop msg fuel r.2 (acc ++ [r.1])

/-- hsk_resource_decode (src/resource.c:386-447). -/
def decode (d : Bytes) : Out Unit (List Rec) :=
  (readU8 d).bind fun v => if v.1 ≠ 0 then .err () else decodeLoop d (v.2.length + 1) v.2 []

/-- hsk_resource_free (src/resource.c:310-323) with hsk_record_free (src/resource.c:258-308): the
last text of a text record that was not read to its end is freed twice. -/
def free (rs : List Rec) : Out Unit Unit := if rs.any (fun r => match r with | .txt _ false => true | _ => false) then .ub else .ok ()

/-- HSK_DS to HSK_TEXT (src/resource.h:4-10). -/
def Rec.type : Rec → Nat
  | .ds .. => 0
  | .ns .. => 1
  | .glue4 .. => 2
  | .glue6 .. => 3
  | .synth4 .. => 4
  | .synth6 .. => 5
  | .txt .. => 6

/-- hsk_resource_has (src/resource.c:460-463), hsk_resource_get (src/resource.c:449-458). -/
def has (rs : List Rec) (type : Nat) : Bool := rs.any fun r => r.type = type

/-- hsk_resource_has_ns (src/resource.c:465-474). -/
def hasNs (rs : List Rec) : Bool := rs.any fun r => 1 ≤ r.type && r.type ≤ 5

/-! ### Records of a response -/

/-- hsk_dns_rrs_push (src/dns.c:532-544). -/
def push (sec : List Rr) (r : Rr) : List Rr := if sec.length ≥ 255 then sec else sec ++ [r]

/-- "._synth." -/
def synthEnd : Bytes := [0x2e, 0x5f, 0x73, 0x79, 0x6e, 0x74, 0x68, 0x2e]

/-- The name for a synthesised name server (src/resource.c:503-514, 672-674, 708-710). -/
def synthName (ip : Bytes) : Out Unit Bytes :=
  (Base32.encode2 Base32.charsetHex ip false).bind fun t => if t.length + 1 > 29 then .ub else .ok (0x5f :: t ++ synthEnd)

/-- The name server a record gives (src/resource.c:488-519). -/
def target (r : Rec) : Out Unit (Option Bytes) :=
  match r with
  | .synth4 ip => (synthName ip).bind fun n => .ok (some n)
  | .synth6 ip => (synthName ip).bind fun n => .ok (some n)
  | .ns n => if !isFqdn n then .ub else if n.length + 1 > 256 then .ub else .ok (some n)
  | .glue4 n _ => if !isFqdn n then .ub else if n.length + 1 > 256 then .ub else .ok (some n)
  | .glue6 n _ => if !isFqdn n then .ub else if n.length + 1 > 256 then .ub else .ok (some n)
  | _ => .ok none

/-- hsk_resource_to_ns (src/resource.c:476-536). -/
def toNs (name : Bytes) : List Rec → List Rr → Out Unit (List Rr)
  | [], sec => .ok sec
  | r :: rs, sec => (target r).bind fun t =>
    match t with
    | none => toNs name rs sec
    | some t => (setName name).bind fun o => toNs name rs (push sec ⟨o, 2, 1, 21600, some [.name t]⟩)

/-- hsk_resource_to_txt (src/resource.c:538-586): the items of a record that was not read to its
end are freed or null. -/
def toTxt (name : Bytes) : List Rec → List Rr → Out Unit (List Rr)
  | [], sec => .ok sec
  | .txt items whole :: rs, sec => (setName name).bind fun o =>
    if !whole then .ub else toTxt name rs (push sec ⟨o, 16, 1, 21600, some [.txts items]⟩)
  | _ :: rs, sec => toTxt name rs sec

/-- hsk_resource_to_ds (src/resource.c:588-632). -/
def toDs (name : Bytes) : List Rec → List Rr → Out Unit (List Rr)
  | [], sec => .ok sec
  | .ds tag alg dt digest :: rs, sec => (setName name).bind fun o =>
    toDs name rs (push sec ⟨o, 43, 1, 21600, some [.num tag, .num alg, .num dt, .bytes digest]⟩)
  | _ :: rs, sec => toDs name rs sec

/-- One record for an address (src/resource.c:642-723); `none` is no record. -/
def glue (tld : Bytes) (r : Rec) : Out Unit (Option Rr) :=
  match r with
  | .glue4 n ip => (isSubdomain tld n).bind fun b =>
    if !b then .ok none else (setName n).bind fun o => .ok (some ⟨o, 1, 1, 21600, some [.bytes ip]⟩)
  | .glue6 n ip => (isSubdomain tld n).bind fun b =>
    if !b then .ok none else (setName n).bind fun o => .ok (some ⟨o, 28, 1, 21600, some [.bytes ip]⟩)
  | .synth4 ip => (synthName ip).bind fun o => .ok (some ⟨o, 1, 1, 21600, some [.bytes ip]⟩)
  | .synth6 ip => (synthName ip).bind fun o => .ok (some ⟨o, 28, 1, 21600, some [.bytes ip]⟩)
  | _ => .ok none

/-- hsk_resource_to_glue (src/resource.c:634-727). -/
def toGlue (tld : Bytes) : List Rec → List Rr → Out Unit (List Rr)
  | [], sec => .ok sec
  | r :: rs, sec => (glue tld r).bind fun g =>
    match g with
    | none => toGlue tld rs sec
    | some g => toGlue tld rs (push sec g)

/-! ### Records of the root zone -/

structure Date where
  year : Nat
  month : Nat
  day : Nat
  hour : Nat
  deriving DecidableEq, Repr

/-- hsk_date (src/utils.c:37-77) without minutes and seconds. `z` is not negative for any `int`. -/
def date (now : Int) : Date :=
  let s : Int := (now + 2147483648) % 4294967296 - 2147483648
  let z : Nat := (s.tdiv 86400 + 719468).toNat
  let era := z / 146097
  let doe := z - era * 146097
  let yoe := (doe - doe / 1460 + doe / 36524 - doe / 146096) / 365
  let doy := doe - (365 * yoe + yoe / 4 - yoe / 100)
  let mp := (5 * doy + 2) / 153
  let m := if mp < 10 then mp + 3 else mp - 9
  ⟨yoe + era * 400 + (if m ≤ 2 then 1 else 0), m, doy - (153 * mp + 2) / 5 + 1, ((s.tdiv 3600).tmod 24 % 4294967296).toNat⟩

/-- The serial number (src/resource.c:744-756). -/
def serial (now : Int) : Nat :=
  let t := date now
  (t.year * 1000000 + t.month * 10000 + t.day * 100 + t.hour) % 4294967296

def dot : Bytes := [0x2e]

/-- hsk_resource_root_to_soa (src/resource.c:729-765). -/
def soa (E : Env) : Rr :=
  ⟨dot, 6, 1, 86400, some [.name dot, .name dot, .num (serial E.now), .num 1800, .num 900, .num 604800, .num 86400]⟩

/-- hsk_resource_root_to_ns (src/resource.c:767-783). -/
def rootNs : Rr := ⟨dot, 2, 1, 518400, some [.name dot]⟩

/-- hsk_resource_root_to_a (src/resource.c:785-808) and hsk_resource_root_to_aaaa
(src/resource.c:810-833): the address of the server, if it is of the family. -/
def rootA (a : Addr.Addr) : List Rr := if Addr.isMapped a then [⟨dot, 1, 1, 518400, some [.bytes ((Addr.getIp a).take 4)]⟩] else []
def rootAaaa (a : Addr.Addr) : List Rr := if Addr.isIp6 a then [⟨dot, 28, 1, 518400, some [.bytes ((Addr.getIp a).take 16)]⟩] else []

/-- hsk_type_map (src/resource.c:21-24). -/
def typeMap : Bytes := [0x00, 0x07, 0x22, 0x00, 0x00, 0x00, 0x00, 0x03, 0x80]

/-- hsk_resource_root_to_nsec (src/resource.c:910-939). -/
def rootNsec : Rr := ⟨dot, 47, 1, 86400, some [.name dot, .bytes typeMap]⟩

/-- hsk_resource_to_empty (src/resource.c:869-908). -/
def empty (name : Bytes) (map : Bytes) : Out Unit Rr := (setName name).bind fun o => .ok ⟨o, 47, 1, 86400, some [.name dot, .bytes map]⟩

/-- hsk_resource_root_to_dnskey (src/resource.c:835-854). -/
def rootKeys (E : Env) : Out Unit (List Rr) :=
  (ksk E).bind fun k => (cloneRr k).bind fun k => (zsk E).bind fun z => (cloneRr z).bind fun z => .ok [k, z]

/-- hsk_resource_root_to_ds (src/resource.c:856-867). -/
def rootDs (E : Env) : Out Unit (List Rr) := (ds E).bind fun d => (cloneRr d).bind fun d => .ok [d]

/-! ### Responses -/

/-- hsk_dns_msg_alloc (src/dns.c:69-75). -/
def newMsg : Msg := ⟨0, 0, 0, 0, [], [], [], [], ⟨false, 0, 0, 512, 0, []⟩⟩

/-- A referral (src/resource.c:969-975, 1012-1018): the second and third section. -/
def referral (E : Env) (rs : List Rec) (name : Bytes) (ar : List Rr) : Out Unit (List Rr × List Rr) :=
  (toNs name rs []).bind fun ns => (toDs name rs ns).bind fun ns => (toGlue name rs ar).bind fun ar =>
    (signZsk E ns (if has rs 0 then 43 else 2)).bind fun ns => .ok (ns, ar)

/-- Nothing there (src/resource.c:976-983, 1019-1026). -/
def denial (E : Env) (name : Bytes) : Out Unit (List Rr) :=
  (empty name []).bind fun e => (signZsk E [e] 47).bind fun ns => signZsk E (push ns (soa E)) 6

/-- What there is for a name that is not in the first section (src/resource.c:968-983, 1011-1026). -/
def fallback (E : Env) (rs : List Rec) (name : Bytes) (ar : List Rr) : Out Unit (List Rr × List Rr) :=
  if hasNs rs then referral E rs name ar else (denial E name).bind fun ns => .ok (ns, ar)

/-- The sections for a name of one label (src/resource.c:988-1004). -/
def direct (E : Env) (rs : List Rec) (name : Bytes) (type : Nat) : Out Unit (List Rr × List Rr × List Rr) :=
  if type = 43 then (toDs name rs []).bind fun an => (signZsk E an 43).bind fun an => .ok (an, [], [])
  else if type = 2 then
    (toNs name rs []).bind fun ns => (toGlue name rs []).bind fun ar => (signZsk E ns 2).bind fun ns => .ok ([], ns, ar)
  else if type = 16 then (toTxt name rs []).bind fun an => (signZsk E an 16).bind fun an => .ok (an, [], [])
  else .ok ([], [], [])

/-- The response for a name of one label (src/resource.c:988-1029). -/
def single (E : Env) (rs : List Rec) (name : Bytes) (type : Nat) : Out Unit Msg :=
  (direct E rs name type).bind fun s =>
    let flags := if s.1.length > 0 then 1024 else 0
    if s.1.length = 0 ∧ s.2.1.length = 0 then
      (fallback E rs name s.2.2).bind fun f => .ok { newMsg with flags := flags, an := s.1, ns := f.1, ar := f.2 }
    else .ok { newMsg with flags := flags, an := s.1, ns := s.2.1, ar := s.2.2 }

/-- hsk_resource_to_dns (src/resource.c:941-1030); `none` is null. `tld` has room for 255 bytes. -/
def toDns (E : Env) (rs : List Rec) (name : Bytes) (type : Nat) : Out Unit (Option Msg) :=
  if !isFqdn name then .ub
  else if count name = 0 then .ok none
  else (labelFrom name (-1)).bind fun tld =>
    if tld.length + 1 > 255 then .ub
    else if tld.length > 64 then .ok none
    else if count name > 1 then (fallback E rs tld []).bind fun f => .ok (some { newMsg with ns := f.1, ar := f.2 })
    else (single E rs name type).bind fun m => .ok (some m)

/-- The address of the server as additional records (src/resource.c:1051-1059, 1069-1077). -/
def rootAddr (E : Env) (a : Addr.Addr) : Out Unit (List Rr) :=
  if Addr.isMapped a then (signZsk E (rootA a) 1).bind fun ar => if Addr.isIp6 a then signZsk E (ar ++ rootAaaa a) 28 else .ok ar
  else if Addr.isIp6 a then signZsk E (rootAaaa a) 28
  else .ok []

/-- hsk_resource_root (src/resource.c:1032-1099). -/
def root (E : Env) (type : Nat) (a : Addr.Addr) : Out Unit Msg :=
  let m := { newMsg with flags := 1024 }
  if type = 255 ∨ type = 2 then
    (signZsk E [rootNs] 2).bind fun an => (rootAddr E a).bind fun ar => .ok { m with an := an, ar := ar }
  else if type = 6 then
    (signZsk E [soa E] 6).bind fun an => (signZsk E [rootNs] 2).bind fun ns => (rootAddr E a).bind fun ar => .ok { m with an := an, ns := ns, ar := ar }
  else if type = 48 then (rootKeys E).bind fun ks => (signKsk E ks 48).bind fun an => .ok { m with an := an }
  else if type = 43 then (rootDs E).bind fun d => (signZsk E d 43).bind fun an => .ok { m with an := an }
  else (signZsk E [rootNsec] 47).bind fun ns => (signZsk E (push ns (soa E)) 6).bind fun ns => .ok { m with ns := ns }

/-- hsk_resource_to_nx (src/resource.c:1101-1126). -/
def toNx (E : Env) : Out Unit Msg :=
  (signZsk E [rootNsec, rootNsec] 47).bind fun ns => (signZsk E (push ns (soa E)) 6).bind fun ns => .ok { newMsg with code := 3, flags := 1024, ns := ns }

/-- hsk_resource_to_servfail (src/resource.c:1128-1138) and hsk_resource_to_notimp
(src/resource.c:1140-1150). -/
def toServfail : Msg := { newMsg with code := 2 }
def toNotimp : Msg := { newMsg with code := 4 }

/-! ### Synthesised names -/

/-- How many bytes hsk_base32_decode_hex stores: those of the characters before the first that is
not in the alphabet (src/base32.c:142-201). -/
def stores (str : Bytes) : Out Unit Nat :=
  (Base32.decLoop true Base32.tableHex false 0 0 (str.takeWhile fun c => (Base32.value true Base32.tableHex c) != .ok (-1))).bind fun d => .ok d.out.length

/-- pointer_to_ip (src/resource.c:1164-1186); with a buffer for the address (`ip`, 16 bytes) or
without one. The family is that of the length. -/
def pointerToIp (ip : Bool) (name : Bytes) : Out Unit (Option Bytes) :=
  (labelGet name 0).bind fun l =>
    if l.length < 2 ∨ l.length > 29 ∨ l.head? ≠ some 0x5f then .ok none
    else (stores (l.drop 1)).bind fun n =>
      if ip ∧ n > 16 then .ub
      else match Base32.decode2 true Base32.tableHex (l.drop 1) false with
        | .ub => .ub
        | .err _ => .ok none
        | .ok a => if a.length = 0 then .ub else if a.length = 4 ∨ a.length = 16 then .ok (some a) else .ok none

/-- hsk_resource_is_ptr (src/resource.c:1188-1191). -/
def isPtr (name : Bytes) : Out Unit Bool := (pointerToIp false name).bind fun r => .ok r.isSome

end Verif.Resource
