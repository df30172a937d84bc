import Verif.Model.DnsName
import Verif.Model.Tld
/-
Model of the label functions of src/dns.c and of the helpers of src/utils.c they use. A name
is its characters without the terminator; so is the string stored in `ret`, whose length is
also what the C functions return.
-/
namespace Verif.Label
open Verif.DnsName Verif.Tld

/-- The loop of hsk_dns_label_split (src/dns.c:2582-2595): the positions are stored as bytes. -/
def splitLoop (size : Nat) : Bytes → Nat → Bool → List Nat → List Nat
  | [], _, _, acc => acc
  | c :: s, i, dot, acc =>
    if acc.length < size then
      if c = 0x2e then splitLoop size s (i + 1) true acc
      else if dot then splitLoop size s (i + 1) false (acc ++ [i % 256])
      else splitLoop size s (i + 1) dot acc
    else acc

/-- hsk_dns_label_split (src/dns.c:2572-2598). -/
def split (name : Bytes) (size : Nat) : List Nat := splitLoop size name 0 true []

/-- hsk_dns_label_count (src/dns.c:2600-2603): at most HSK_DNS_MAX_LABELS. -/
def count (name : Bytes) : Nat := (split name 128).length

/-- The positions of the labels as the callers obtain them, with their assertion (for instance
src/dns.c:2646-2648). -/
def positions (name : Bytes) : Out Unit (List Nat) :=
  if (split name (count name)).length = count name then .ok (split name (count name)) else .ub

/-- An index, counted from the end if negative; an index before the first label is an access
outside the array (src/dns.c:2613-2621, 2661-2669). -/
def position (labels : List Nat) (index : Int) : Out Unit (Option Nat) :=
  let i := if index < 0 then index + labels.length else index
  if i ≥ labels.length then .ok none
  else if i < 0 then .ub
  else .ok (some i.toNat)

/-- hsk_dns_label_from2 (src/dns.c:2605-2635). -/
def from2 (name : Bytes) (labels : List Nat) (index : Int) : Out Unit Bytes :=
  (position labels index).bind fun p =>
    match p with
    | none => .ok []
    | some i =>
      let start := labels.getD i 0
      if name.length < start then .ok []
      else if name.length - start = 0 ∨ name.length - start > 255 then .ok []
      else memSlice name start (name.length - start)

/-- hsk_dns_label_from (src/dns.c:2637-2651). -/
def labelFrom (name : Bytes) (index : Int) : Out Unit Bytes :=
  if count name = 0 then .ok [] else (positions name).bind fun ps => from2 name ps index

/-- The end of a label (src/dns.c:2672-2678). -/
def labelEnd (name : Bytes) (labels : List Nat) (i : Nat) : Out Unit Nat :=
  if i + 1 ≥ labels.length then
    (memGet name (name.length - 1)).bind fun c => .ok (if c ≠ 0x2e then name.length - 1 + 1 else name.length - 1)
  else .ok (labels.getD (i + 1) 0 - 1)

/-- hsk_dns_label_get2 (src/dns.c:2653-2692). -/
def get2 (name : Bytes) (labels : List Nat) (index : Int) : Out Unit Bytes :=
  (position labels index).bind fun p =>
    match p with
    | none => .ok []
    | some i => (labelEnd name labels i).bind fun e =>
      let start := labels.getD i 0
      if e < start then .ok []
      else if e - start = 0 ∨ e - start > 63 then .ok []
      else memSlice name start (e - start)

/-- hsk_dns_label_get (src/dns.c:2694-2708). -/
def labelGet (name : Bytes) (index : Int) : Out Unit Bytes :=
  if count name = 0 then .ok [] else (positions name).bind fun ps => get2 name ps index

/-- hsk_to_lower (src/utils.c:221-232). -/
def lowered (s : Bytes) : Bytes := s.map lower

/-- The check of a label that starts with an underscore (for instance src/dns.c:2726-2735): the
rest, as it is stored. -/
def underscore (l : Bytes) : Option Bytes :=
  if l.length < 2 then none
  else if l.head? ≠ some 0x5f then none
  else some (lowered (l.drop 1))

/-- hsk_dns_label_decode_srv (src/dns.c:2710-2751): protocol and service. -/
def decodeSrv (name : Bytes) : Out Unit (Option (Bytes × Bytes)) :=
  if count name < 3 then .ok none
  else (positions name).bind fun ps => (get2 name ps 1).bind fun l =>
    match underscore l with
    | none => .ok none
    | some p => (get2 name ps 0).bind fun l =>
      match underscore l with
      | none => .ok none
      | some s => .ok (some (p, s))

/-- hsk_dns_label_is_srv (src/dns.c:2753-2756). -/
def isSrv (name : Bytes) : Out Unit Bool := (decodeSrv name).bind fun r => .ok r.isSome

/-- The loop over the digits of a port (src/dns.c:2793-2809). -/
def portLoop : Bytes → Nat → Option Nat
  | [], w => some w
  | c :: s, w =>
    if c < 0x30 ∨ c > 0x39 then none
    else
      let w := w * 10 + (c.toNat - 0x30)
      if w > 0xffff then none else portLoop s w

/-- hsk_dns_label_decode_tlsa (src/dns.c:2758-2815): protocol and port. -/
def decodeTlsa (name : Bytes) : Out Unit (Option (Bytes × Nat)) :=
  if count name < 3 then .ok none
  else (positions name).bind fun ps => (get2 name ps 1).bind fun l =>
    match underscore l with
    | none => .ok none
    | some p => (get2 name ps 0).bind fun l =>
      if l.length < 2 ∨ l.length > 6 then .ok none
      else if l.head? ≠ some 0x5f then .ok none
      else match portLoop (l.drop 1) 0 with
        | none => .ok none
        | some n => .ok (some (p, n))

/-- hsk_dns_label_is_tlsa (src/dns.c:2817-2820). -/
def isTlsa (name : Bytes) : Out Unit Bool := (decodeTlsa name).bind fun r => .ok r.isSome

/-- to_nibble (src/utils.c:103-115). -/
def nibble (c : UInt8) : Option Nat :=
  if 0x30 ≤ c ∧ c ≤ 0x39 then some (c.toNat - 0x30)
  else if 0x41 ≤ c ∧ c ≤ 0x46 then some (c.toNat - 0x41 + 10)
  else if 0x61 ≤ c ∧ c ≤ 0x66 then some (c.toNat - 0x61 + 10)
  else none

/-- hsk_hex_decode (src/utils.c:188-219): the bytes stored in `data`. -/
def hexDecode : Bytes → Option Bytes
  | [] => some []
  | [_] => none
  | a :: b :: s =>
    match nibble a, nibble b with
    | some x, some y => (hexDecode s).map fun r => UInt8.ofNat (x * 16 + y) :: r
    | _, _ => none

/-- hsk_dns_label_decode_dane (src/dns.c:2822-2853): the hash. -/
def decodeDane (tag name : Bytes) : Out Unit (Option Bytes) :=
  if count name < 3 then .ok none
  else (positions name).bind fun ps => (get2 name ps 1).bind fun l =>
    if l.length < 2 then .ok none
    else if strcasecmp l tag ≠ 0 then .ok none
    else (get2 name ps 0).bind fun l =>
      if l.length ≠ 56 then .ok none else .ok (hexDecode l)

/-- "_smimecert" and "_openpgpkey" -/
def smimeTag : Bytes := [0x5f, 0x73, 0x6d, 0x69, 0x6d, 0x65, 0x63, 0x65, 0x72, 0x74]
def pgpTag : Bytes := [0x5f, 0x6f, 0x70, 0x65, 0x6e, 0x70, 0x67, 0x70, 0x6b, 0x65, 0x79]

/-- hsk_dns_label_is_smimea (src/dns.c:2865-2868). -/
def isSmimea (name : Bytes) : Out Unit Bool := (decodeDane smimeTag name).bind fun r => .ok r.isSome

/-- hsk_dns_label_is_openpgpkey (src/dns.c:2875-2878). -/
def isOpenpgpkey (name : Bytes) : Out Unit Bool := (decodeDane pgpTag name).bind fun r => .ok r.isSome

/-- hsk_dns_name_is_fqdn (src/dns.c:2506-2517). -/
def isFqdn (name : Bytes) : Bool := name.getLast? = some 0x2e

/-- The loop of hsk_dns_name_cmp (src/dns.c:2539-2565), over the lower-case forms. -/
def cmpLoop : Bytes → Bytes → Int
  | [], [] => 0
  | [], _ :: _ => -1
  | _ :: _, [] => 1
  | x :: xs, y :: ys => if lower x < lower y then -1 else if lower x > lower y then 1 else cmpLoop xs ys

/-- hsk_dns_name_cmp (src/dns.c:2519-2566) of two strings: one final dot does not count. -/
def nameCmp (a b : Bytes) : Int :=
  cmpLoop (if isFqdn a then a.dropLast else a) (if isFqdn b then b.dropLast else b)

/-- hsk_dns_is_subdomain (src/dns.c:3353-3372). -/
def isSubdomain (parent child : Bytes) : Out Unit Bool :=
  if count parent = 0 then .ok true
  else if count parent > count child then .ok false
  else (from2 child (split child (count child)) (-(count parent : Int))).bind fun sub => .ok (sub == parent)

end Verif.Label
