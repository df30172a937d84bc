import Verif.Model.AMap
import Verif.Model.Resource
/-
Model of src/cache.c. The hash table is a finite map (C33); keys that hsk_cache_key_equal takes for
equal are the same key. Clocks are arguments, one for each call of hsk_now. Allocation succeeds.
-/
namespace Verif.Cache
open Verif.DnsName Verif.Label Verif.Resource

/-- hsk_cache_key_t up to hsk_cache_key_equal (src/cache.c:233-256): the type is `none` for a
referral. -/
structure Key where
  name : Bytes
  type : Option Nat
  deriving DecidableEq, Repr

/-- Whether the entry is that of a referral (src/cache.c:271-306). -/
def isRef (name : Bytes) (type : Nat) : Out Unit Bool :=
  match count name with
  | 0 => .ok false
  | 1 => .ok false
  | 2 => (isPtr name).bind fun b => .ok !b
  | 3 =>
    if type = 33 then (isSrv name).bind fun b => .ok !b
    else if type = 52 then (isTlsa name).bind fun b => .ok !b
    else if type = 53 then (isSmimea name).bind fun b => .ok !b
    else if type = 61 then (isOpenpgpkey name).bind fun b => .ok !b
    else .ok true
  | _ => .ok true

/-- hsk_cache_key_set (src/cache.c:258-317); `none` is false. -/
def keySet (name : Bytes) (type : Nat) : Out Unit (Option Key) :=
  (verify name).bind fun v =>
    if !v then .ok none
    else if dirty name then .ok none
    else (isRef name type).bind fun ref =>
      (labelFrom name (if ref then -1 else -(count name : Int))).bind fun n =>
        if n.length + 1 > 256 then .ub else .ok (some ⟨lowered n, if ref then none else some type⟩)

structure Item where
  msg : Bytes
  time : Int
  deriving DecidableEq, Repr

abbrev Cache := AMap Key Item

/-- The end of six hours (src/cache.c:84, 163). -/
def expiry (time : Int) : Out Unit Int := if time + 21600 ≥ 2 ^ 63 then .ub else .ok (time + 21600)

/-- Storing a new entry (src/cache.c:95-116). -/
def store (now : Int) (c : Cache) (k : Key) (wire : Bytes) : Cache :=
  AMap.set (if AMap.size c ≥ 2000 then [] else c) k ⟨wire, now⟩

/-- hsk_cache_insert_data (src/cache.c:65-117). `now'` is the second clock. -/
def insertData (now now' : Int) (c : Cache) (name : Bytes) (type : Nat) (wire : Bytes) : Out Unit (Bool × Cache) :=
  (keySet name type).bind fun k =>
    match k with
    | none => .ok (false, c)
    | some k =>
      match AMap.get c k with
      | none => .ok (true, store now' c k wire)
      | some item => (expiry item.time).bind fun t =>
        if now < t then .ok (true, c) else .ok (true, store now' (AMap.del c k) k wire)

/-- hsk_cache_get_data (src/cache.c:142-173). -/
def getData (now : Int) (c : Cache) (name : Bytes) (type : Nat) : Out Unit (Option Bytes × Cache) :=
  (keySet name type).bind fun k =>
    match k with
    | none => .ok (none, c)
    | some k =>
      match AMap.get c k with
      | none => .ok (none, c)
      | some item => (expiry item.time).bind fun t =>
        if now ≥ t then .ok (none, AMap.del c k) else .ok (some item.msg, c)

/-- hsk_cache_insert (src/cache.c:119-140). -/
def insert (now now' : Int) (c : Cache) (name : Bytes) (type : Nat) (m : Dns.Msg) : Out Unit (Bool × Cache) :=
  (Dns.encode m).bind fun wire => insertData now now' c name type wire

/-- hsk_cache_get (src/cache.c:175-192). -/
def get (now : Int) (c : Cache) (name : Bytes) (type : Nat) : Out Unit (Option Dns.Msg × Cache) :=
  (getData now c name type).bind fun r =>
    match r.1 with
    | none => .ok (none, r.2)
    | some d =>
      match Dns.decode d with
      | .ok m => .ok (some m, r.2)
      | .err _ => .ok (none, r.2)
      | .ub => .ub

/-- What a server does with its cache: hsk_ns_onrecv looks up and inserts (src/ns.c:315, 515), and
hsk_ns_respond inserts (src/ns.c:596). `insert` here is of an encoded message. -/
inductive Op
  | insert (now now' : Int) (name : Bytes) (type : Nat) (wire : Bytes)
  | get (now : Int) (name : Bytes) (type : Nat)

def step (c : Cache) : Op → Out Unit Cache
  | .insert now now' name type wire => (insertData now now' c name type wire).bind fun r => .ok r.2
  | .get now name type => (getData now c name type).bind fun r => .ok r.2

def run : Cache → List Op → Out Unit Cache
  | c, [] => .ok c
  | c, o :: r => (step c o).bind fun c' => run c' r

end Verif.Cache
