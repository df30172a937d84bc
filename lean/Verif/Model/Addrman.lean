import Verif.Model.Addr
import Verif.Model.AMap
/-
Model of src/addrmgr.c. The array of entries is the list of its first `size` elements; the
map from addresses to entries holds indices instead of pointers; the table of bans holds
ban times. `hsk_random` is a parameter (the i-th call gives `rnd i`), as are the clocks:
`now` is hsk_timedata_now, `clock` is hsk_now. The entry that hsk_addrman_search picks
with floating-point weights is a parameter too: any entry can come out, and that it
terminates is not modelled. Allocation succeeds. `attempts` does not overflow.
-/
namespace Verif.Addrman
open Verif.Addr (Addr Netaddr)

/-- What hsk_addr_equal compares. -/
abbrev Key := Nat × Bytes × Nat
def keyOf (a : Addr) : Key := (a.type, a.ip, a.port)

/-- hsk_addrentry_t (src/addrmgr.h:13-23). -/
structure Entry where
  addr : Addr
  time : Nat
  services : Nat
  attempts : Nat
  lastSuccess : Int
  lastAttempt : Int
  refCount : Nat
  used : Bool
  removed : Bool
  deriving DecidableEq

/-- hsk_addrman_t (src/addrmgr.h:31-37). -/
structure Man where
  addrs : List Entry
  map : AMap Key Nat
  banned : AMap Key Int

/-- HSK_ADDR_MAX (src/addrmgr.c:19). -/
def maxAddrs : Nat := 2000

/-- hsk_addrman_init (src/addrmgr.c:36-73) before the seeds are added. -/
def init : Man := { addrs := [], map := [], banned := [] }

/-- Conversion to uint64_t. -/
def u64 (x : Int) : Nat := (x % 2 ^ 64).toNat

/-- hsk_addrman_is_stale (src/addrmgr.c:484-509). Comparisons with `time` are unsigned. -/
def isStale (now : Int) (e : Entry) : Bool :=
  if e.lastAttempt ≠ 0 ∧ e.lastAttempt ≥ now - 60 then false
  else if e.time > u64 (now + 600) then true
  else if e.time = 0 then true
  else if u64 (now - e.time) > 30 * 24 * 60 * 60 then true
  else if e.lastSuccess = 0 ∧ e.attempts ≥ 3 then true
  else if now - e.lastSuccess > 7 * 24 * 60 * 60 ∧ e.attempts ≥ 10 then true
  else false

/-- The search for a stale entry to replace (src/addrmgr.c:105-113): `n` tries left. -/
def findStale (now : Int) (rnd : Nat → Nat) (addrs : List Entry) : Nat → Nat → Option Nat
  | 0, _ => none
  | n + 1, i =>
    let index := rnd i % addrs.length
    match addrs[index]? with
    | some e => if isStale now e then some index else findStale now rnd addrs n (i + 1)
    | none => none

/-- hsk_addrman_alloc_entry (src/addrmgr.c:101-127): the index of the entry to fill, and the
map without the address of a replaced entry. `ub` is the assertion that fails above the
limit. -/
def allocEntry (now : Int) (rnd : Nat → Nat) (m : Man) : Out Unit (Option (Nat × AMap Key Nat)) :=
  if m.addrs.length = maxAddrs then
    match findStale now rnd m.addrs (min m.addrs.length 10) 0 with
    | some i => match m.addrs[i]? with
      | some e => .ok (some (i, m.map.del (keyOf e.addr)))
      | none => .ub
    | none => .ok none
  else if m.addrs.length < maxAddrs then .ok (some (m.addrs.length, m.map))
  else .ub

/-- The refresh of services and time (src/addrmgr.c:152-164). Times are unsigned 64-bit. -/
def refresh (e : Entry) (na : Netaddr) (src : Bool) (now : Int) : Entry :=
  let penalty : Int := if src then 7200 else 0
  let interval : Int := if u64 (now - na.time) < 86400 then 3600 else 86400
  { e with services := e.services ||| na.services
           time := if e.time < u64 (na.time - interval - penalty) then na.time else e.time }

/-- The rest of the branch for a known address (src/addrmgr.c:166-196): the entry afterwards
and the returned value. -/
def sawAgain (e : Entry) (na : Netaddr) (rnd : Nat → Nat) : Out Unit (Entry × Bool) :=
  if e.time ≠ 0 ∧ na.time ≤ e.time then .ok (e, false)
  else if e.used then .ok (e, false)
  else if ¬ e.refCount > 0 then .ub
  else if e.refCount = 8 then .ok (e, false)
  else if ¬ e.refCount < 8 then .ub
  else if rnd 0 % 2 ^ e.refCount ≠ 0 then .ok (e, false)
  else .ok ({ e with refCount := e.refCount + 1 }, true)

/-- A new entry (src/addrmgr.c:205-213). -/
def fresh (na : Netaddr) : Entry :=
  { addr := na.addr, time := na.time, services := na.services, attempts := 0, lastSuccess := 0, lastAttempt := 0,
    refCount := 1, used := false, removed := false }

/-- Write to the array, `index` being an element or the first free one. -/
def put (l : List Entry) (i : Nat) (e : Entry) : List Entry := if i < l.length then l.set i e else l ++ [e]

/-- hsk_addrman_add_entry (src/addrmgr.c:144-224). -/
def addEntry (m : Man) (na : Netaddr) (src : Bool) (now : Int) (rnd : Nat → Nat) : Out Unit (Man × Bool) :=
  match m.map.get (keyOf na.addr) with
  | some i => match m.addrs[i]? with
    | some e => (sawAgain (refresh e na src now) na rnd).bind fun (e', b) => .ok ({ m with addrs := m.addrs.set i e' }, b)
    | none => .ub
  | none => (allocEntry now rnd m).bind fun r => match r with
    | none => .ok (m, false)
    | some (i, map) => .ok ({ m with addrs := put m.addrs i (fresh na), map := map.set (keyOf na.addr) i }, true)

/-- Update of the entry of an address, if it is known. -/
def update (m : Man) (a : Addr) (f : Entry → Entry) : Out Unit (Man × Bool) :=
  match m.map.get (keyOf a) with
  | some i => match m.addrs[i]? with
    | some e => .ok ({ m with addrs := m.addrs.set i (f e) }, true)
    | none => .ub
  | none => .ok (m, false)

/-- hsk_addrman_remove_addr (src/addrmgr.c:273-283). -/
def removeAddr (m : Man) (a : Addr) : Out Unit (Man × Bool) := update m a fun e => { e with removed := true }

/-- hsk_addrman_mark_attempt (src/addrmgr.c:285-296). -/
def markAttempt (m : Man) (a : Addr) (now : Int) : Out Unit (Man × Bool) :=
  update m a fun e => { e with attempts := e.attempts + 1, lastAttempt := now }

/-- hsk_addrman_mark_success (src/addrmgr.c:298-313); the returned value is left out. -/
def markSuccess (m : Man) (a : Addr) (now : Int) : Out Unit (Man × Bool) :=
  update m a fun e => if u64 (now - e.time) > 1200 then { e with time := u64 now } else e

/-- hsk_addrman_mark_ack (src/addrmgr.c:315-336). -/
def markAck (m : Man) (a : Addr) (services : Nat) (now : Int) : Out Unit (Man × Bool) :=
  update m a fun e => { e with services := e.services ||| services, lastSuccess := now, lastAttempt := now, attempts := 0, used := true }

/-- hsk_addrman_clear_banned (src/addrmgr.c:338-341). -/
def clearBanned (m : Man) : Man := { m with banned := [] }

/-- hsk_addrman_add_ban (src/addrmgr.c:343-368). -/
def addBan (m : Man) (a : Addr) (clock : Int) : Man := { m with banned := m.banned.set (keyOf a) clock }

/-- hsk_addrman_is_banned (src/addrmgr.c:370-386). -/
def isBanned (m : Man) (a : Addr) (clock : Int) : Man × Bool :=
  match m.banned.get (keyOf a) with
  | none => (m, false)
  | some t => if clock > t + 86400 then ({ m with banned := m.banned.del (keyOf a) }, false) else (m, true)

/-- The loop of hsk_addrman_pick (src/addrmgr.c:411-450), `n` tries left of 100; `choice i`
is what the i-th hsk_addrman_search returns. HSK_BRONTIDE_PORT is the main network's. -/
def pickLoop (choice : Nat → Nat) (connected : Key → Bool) (now clock : Int) : Nat → Nat → Man → Man × Option Entry
  | 0, _, m => (m, none)
  | n + 1, i, m =>
    match m.addrs[choice i % m.addrs.length]? with
    | none => (m, none)
    | some e =>
      if e.removed then pickLoop choice connected now clock n (i + 1) m
      else if connected (keyOf e.addr) then pickLoop choice connected now clock n (i + 1) m
      else if !Addr.isValid e.addr then pickLoop choice connected now clock n (i + 1) m
      else if e.services % 2 = 0 then pickLoop choice connected now clock n (i + 1) m
      else if Addr.isOnion e.addr then pickLoop choice connected now clock n (i + 1) m
      else if i < 30 ∧ now - e.lastAttempt < 600 then pickLoop choice connected now clock n (i + 1) m
      else if i < 50 ∧ e.addr.port ≠ 44806 then pickLoop choice connected now clock n (i + 1) m
      else if i < 95 then
        let r := isBanned m e.addr clock
        if r.2 then pickLoop choice connected now clock n (i + 1) r.1 else (r.1, some e)
      else (m, some e)

/-- hsk_addrman_pick (src/addrmgr.c:411-450). -/
def pick (m : Man) (choice : Nat → Nat) (connected : Key → Bool) (now clock : Int) : Man × Option Entry :=
  pickLoop choice connected now clock 100 0 m

end Verif.Addrman
