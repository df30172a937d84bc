import Verif.Model.Bio
import Verif.Model.Base32
/-
Model of src/addr.c. The text conversions of libuv (`uv_inet_pton`, `uv_inet_ntop`) and
the string hash are parameters. Strings are byte lists without the final NUL.
-/
namespace Verif.Addr
open Verif.Bio

/-- hsk_addr_t (src/addr.h:17-22). -/
structure Addr where
  type : Nat
  ip : Bytes
  port : Nat
  key : Bytes
  deriving DecidableEq, Repr

/-- hsk_netaddr_t (src/addr.h:24-28). -/
structure Netaddr where
  time : Nat
  services : Nat
  addr : Addr
  deriving DecidableEq, Repr

/-- hsk_ip4_mapped (src/addr.c:18-22). -/
def mapped : Bytes := [0, 0, 0, 0, 0, 0, 0, 0, 0, 0, 0xff, 0xff]
/-- hsk_local_ip (src/addr.c:24-29). -/
def localIp : Bytes := [0, 0, 0, 0, 0, 0, 0, 0, 0, 0, 0, 0, 0, 0, 0, 1]
/-- hsk_zero_ip (src/addr.c:31-36). -/
def zeroIp : Bytes := [0, 0, 0, 0, 0, 0, 0, 0, 0, 0, 0, 0, 0, 0, 0, 0]
/-- hsk_rfc4862 (src/addr.c:44-47). -/
def rfc4862 : Bytes := [0xfe, 0x80, 0, 0, 0, 0, 0, 0]
/-- hsk_shifted (src/addr.c:55-59). -/
def shifted : Bytes := [0, 0, 0, 0, 0, 0, 0, 0xff, 0xff]
/-- hsk_tor_onion (src/addr.c:61-64). -/
def torOnion : Bytes := [0xfd, 0x87, 0xd8, 0x7e, 0xeb, 0x43]
/-- hsk_zero_pub (src/addr.c:66-72). -/
def zeroPub : Bytes := List.replicate 33 0

/-- hsk_addr_init (src/addr.c:74-78). -/
def init : Addr := { type := 0, ip := List.replicate 36 0, port := 0, key := List.replicate 33 0 }

/-- `memcmp(addr->ip, p, sizeof(p)) == 0` against the start of the 36 byte array. -/
def startsWith (a : Addr) (p : Bytes) : Bool := a.ip.take p.length == p

/-- One byte of the array as a number. -/
def byte (a : Addr) (i : Nat) : Nat := (a.ip.getD i 0).toNat

/-- hsk_addr_is_mapped, hsk_addr_is_ip4 (src/addr.c:108-118). -/
def isMapped (a : Addr) : Bool := startsWith a mapped
/-- hsk_addr_is_onion (src/addr.c:126-130). -/
def isOnion (a : Addr) : Bool := startsWith a torOnion
/-- hsk_addr_is_ip6 (src/addr.c:120-124). -/
def isIp6 (a : Addr) : Bool := !isMapped a && !isOnion a
/-- hsk_addr_has_key (src/addr.c:132-136). -/
def hasKey (a : Addr) : Bool := a.key != zeroPub

/-- hsk_addr_get_ip (src/addr.c:157-163): the array from the returned pointer on. -/
def getIp (a : Addr) : Bytes := if isIp6 a then a.ip else a.ip.drop 12

/-- Address families. -/
inductive Af where
  | inet
  | inet6
  deriving DecidableEq, Repr

/-- hsk_addr_get_af (src/addr.c:138-142). -/
def getAf (a : Addr) : Af := if isMapped a then .inet else .inet6

/-- hsk_addr_set_ip (src/addr.c:165-184); `ip` has 4 or 16 bytes. -/
def setIp (a : Addr) (af : Af) (ip : Bytes) : Addr :=
  match af with
  | .inet => { a with ip := List.replicate 10 0 ++ List.replicate 2 0xff ++ ip.take 4 ++ List.replicate 20 0 }
  | .inet6 => { a with ip := ip.take 16 ++ List.replicate 20 0 }

/-- The parts of a `sockaddr_in` or `sockaddr_in6` the code uses, port in host order. -/
inductive Sa where
  | in4 (ip : Bytes) (port : Nat)
  | in6 (ip : Bytes) (port : Nat)
  deriving DecidableEq, Repr

/-- hsk_addr_from_sa (src/addr.c:213-236) for the two known families. -/
def fromSa : Sa → Addr
  | .in4 ip port => { setIp init .inet ip with port := port }
  | .in6 ip port => { setIp init .inet6 ip with port := port }

/-- hsk_addr_to_sa (src/addr.c:238-261). -/
def toSa (a : Addr) : Sa :=
  match getAf a with
  | .inet => .in4 ((a.ip.drop 12).take 4) a.port
  | .inet6 => .in6 (a.ip.take 16) a.port

/-- hsk_addr_from_ip (src/addr.c:263-280): the address built, and the returned value. -/
def fromIp (af : Af) (ip : Bytes) (port : Nat) : Addr × Bool :=
  ({ setIp init af ip with port := port }, false)

/-- hsk_addr_is_null (src/addr.c:659-673). -/
def isNull (a : Addr) : Bool :=
  if isMapped a then decide (byte a 12 = 0) && decide (byte a 13 = 0) && decide (byte a 14 = 0) && decide (byte a 15 = 0)
  else startsWith a zeroIp

/-- hsk_addr_is_broadcast (src/addr.c:675-687). -/
def isBroadcast (a : Addr) : Bool :=
  isMapped a && (decide (byte a 12 = 255) && decide (byte a 13 = 255) && decide (byte a 14 = 255) && decide (byte a 15 = 255))

/-- hsk_addr_is_rfc1918 (src/addr.c:689-706). -/
def isRfc1918 (a : Addr) : Bool :=
  isMapped a && (decide (byte a 12 = 10) || (decide (byte a 12 = 192) && decide (byte a 13 = 168)) ||
    (decide (byte a 12 = 172) && (decide (byte a 13 ≥ 16) && decide (byte a 13 ≤ 31))))

/-- hsk_addr_is_rfc2544 (src/addr.c:708-722). -/
def isRfc2544 (a : Addr) : Bool :=
  isMapped a && ((decide (byte a 12 = 198) && (decide (byte a 13 = 18) || decide (byte a 13 = 19))) ||
    (decide (byte a 12 = 169) && decide (byte a 13 = 254)))

/-- hsk_addr_is_rfc3927 (src/addr.c:724-735). -/
def isRfc3927 (a : Addr) : Bool := isMapped a && (decide (byte a 12 = 169) && decide (byte a 13 = 254))

/-- hsk_addr_is_rfc6598 (src/addr.c:737-750). -/
def isRfc6598 (a : Addr) : Bool :=
  isMapped a && (decide (byte a 12 = 100) && (decide (byte a 13 ≥ 64) && decide (byte a 13 ≤ 127)))

/-- hsk_addr_is_rfc5737 (src/addr.c:752-771). -/
def isRfc5737 (a : Addr) : Bool :=
  isMapped a && ((decide (byte a 12 = 192) && (decide (byte a 13 = 0) && decide (byte a 14 = 2))) ||
    (decide (byte a 12 = 198) && decide (byte a 13 = 51) && decide (byte a 14 = 100)) ||
    (decide (byte a 12 = 203) && decide (byte a 13 = 0) && decide (byte a 14 = 113)))

/-- hsk_addr_is_rfc3849 (src/addr.c:773-783). -/
def isRfc3849 (a : Addr) : Bool :=
  decide (byte a 0 = 0x20) && decide (byte a 1 = 0x01) && decide (byte a 2 = 0x0d) && decide (byte a 3 = 0xb8)

/-- hsk_addr_is_rfc4862 (src/addr.c:813-817). -/
def isRfc4862 (a : Addr) : Bool := startsWith a rfc4862

/-- hsk_addr_is_rfc4193 (src/addr.c:819-827): `ip[0] & 0xfe == 0xfc`. -/
def isRfc4193 (a : Addr) : Bool := decide (byte a 0 / 2 * 2 = 0xfc)

/-- hsk_addr_is_rfc4843 (src/addr.c:835-845): `ip[3] & 0xf0 == 0x10`. -/
def isRfc4843 (a : Addr) : Bool :=
  decide (byte a 0 = 0x20) && decide (byte a 1 = 0x01) && decide (byte a 2 = 0) && decide (byte a 3 / 16 * 16 = 0x10)

/-- hsk_addr_is_local (src/addr.c:847-861). -/
def isLocal (a : Addr) : Bool :=
  if isMapped a then decide (byte a 12 = 127) && decide (byte a 13 = 0) else startsWith a localIp

/-- hsk_addr_is_multicast (src/addr.c:863-874): `ip[12] & 0xf0 == 0xe0`. -/
def isMulticast (a : Addr) : Bool :=
  if isMapped a then decide (byte a 12 / 16 * 16 = 0xe0) else decide (byte a 0 = 0xff)

/-- hsk_addr_is_valid (src/addr.c:876-896). -/
def isValid (a : Addr) : Bool :=
  if a.type ≠ 0 then false
  else if startsWith a shifted then false
  else if isNull a then false
  else if isBroadcast a then false
  else if isRfc3849 a then false
  else true

/-- hsk_addr_is_routable (src/addr.c:898-933). -/
def isRoutable (a : Addr) : Bool :=
  if !isValid a then false
  else if isRfc1918 a then false
  else if isRfc2544 a then false
  else if isRfc3927 a then false
  else if isRfc4862 a then false
  else if isRfc6598 a then false
  else if isRfc5737 a then false
  else if isRfc4193 a && !isOnion a then false
  else if isRfc4843 a then false
  else if isLocal a then false
  else true

/-- hsk_addr_localize (src/addr.c:526-543); the Bool is the returned value. -/
def localize (a : Addr) : Addr × Bool :=
  if a.type ≠ 0 then (a, false)
  else if isNull a then
    if isMapped a then ({ a with ip := (a.ip.set 12 127).set 15 1 }, true)
    else ({ a with ip := a.ip.set 15 1 }, true)
  else (a, true)

/-- hsk_addr_equal (src/addr.c:640-657). -/
def equal (x y : Addr) : Bool :=
  if x.type ≠ y.type then false
  else if x.ip ≠ y.ip then false
  else if x.port ≠ y.port then false
  else true

/-- hsk_addr_hash (src/addr.c:633-638); `tweak3` is hsk_map_tweak3. -/
def hashOf (tweak3 : Bytes → Nat → Nat → Nat) (a : Addr) : Nat := tweak3 a.ip (a.type + 1) a.port

/-- hsk_netaddr_read (src/addr.c:960-986). -/
def readNetaddr (s : Bytes) : Rd Netaddr := do
  let (time, s) ← readU64 s
  let (services, s) ← readU64 s
  let (type, s) ← readU8 s
  let (ip, s) ← readBytes 36 s
  let (port, s) ← readU16 s
  let (key, s) ← readBytes 33 s
  pure (⟨time, services, ⟨type, if type = 0 then ip.take 16 ++ List.replicate 20 0 else ip, port, key⟩⟩, s)

/-- hsk_netaddr_write (src/addr.c:988-998). -/
def writeNetaddr (na : Netaddr) : Bytes :=
  writeU64 na.time ++ writeU64 na.services ++ writeU8 na.addr.type ++ na.addr.ip ++ writeU16 na.addr.port ++ na.addr.key

/-! ### Text -/

/-- The conversions of libuv between addresses and text. -/
structure Inet where
  pton4 : Bytes → Option Bytes
  pton6 : Bytes → Option Bytes
  ntop4 : Bytes → Bytes
  ntop6 : Bytes → Bytes

/-- `strchr`: the text before and after the first `c`. -/
def strchr (c : UInt8) : Bytes → Option (Bytes × Bytes)
  | [] => none
  | x :: s => if x = c then some ([], s) else (strchr c s).map fun p => (x :: p.1, p.2)

/-- The port loop (src/addr.c:383-396), `i` digits read so far. -/
def parsePort : Nat → Nat → Bytes → Option Nat
  | _, word, [] => some word
  | i, word, c :: s =>
    if c.toNat < 0x30 ∨ c.toNat > 0x39 then none
    else if i = 5 then none
    else parsePort (i + 1) (word * 10 + (c.toNat - 0x30)) s

/-- The key part (src/addr.c:311-330): the key and the rest of the text. -/
def parseKey (src : Bytes) : Out Unit (Option Bytes × Bytes) :=
  match strchr 0x40 src with
  | none => .ok (none, src)
  | some (pub, rest) =>
    if pub.length > 53 then .err ()
    else if pub.length + 1 > 54 then .ub
    else match Base32.decodeSize true Base32.table pub with
      | .ok n =>
        if n ≠ 33 then .err ()
        else match Base32.decode2 true Base32.table pub false with
          | .ok key => if key.length > 33 then .ub else .ok (some (key ++ List.replicate (33 - key.length) 0), rest)
          | .err _ => .err ()
          | .ub => .ub
      | .err _ => .err ()
      | .ub => .ub

/-- The host and port parts (src/addr.c:337-369). -/
def splitHost (src : Bytes) : Option (Bytes × Option Bytes) :=
  match src with
  | 0x5b :: _ =>
    match strchr 0x5d src with
    | none => none
    | some (host, after) =>
      match after with
      | 0x3a :: p => some (host.drop 1, some p)
      | [] => some (host.drop 1, none)
      | _ => none
  | _ =>
    match strchr 0x3a src with
    | none => some (src, none)
    | some (host, p) => if (strchr 0x3a p).isSome then some (src, none) else some (host, some p)

/-- INET6_ADDRSTRLEN on Linux. -/
def addrStrLen : Nat := 46

/-- The port (src/addr.c:376-403). HSK_BRONTIDE_PORT and HSK_PORT are the main network's. -/
def choosePort (hasAt : Bool) (port : Nat) : Option Bytes → Option Nat
  | some p => (parsePort 0 0 p).map (· % 65536)
  | none => some (if port = 0 then (if hasAt then 44806 else 12038) else port)

/-- The address conversion (src/addr.c:405-418). -/
def parseHost (I : Inet) (host : Bytes) : Option (Af × Bytes) :=
  match I.pton4 host with
  | some ip => some (.inet, ip)
  | none => match I.pton6 host with
    | some ip => some (.inet6, ip)
    | none => none

/-- hsk_addr_from_string (src/addr.c:305-423); `err` is `false`. -/
def fromString (I : Inet) (src : Bytes) (port : Nat) : Out Unit Addr :=
  (parseKey src).bind fun (key, rest) =>
    match splitHost rest with
    | none => .err ()
    | some (host, p) =>
      if host.length > addrStrLen then .err ()
      else if host.length + 1 > addrStrLen + 1 then .ub
      else match choosePort key.isSome port p with
        | none => .err ()
        | some sinPort => match parseHost I host with
          | none => .err ()
          | some (af, ip) => .ok { setIp { init with key := key.getD (List.replicate 33 0) } af ip with port := sinPort }

/-- `%u` of a number below 10 ^ fuel. -/
def decimal : Nat → Nat → Bytes
  | 0, _ => []
  | f + 1, n => if n < 10 then [UInt8.ofNat (0x30 + n)] else decimal f (n / 10) ++ [UInt8.ofNat (0x30 + n % 10)]

/-- HSK_MAX_HOST (src/addr.h:15). -/
def maxHost : Nat := 128

/-- `strcpy` of `s` into a buffer of `size` bytes. -/
def strcpy (size : Nat) (s : Bytes) : Out Unit Bytes := if s.length + 1 ≤ size then .ok s else .ub

/-- `uv_inet_ntop` (libuv): refuses when the text and its NUL do not fit. -/
def ntop (I : Inet) (af : Af) (ip : Bytes) (dstLen : Nat) : Out Unit Bytes :=
  match af with
  | .inet => (memSlice ip 0 4).bind fun b => if (I.ntop4 b).length < dstLen then .ok (I.ntop4 b) else .err ()
  | .inet6 => (memSlice ip 0 16).bind fun b => if (I.ntop6 b).length < dstLen then .ok (I.ntop6 b) else .err ()

/-- hsk_addr_to_string (src/addr.c:425-464). -/
def toStr (I : Inet) (a : Addr) (dstLen fb : Nat) : Out Unit Bytes :=
  (ntop I (getAf a) (getIp a) dstLen).bind fun dst =>
    if fb = 0 then .ok dst
    else
      let need := if getAf a = .inet6 then 9 else 7
      if dstLen - dst.length < need then .err ()
      else
        let port := if a.port = 0 then fb else a.port
        if getAf a = .inet6 then
          if dst.length + need < maxHost then
            (strcpy maxHost ([0x5b] ++ dst ++ [0x5d, 0x3a] ++ decimal 5 port)).bind (strcpy dstLen)
          else .ub
        else (strcpy maxHost (dst ++ [0x3a] ++ decimal 5 port)).bind (strcpy dstLen)

/-- hsk_addr_to_full (src/addr.c:466-496). -/
def toFull (I : Inet) (a : Addr) (dstLen fb : Nat) : Out Unit Bytes :=
  (toStr I a dstLen fb).bind fun dst =>
    if !hasKey a then .ok dst
    else
      let size := Base32.encodeSize a.key false
      if dstLen - dst.length < size + 1 then .err ()
      else if size ≤ 54 ∧ dst.length + (size - 1) + 1 < maxHost then
        (Base32.encode2 Base32.charset a.key false).bind fun b32 =>
          (strcpy 54 b32).bind fun b32 => (strcpy maxHost (b32 ++ [0x40] ++ dst)).bind (strcpy dstLen)
      else .ub

end Verif.Addr
