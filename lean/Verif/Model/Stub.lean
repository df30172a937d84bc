import Verif.Model.Addr
/-
Model of what the recursive server tells libunbound about where the root zone is (src/rs.c), with the texts "address@port" of
src/addr.c.
-/
namespace Verif.Stub
open Verif.Addr

/-- hsk_addr_to_at (src/addr.c:498-524). -/
def toAt (I : Inet) (a : Addr) (dstLen fb : Nat) : Out Unit Bytes :=
  (ntop I (getAf a) (getIp a) dstLen).bind fun dst =>
    if fb = 0 then .ok dst
    else if dstLen - dst.length < 7 then .err ()
    else
      let port := if a.port = 0 then fb else a.port
      (strcpy maxHost (dst ++ [0x40] ++ decimal 5 port)).bind (strcpy dstLen)

/-- hsk_sa_to_at (src/addr.c:577-595). -/
def saToAt (I : Inet) (s : Sa) (dstLen fb : Nat) : Out Unit Bytes := toAt I (fromSa s) dstLen fb

/-- hsk_sa_localize (src/addr.c:617-631). -/
def saLocalize (s : Sa) : Option Sa :=
  let r := localize (fromSa s)
  if r.2 then some (toSa r.1) else none

/-- HSK_NS_PORT (src/constants.h:54). -/
def nsPort : Nat := 5349

/-- The part of hsk_rs_init (src/rs.c:116-122) and of hsk_rs_inject_options (src/rs.c:226-231) that is about the stub: the text for
`ub_ctx_set_stub`. hsk_sa_copy (src/addr.c:597-615) copies. `err` is a failure. -/
def stubText (I : Inet) (ns : Sa) : Out Unit Bytes := match saLocalize ns with
  | none => .err ()
  | some s => saToAt I s maxHost nsPort

end Verif.Stub
