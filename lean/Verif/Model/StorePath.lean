import Verif.Model.Addr
import Verif.Model.Words
/-
Model of the names of the checkpoint file: hsk_store_filename (src/store.c), the check of the directory in
src/daemon.c, and the two names hsk_store_write makes.
-/
namespace Verif.StorePath
open Verif.Words

/-- HSK_STORE_FILENAME (src/store.h:21). -/
def base : Bytes := [0x63, 0x68, 0x65, 0x63, 0x6b, 0x70, 0x6f, 0x69, 0x6e, 0x74]

/-- HSK_STORE_EXTENSION (src/store.h:22). -/
def ext : Bytes := [0x2e, 0x64, 0x61, 0x74]

/-- HSK_STORE_PATH_RESERVED (src/store.h:23). -/
def reserved : Nat := 32

/-- HSK_STORE_PATH_MAX (src/store.h:24). -/
def pathMax : Nat := 1024

/-- HSK_NETWORK_NAME (src/constants.h:50, src/constants.h:94, src/constants.h:149, src/constants.h:193). -/
inductive Net where
  | main | testnet | regtest | simnet
deriving DecidableEq

def Net.text : Net → Bytes
  | .main => [0x6d, 0x61, 0x69, 0x6e]
  | .testnet => [0x74, 0x65, 0x73, 0x74, 0x6e, 0x65, 0x74]
  | .regtest => [0x72, 0x65, 0x67, 0x74, 0x65, 0x73, 0x74]
  | .simnet => [0x73, 0x69, 0x6d, 0x6e, 0x65, 0x74]

/-- `sprintf` of a text to `mem`. -/
def sprintf (mem text : Bytes) : Out Unit Bytes := memcpy mem 0 (text ++ [0])

/-- hsk_store_filename (src/store.c:45-60). The second `sprintf` has its own destination as an argument: what such a
call does is the parameter `overlap`, of the array and of what is put behind. -/
def filename (overlap : Bytes → Bytes → Out Unit Bytes) (net : Net) (sep : UInt8) (dir path : Bytes) (height : Nat) : Out Unit Bytes :=
  (sprintf path (dir ++ [sep] ++ base ++ [0x5f] ++ net.text ++ ext)).bind fun path =>
    if height > 0 then overlap path (0x7e :: Addr.decimal 10 height) else .ok path

/-- The check of the option `prefix` (src/daemon.c:625-637); `there`: the path exists. -/
def accepts (there : Bool) (dir : Bytes) : Bool := there && !decide (dir.length + reserved ≥ pathMax)

/-- The two names of hsk_store_write (src/store.c:90-94), in arrays with whatever is on the stack: the temporary one
and the lasting one. -/
def names (overlap : Bytes → Bytes → Out Unit Bytes) (net : Net) (sep : UInt8) (dir tmp path : Bytes) (height : Nat) : Out Unit (Bytes × Bytes) :=
  (filename overlap net sep dir tmp height).bind fun tmp => (filename overlap net sep dir path 0).bind fun path => .ok (tmp, path)

end Verif.StorePath
