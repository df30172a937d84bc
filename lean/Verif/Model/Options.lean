import Verif.Model.Addr
import Verif.Model.Label
/-
Model of the command line of hnsd: src/daemon.c from its start to `print_identity`, and the hex
functions of src/utils.c. Text arguments are byte strings without NUL.

`getopt_long` is the C library's; it is modelled after its manual, arguments that are not options
being moved behind the options. Its search for a long option looks at the table up to the entry
that matches, and past the end of the table if none does: the table must end with an entry of
zeros, and this one does not.

The heap is the blocks in use. `strdup` succeeds. Printing is left out. The numbers of ports are the
main network's. Code for Windows is left out.
-/
namespace Verif.Options
open Verif.Addr (Inet Sa)

/-! ### The C library -/

/-- What `getopt_long` gives for one option: its letter and argument, `?`, or a search of the table
past its end. -/
inductive Item where
  | opt (c : UInt8) (arg : Option Bytes)
  | bad
  | lost
  deriving DecidableEq, Repr

/-- Whether the letter is in the string of options and takes an argument. -/
def kind (c : UInt8) : Bytes → Option Bool
  | [] => none
  | x :: s => if x = c then some (s.head? == some 0x3a) else kind c s

/-- One argument of letters (`-abc`), and whether the next argument was taken as an argument of
its last letter. -/
def letters (optstring : Bytes) (next : Option Bytes) : Bytes → List Item × Bool
  | [] => ([], false)
  | c :: s =>
    match if c = 0x3a ∨ c = 0x3b then none else kind c optstring with
    | none => (.bad :: (letters optstring next s).1, (letters optstring next s).2)
    | some false => (.opt c none :: (letters optstring next s).1, (letters optstring next s).2)
    | some true =>
      if s ≠ [] then ([.opt c (some s)], false)
      else match next with
        | some v => ([.opt c (some v)], true)
        | none => ([.bad], false)

/-- Entry of the table of long options: name, whether it takes an argument, letter. -/
structure Long where
  name : Bytes
  arg : Bool
  val : UInt8

/-- A long option, without its dashes, and whether the next argument was taken. -/
def long (table : List Long) (next : Option Bytes) (s : Bytes) : Item × Bool :=
  let name := s.takeWhile (· != 0x3d)
  let value := if name.length < s.length then some (s.drop (name.length + 1)) else none
  match table.find? (fun l => l.name == name) with
  | none => (.lost, false)
  | some l =>
    if l.arg then
      match value with
      | some v => (.opt l.val (some v), false)
      | none => match next with
        | some v => (.opt l.val (some v), true)
        | none => (.bad, false)
    else if value.isSome then (.bad, false)
    else (.opt l.val none, false)

/-- All results of `getopt_long` over the arguments after the program's name, and whether arguments
remain that are not options. -/
def scan (optstring : Bytes) (table : List Long) : List Bytes → List Item × Bool
  | [] => ([], false)
  | [0x2d, 0x2d] :: rest => ([], !rest.isEmpty)
  | (0x2d :: 0x2d :: s) :: rest =>
    let x := long table rest.head? s
    let r := scan optstring table (if x.2 then rest.tail else rest)
    (x.1 :: r.1, r.2)
  | (0x2d :: c :: s) :: rest =>
    let x := letters optstring rest.head? (c :: s)
    let r := scan optstring table (if x.2 then rest.tail else rest)
    (x.1 ++ r.1, r.2)
  | _ :: rest => ((scan optstring table rest).1, true)
  termination_by args => args.length
  decreasing_by all_goals (simp only [List.length_cons]; first | omega | (split <;> first | omega | (simp only [List.length_tail]; omega)))

/-- Characters `atoi` skips. -/
def isSpace (c : UInt8) : Bool := c == 0x20 || (decide (0x09 ≤ c) && decide (c ≤ 0x0d))

/-- The number the digits at the start denote, after `n`. -/
def digits (n : Nat) : Bytes → Nat
  | [] => n
  | c :: s => if 0x30 ≤ c ∧ c ≤ 0x39 then digits (10 * n + (c.toNat - 0x30)) s else n

/-- The number at the start, with its sign. -/
def signed (s : Bytes) : Int :=
  if s.head? = some 0x2d then -(digits 0 s.tail : Int)
  else if s.head? = some 0x2b then digits 0 s.tail
  else digits 0 s

/-- `atoi`, undefined for what an `int` cannot hold. -/
def atoi (s : Bytes) : Out Unit Int :=
  let v := signed (s.dropWhile isSpace)
  if -2 ^ 31 ≤ v ∧ v < 2 ^ 31 then .ok v else .ub

/-! ### Memory -/

/-- The blocks in use, and the number the next one gets. -/
structure Heap where
  next : Nat
  live : List Nat
  deriving DecidableEq, Repr

/-- A pointer to a block, or into the options themselves. -/
inductive Ptr where
  | blk (n : Nat)
  | inside
  deriving DecidableEq, Repr

/-- A pointer to text. -/
structure Str where
  ptr : Ptr
  text : Bytes
  deriving DecidableEq, Repr

/-- `strdup`. -/
def strdup (h : Heap) (s : Bytes) : Heap × Str := (⟨h.next + 1, h.next :: h.live⟩, ⟨.blk h.next, s⟩)

/-- `free` of a pointer that is not null. -/
def free {ε : Type} (h : Heap) : Ptr → Out ε Heap
  | .blk n => if n ∈ h.live then .ok { h with live := h.live.erase n } else .ub
  | .inside => .ub

/-! ### Hex -/

/-- hsk_hex_decode_size (src/utils.c:181-186). -/
def hexDecodeSize (s : Bytes) : Nat := s.length / 2

/-- hsk_hex_decode (src/utils.c:188-219) into the bytes at `data`; `odd` is the lowest bit of `i`.
`err` is `false`. -/
def hexLoop (data : Bytes) (p : Nat) (w : UInt8) : Bool → Bytes → Out Unit Bytes
  | odd, [] => if odd then .err () else .ok data
  | odd, c :: s =>
    match Label.nibble c with
    | none => .err ()
    | some n =>
      if odd then
        if p < data.length then hexLoop (data.set p (w ||| UInt8.ofNat n)) (p + 1) (w ||| UInt8.ofNat n) false s
        else .ub
      else hexLoop data p (UInt8.ofNat n <<< 4) true s

/-- to_char (src/utils.c:117-126): -1 is `none`. -/
def hexChar (n : UInt8) : Option UInt8 :=
  if n ≤ 9 then some (n + 0x30) else if 0x0a ≤ n ∧ n ≤ 0x0f then some (n - 0x0a + 0x61) else none

/-- hsk_hex_encode (src/utils.c:133-165) without the NUL, two rounds at a time. -/
def hexEncode : Bytes → Option Bytes
  | [] => some []
  | b :: s =>
    match hexChar (b >>> 4), hexChar (b &&& 15) with
    | some x, some y => (hexEncode s).map fun r => x :: y :: r
    | _, _ => none

/-! ### The options -/

/-- hsk_options_t (src/daemon.c:27-43). -/
structure Opts where
  config : Option Str
  nsHost : Sa
  rsHost : Sa
  nsIp : Sa
  rsConfig : Option Str
  key_ : Bytes
  key : Option Ptr
  seeds : Option Str
  poolSize : Int
  userAgent : Option Str
  checkpoint : Bool
  pre : Option Str

/-- hsk_sa_from_string (src/addr.c:545-555). `err` is `false`. -/
def saFromString (I : Inet) (s : Bytes) (port : Nat) : Out Unit Sa :=
  (Addr.fromString I s port).bind fun a => .ok (Addr.toSa a)

/-- "127.0.0.1" -/
def localhost : Bytes := [0x31, 0x32, 0x37, 0x2e, 0x30, 0x2e, 0x30, 0x2e, 0x31]

/-- HSK_NS_PORT, HSK_RS_PORT (src/constants.h:54-55) and HSK_POOL_SIZE (src/pool.h:23). -/
def nsPort : Nat := 5349
def rsPort : Nat := 5350
def poolSize : Int := 8

/-- A failed assertion. -/
def assertOk {α ε : Type} : Out ε α → Out Unit α
  | .ok a => .ok a
  | _ => .ub

/-- hsk_options_init (src/daemon.c:45-62). -/
def optsInit (I : Inet) : Out Unit Opts :=
  (assertOk (saFromString I localhost nsPort)).bind fun ns =>
  (assertOk (saFromString I localhost rsPort)).bind fun rs =>
  (assertOk (saFromString I localhost 0)).bind fun ip =>
  .ok { config := none, nsHost := ns, rsHost := rs, nsIp := ip, rsConfig := none, key_ := List.replicate 32 0, key := none
        seeds := none, poolSize := poolSize, userAgent := none, checkpoint := false, pre := none }

/-- `if (p) free(p)`. -/
def freeIf {ε : Type} (h : Heap) : Option Ptr → Out ε Heap
  | none => .ok h
  | some p => free h p

/-- hsk_options_uninit (src/daemon.c:64-95): the heap. -/
def optsUninit (h : Heap) (o : Opts) : Out Unit Heap :=
  (freeIf h (o.config.map (·.ptr))).bind fun h => (freeIf h (o.rsConfig.map (·.ptr))).bind fun h =>
  (freeIf h o.key).bind fun h => (freeIf h (o.seeds.map (·.ptr))).bind fun h =>
  (freeIf h (o.userAgent.map (·.ptr))).bind fun h => freeIf h (o.pre.map (·.ptr))

/-- How the process ends while it reads its options. -/
inductive Exit where
  | help (status : Nat)
  | version
  | parent
  deriving DecidableEq, Repr

/-- The options, the heap and the other variables of parse_arg (src/daemon.c:238-243). -/
structure St where
  o : Opts
  heap : Heap
  hasIp : Bool
  log : Option Str
  background : Bool

/-- "hvtc:n:r:i:u:p:k:s:l:h:a:x:d" (src/daemon.c:211-216). -/
def optstring : Bytes :=
  [0x68, 0x76, 0x74, 0x63, 0x3a, 0x6e, 0x3a, 0x72, 0x3a, 0x69, 0x3a, 0x75, 0x3a, 0x70, 0x3a, 0x6b, 0x3a, 0x73, 0x3a, 0x6c, 0x3a,
   0x68, 0x3a, 0x61, 0x3a, 0x78, 0x3a, 0x64]

/-- The bytes of an ASCII text. -/
def ascii (s : String) : Bytes := s.toList.map fun c => UInt8.ofNat c.toNat

/-- longopts (src/daemon.c:218-236). -/
def table : List Long :=
  [⟨ascii "version", false, 0x76⟩, ⟨ascii "config", true, 0x63⟩, ⟨ascii "ns-host", true, 0x6e⟩, ⟨ascii "rs-host", true, 0x72⟩,
   ⟨ascii "ns-ip", true, 0x69⟩, ⟨ascii "rs-config", true, 0x75⟩, ⟨ascii "pool-size", true, 0x70⟩,
   ⟨ascii "identity-key", true, 0x6b⟩, ⟨ascii "seeds", true, 0x73⟩, ⟨ascii "log-file", true, 0x6c⟩,
   ⟨ascii "user-agent", true, 0x61⟩, ⟨ascii "checkpoint", false, 0x74⟩, ⟨ascii "prefix", true, 0x78⟩,
   ⟨ascii "daemon", false, 0x64⟩, ⟨ascii "help", false, 0x68⟩]

/-- The replacement of a text, as in src/daemon.c:267-270: the one before is freed. -/
def replace (h : Heap) (old : Option Str) (s : Bytes) : Out Exit (Heap × Str) :=
  (freeIf h (old.map (·.ptr))).bind fun h => .ok (strdup h s)

/-- The options with an address, as src/daemon.c:275-305: `help(1)` if it does not parse. -/
def address (I : Inet) (s : Bytes) (port : Nat) : Out Exit Sa :=
  match saFromString I s port with
  | .ok a => .ok a
  | .err _ => .err (.help 1)
  | .ub => .ub

/-- The size of the pool (src/daemon.c:319-331). -/
def size (s : Bytes) : Out Exit Int :=
  match atoi s with
  | .ok n => if n ≤ 0 ∨ n > 1000 then .err (.help 1) else .ok n
  | _ => .ub

/-- The identity key (src/daemon.c:333-346), stored into `buf`. -/
def key (buf s : Bytes) : Out Exit Bytes :=
  if hexDecodeSize s ≠ 32 then .err (.help 1)
  else match hexLoop buf 0 0 false s with
    | .ok k => .ok k
    | .err _ => .err (.help 1)
    | .ub => .ub

/-- The options with an argument `s` that is not empty (src/daemon.c:263-394). -/
def withArg (I : Inet) (st : St) (c : UInt8) (s : Bytes) : Out Exit St :=
  if c = 0x63 then (replace st.heap st.o.config s).bind fun (h, x) => .ok { st with heap := h, o := { st.o with config := some x } }
  else if c = 0x6e then (address I s nsPort).bind fun a => .ok { st with o := { st.o with nsHost := a } }
  else if c = 0x72 then (address I s rsPort).bind fun a => .ok { st with o := { st.o with rsHost := a } }
  else if c = 0x69 then (address I s 0).bind fun a => .ok { st with o := { st.o with nsIp := a }, hasIp := true }
  else if c = 0x75 then (replace st.heap st.o.rsConfig s).bind fun (h, x) => .ok { st with heap := h, o := { st.o with rsConfig := some x } }
  else if c = 0x70 then (size s).bind fun n => .ok { st with o := { st.o with poolSize := n } }
  else if c = 0x6b then (key st.o.key_ s).bind fun k => .ok { st with o := { st.o with key_ := k, key := some .inside } }
  else if c = 0x73 then (replace st.heap st.o.seeds s).bind fun (h, x) => .ok { st with heap := h, o := { st.o with seeds := some x } }
  else if c = 0x6c then (replace st.heap st.log s).bind fun (h, x) => .ok { st with heap := h, log := some x }
  else if c = 0x61 then (replace st.heap st.o.userAgent s).bind fun (h, x) => .ok { st with heap := h, o := { st.o with userAgent := some x } }
  else if c = 0x78 then (replace st.heap st.o.pre s).bind fun (h, x) => .ok { st with heap := h, o := { st.o with pre := some x } }
  else .ok st

/-- One turn of the loop (src/daemon.c:253-413). -/
def handle (I : Inet) (st : St) : Item → Out Exit St
  | .lost => .ub
  | .bad => .err (.help 1)
  | .opt c arg =>
    if c = 0x76 then .err .version
    else if c = 0x68 then .err (.help 0)
    else if c = 0x74 then .ok { st with o := { st.o with checkpoint := true } }
    else if c = 0x64 then .ok { st with background := true }
    else match arg with
      | none => .err (.help 1)
      | some s => if s.length = 0 then .err (.help 1) else withArg I st c s

/-- The loop (src/daemon.c:247-414). -/
def loop (I : Inet) (st : St) : List Item → Out Exit St
  | [] => .ok st
  | x :: r => (handle I st x).bind fun st => loop I st r

/-- Where the output goes. -/
inductive Output where
  | unchanged
  | file (name : Bytes)
  | null
  deriving DecidableEq, Repr

/-- What the system answers: whether the parent is the first process, and what `fork` returns: a
failure, zero in the child, or the number of the child. -/
inductive Fork where
  | fails
  | child
  | parent
  deriving DecidableEq, Repr

structure Sys where
  init : Bool
  fork : Fork

/-- daemonize (src/daemon.c:110-143) on Linux. -/
def daemonize (sys : Sys) (log : Option Bytes) : Out Exit Output :=
  if sys.init then .ok .unchanged
  else match sys.fork with
    | .fails => .ok .unchanged
    | .parent => .err .parent
    | .child => match log with
      | some f => .ok (.file f)
      | none => .ok .null

/-- The end of parse_arg (src/daemon.c:416-434). -/
def finish (sys : Sys) (st : St) (extra : Bool) : Out Exit (Opts × Heap × Output) :=
  if extra then .err (.help 1)
  else
    let o := if st.hasIp then st.o else { st.o with nsIp := st.o.nsHost }
    (if st.background then daemonize sys (st.log.map (·.text))
      else match st.log with
        | some f => .ok (.file f.text)
        | none => .ok .unchanged).bind fun out =>
    (freeIf st.heap (st.log.map (·.ptr))).bind fun h => .ok (o, h, out)

/-- parse_arg (src/daemon.c:209-434), from the options given. -/
def parse (I : Inet) (sys : Sys) (o : Opts) (args : List Bytes) : Out Exit (Opts × Heap × Output) :=
  let x := scan optstring table args
  (loop I { o := o, heap := ⟨0, []⟩, hasIp := false, log := none, background := false } x.1).bind fun st => finish sys st x.2

/-- The first two calls of main (src/daemon.c:739-742). -/
def start (I : Inet) (sys : Sys) (args : List Bytes) : Out Exit (Opts × Heap × Output) :=
  match optsInit I with
  | .ok o => parse I sys o args
  | _ => .ub

/-- print_identity (src/daemon.c:436-461): the text of the key printed; `err` is `false`. -/
def printIdentity (createPubkey : Bytes → Option Bytes) (k : Bytes) : Out Unit Bytes :=
  match createPubkey k with
  | none => .err ()
  | some pub =>
    if Base32.encodeSize pub false > 54 then .ub
    else (Base32.encode2 Base32.charset pub false).bind fun b32 => Addr.strcpy 54 b32

end Verif.Options
