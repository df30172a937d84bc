import Verif.Model.TldTable
/-
Model of the fallback lookup in src/ns.c. A C string is the list of its bytes before the
terminator. `strcasecmp` is the one of the C locale.
-/
namespace Verif.Tld

/-- The byte string a table entry stands for; `fuel` bounds its length. -/
def unpack : Nat → Nat → Bytes → Bytes
  | 0, _, acc => acc
  | f + 1, n, acc => if n < 256 then acc else unpack f (n / 256) (UInt8.ofNat (n % 256) :: acc)

/-- `tolower` in the C locale. -/
def lower (c : UInt8) : UInt8 := if 65 ≤ c ∧ c ≤ 90 then c + 32 else c

/-- `strcasecmp` (C library): the difference at the first place where the lower-case forms
differ, the terminator counting as 0. -/
def strcasecmp : Bytes → Bytes → Int
  | [], [] => 0
  | [], y :: _ => 0 - (lower y).toNat
  | x :: _, [] => (lower x).toNat
  | x :: xs, y :: ys => if lower x = lower y then strcasecmp xs ys else (lower x).toNat - (lower y).toNat

/-- The loop of hsk_tld_index (src/ns.c:813-824) over a table; an access outside it is `ub`.
`fuel` bounds the number of rounds; running out of it is `ub` too. -/
def search (table : List Bytes) (name : Bytes) : Nat → Int → Int → Out Unit (Option Nat)
  | 0, _, _ => .ub
  | fuel + 1, start, stop =>
    if start ≤ stop then
      let pos := (start + stop) / 2
      if pos < 0 then .ub
      else match table[pos.toNat]? with
        | none => .ub
        | some t =>
          let cmp := strcasecmp t name
          if cmp = 0 then .ok (some pos.toNat)
          else if cmp < 0 then search table name fuel (pos + 1) stop
          else search table name fuel start (pos - 1)
    else .ok none

/-- HSK_TLD_NAMES. -/
def nameTable : List Bytes := names.map fun n => unpack 500 n []

/-- HSK_TLD_DATA. -/
def dataTable : List Bytes := data.map fun n => unpack 500 n []

/-- hsk_tld_index (src/ns.c:808-827): the index, or `none` for -1. -/
def index (name : Bytes) : Out Unit (Option Nat) := search nameTable name (tableSize + 1) 0 (tableSize - 1)

/-- hsk_icann_lookup (src/ns.c:829-837) and the split of the entry into length and data in
after_resolve (src/ns.c:779-783): the bytes handed to the decoder. Reading outside the
literal, whose terminator can be read, is `ub`. -/
def lookup (name : Bytes) : Out Unit (Option Bytes) :=
  (index name).bind fun r => match r with
    | none => .ok none
    | some i => match dataTable[i]? with
      | none => .ub
      | some item =>
        (memGet (item ++ [0]) 1).bind fun b1 => (memGet (item ++ [0]) 0).bind fun b0 =>
          (memSlice (item ++ [0]) 2 (b1.toNat * 256 + b0.toNat)).bind fun raw => .ok (some raw)

end Verif.Tld
