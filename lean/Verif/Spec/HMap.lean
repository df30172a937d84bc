import Verif.Model.HMap
/-
What a dictionary does, as a list of pairs with pairwise different keys: independent of buckets,
probing and rehashing. Only the calls and results are those of the model.
-/
namespace Verif.Spec.HMap
open Verif.HMap

/-- What is asked of the two functions a table is made with. -/
structure Lawful {κ : Type} (F : Fns κ) : Prop where
  refl : ∀ a, F.eq a a = true
  symm : ∀ a b, F.eq a b = true → F.eq b a = true
  trans : ∀ a b c, F.eq a b = true → F.eq b c = true → F.eq a c = true
  hash : ∀ a b, F.eq a b = true → F.h a = F.h b

/-- The value under a key. -/
def find {κ ν : Type} (F : Fns κ) (d : List (κ × ν)) (k : κ) : Option ν := (d.find? fun e => F.eq e.1 k).map (·.2)

/-- Everything but what is under a key. -/
def without {κ ν : Type} (F : Fns κ) (d : List (κ × ν)) (k : κ) : List (κ × ν) := d.filter fun e => !F.eq e.1 k

/-- What a call may return, and the dictionary afterwards. An insertion may be refused only when
there is no memory, and then nothing changes. -/
inductive Call {κ ν : Type} (F : Fns κ) : List (κ × ν) → Op κ ν → Ret ν → List (κ × ν) → Prop
  | set (d k v mem) : Call F d (.set k v mem) (.done true) ((k, v) :: without F d k)
  | refused (d k v) : Call F d (.set k v false) (.done false) d
  | get (d k) : Call F d (.get k) (.found (find F d k)) d
  | has (d k) : Call F d (.has k) (.done (find F d k).isSome) d
  | del (d k) : Call F d (.del k) (.done (find F d k).isSome) (without F d k)
  | size (d) : Call F d .size (.num d.length) d
  | values (d l) : l.Perm (d.map (·.2)) → Call F d .values (.list l) d
  | clear (d l) : l.Perm (d.map (·.2)) → Call F d .clear (.list l) []

/-- A history of calls. -/
inductive History {κ ν : Type} (F : Fns κ) : List (κ × ν) → List (Op κ ν) → List (Ret ν) → List (κ × ν) → Prop
  | nil (d) : History F d [] [] d
  | cons {d o r d' os rs e} : Call F d o r d' → History F d' os rs e → History F d (o :: os) (r :: rs) e

/-- The dictionary never holds `max` keys, however often memory runs out. -/
def Fits {κ ν : Type} (F : Fns κ) (max : Nat) (ops : List (Op κ ν)) : Prop :=
  ∀ pre post rs d, ops = pre ++ post → History F [] pre rs d → d.length < max

end Verif.Spec.HMap
