import Verif.Lemmas.Service
/-
C55: the labels of a name.
-/
namespace Verif.Props.Label
open Verif.DnsName Verif.Label Verif.Spec.DnsName Verif.Spec.Label Verif.Spec.Tld

/-- C55: a name has as many labels as are counted. -/
theorem C55_count (ls : List Bytes) (h : OkName ls) : count (text ls) = ls.length := count_text h

/-- C55: label `k` from the left, and label `k` from the right, of those there are. -/
theorem C55_label (ls : List Bytes) (h : OkName ls) (k : Nat) (l : Bytes) (hk : ls[k]? = some l) :
    labelGet (text ls) k = .ok l ∧ labelGet (text ls) ((k : Int) - ls.length) = .ok l := by
  have hlt : k < ls.length := (List.getElem?_eq_some_iff.1 hk).1
  have h1 : index ls.length k = k := by unfold index; rw [if_neg (by omega)]
  have h2 : index ls.length ((k : Int) - ls.length) = k := by unfold index; rw [if_pos (by omega)]; omega
  have hg : ls.getD k [] = l := by rw [List.getD_eq_getElem?_getD, hk]; rfl
  constructor
  · rw [labelGet_text h (by omega), h1, Int.toNat_natCast, hg]
  · rw [labelGet_text h (by omega), h2, Int.toNat_natCast, hg]

/-- C55: the last `k` labels of a name, each with its dot. -/
theorem C55_suffix (ls r : List Bytes) (h : OkName (ls ++ r)) (hr : r ≠ []) :
    labelFrom (text (ls ++ r)) ls.length = .ok (text r) ∧ labelFrom (text (ls ++ r)) (-(r.length : Int)) = .ok (text r) := by
  have hp : 0 < r.length := List.length_pos_iff.2 hr
  have h1 : index (ls ++ r).length ls.length = ls.length := by unfold index; rw [if_neg (by omega)]
  have h2 : index (ls ++ r).length (-(r.length : Int)) = ls.length := by
    unfold index; rw [if_pos (by omega), List.length_append]; omega
  constructor
  · rw [labelFrom_text h (by omega), h1, Int.toNat_natCast, List.drop_left, text_ne hr]
  · rw [labelFrom_text h (by omega), h2, Int.toNat_natCast, List.drop_left, text_ne hr]

/-- C55: _service._proto.name -/
theorem C55_srv (ls : List Bytes) (h : OkName ls) : ∃ b, isSrv (text ls) = .ok b ∧ (b = true ↔ Srv ls) := isSrv_text h

/-- C55: _port._proto.name, with a port that fits 16 bits, and that port. -/
theorem C55_tlsa (ls : List Bytes) (h : OkName ls) : (∃ b, isTlsa (text ls) = .ok b ∧ (b = true ↔ ∃ port, Tlsa ls port)) ∧
    ∃ r, decodeTlsa (text ls) = .ok r ∧ ∀ port, (r.map Prod.snd = some port ↔ Tlsa ls port) := ⟨isTlsa_text h, decodeTlsa_text h⟩

/-- C55: hash._smimecert.name -/
theorem C55_smimea (ls : List Bytes) (h : OkName ls) : ∃ b, isSmimea (text ls) = .ok b ∧ (b = true ↔ Dane "_smimecert".toUTF8.toList ls) := by
  have ht : smimeTag = "_smimecert".toUTF8.toList := by decide +kernel
  obtain ⟨r, h1, h2⟩ := isDane_text h smimeTag (by decide +kernel) (by decide +kernel)
  unfold isSmimea
  rw [h1, ← ht]
  exact ⟨r.isSome, rfl, h2⟩

/-- C55: hash._openpgpkey.name -/
theorem C55_openpgpkey (ls : List Bytes) (h : OkName ls) : ∃ b, isOpenpgpkey (text ls) = .ok b ∧ (b = true ↔ Dane "_openpgpkey".toUTF8.toList ls) := by
  have ht : pgpTag = "_openpgpkey".toUTF8.toList := by decide +kernel
  obtain ⟨r, h1, h2⟩ := isDane_text h pgpTag (by decide +kernel) (by decide +kernel)
  unfold isOpenpgpkey
  rw [h1, ← ht]
  exact ⟨r.isSome, rfl, h2⟩

/-- C55: names compare equal if they are the same but for case and one final dot; and swapping
them swaps the result. -/
theorem C55_compare (a b : Bytes) :
    (nameCmp a b = 0 ↔ ∃ x y, (a = x ++ [0x2e] ∨ a = x ∧ x.getLast? ≠ some 0x2e) ∧ (b = y ++ [0x2e] ∨ b = y ∧ y.getLast? ≠ some 0x2e) ∧ SameName x y) ∧
    nameCmp b a = - nameCmp a b := by
  have strip : ∀ s x : Bytes, (s = x ++ [0x2e] ∨ s = x ∧ x.getLast? ≠ some 0x2e) ↔ x = if isFqdn s then s.dropLast else s := by
    intro s x
    unfold isFqdn
    by_cases hs : s.getLast? = some 0x2e
    · simp only [hs, decide_true, if_true]
      constructor
      · rintro (rfl | ⟨rfl, hx⟩)
        · simp
        · exact absurd hs hx
      · rintro rfl
        left
        have hne : s ≠ [] := by rintro rfl; simp at hs
        rw [List.getLast?_eq_some_getLast hne] at hs
        conv => lhs; rw [← List.dropLast_concat_getLast hne, Option.some.inj hs]
    · simp only [hs, decide_false, Bool.false_eq_true, if_false]
      constructor
      · rintro (rfl | ⟨rfl, -⟩)
        · simp at hs
        · rfl
      · rintro rfl
        exact .inr ⟨rfl, hs⟩
  unfold nameCmp
  refine ⟨?_, (cmpLoop_spec _ _).2⟩
  rw [(cmpLoop_spec _ _).1]
  constructor
  · intro h
    exact ⟨_, _, (strip a _).2 rfl, (strip b _).2 rfl, h⟩
  · rintro ⟨x, y, hx, hy, hs⟩
    rw [← (strip a x).1 hx, ← (strip b y).1 hy]
    exact hs

/-- C55: a name is under another if the labels of that are its last ones, in the same case. -/
theorem C55_subdomain (p c : List Bytes) (hp : OkName p) (hc : OkName c) :
    ∃ b, isSubdomain (text p) (text c) = .ok b ∧ (b = true ↔ p <:+ c) := isSubdomain_text hp hc

/-! ### Concrete names -/

/-- "_443._tcp.Ab." -/
def exLabels : List Bytes := [[0x5f, 0x34, 0x34, 0x33], [0x5f, 0x74, 0x63, 0x70], [0x41, 0x62]]

theorem exOk : OkName exLabels := by simp only [OkName, OkLabel]; decide

example : Tlsa exLabels 443 := ⟨_, _, _, _, rfl, ⟨_, rfl, by decide, by decide, by simp only [IsDigit]; decide, by decide, by decide⟩, ⟨_, by decide, rfl⟩⟩
example : isTlsa (text exLabels) = .ok true := by decide +kernel
example : isSrv (text exLabels) = .ok true := by decide +kernel
example : labelGet (text exLabels) (-1) = .ok [0x41, 0x62] := (C55_label _ exOk 2 _ rfl).2
example : labelFrom (text exLabels) (-2) = .ok (text [[0x5f, 0x74, 0x63, 0x70], [0x41, 0x62]]) := (C55_suffix [_] [_, _] exOk (by decide)).2
example : isSubdomain (text [[0x41, 0x62]]) (text exLabels) = .ok true := by decide +kernel
example : nameCmp [0x41, 0x2e] [0x61] = 0 := by decide +kernel
/-- The port 65536 is refused. -/
example : isTlsa (text [[0x5f, 0x36, 0x35, 0x35, 0x33, 0x36], [0x5f, 0x74], [0x61]]) = .ok false := by decide +kernel
/-- 56 hexadecimal digits. -/
def exHash : Bytes := (List.replicate 28 [0x61, 0x30]).flatten
example : isSmimea (text [exHash, "_SmimeCert".toUTF8.toList, [0x61]]) = .ok true := by decide +kernel
example : isOpenpgpkey (text [exHash, "_openpgpkey".toUTF8.toList, [0x61]]) = .ok true := by decide +kernel

end Verif.Props.Label
