import Verif.Spec.Seeds
import Verif.Lemmas.Addrman
import Verif.Props.Addr
import Verif.Props.Base32
/-
Seeds: the loop by positions as one over the text, and texts with commas.
-/
namespace Verif.Seeds
open Verif.Spec.Seeds
open Verif.Addr (Inet Addr Netaddr)
open Verif.Addrman (Man addEntry u64 keyOf)

theorem mem_strchr {c x : UInt8} {s a b : Bytes} (h : Addr.strchr c s = some (a, b)) : s = a ++ c :: b := by
  induction s generalizing a b with
  | nil => simp [Addr.strchr] at h
  | cons y t ih =>
    simp only [Addr.strchr] at h
    by_cases hy : y = c
    · rw [if_pos hy] at h
      simp only [Option.some.injEq, Prod.mk.injEq] at h
      obtain ⟨rfl, rfl⟩ := h
      simp [hy]
    · rw [if_neg hy, Option.map_eq_some_iff] at h
      obtain ⟨⟨a', b'⟩, h1, h2⟩ := h
      simp only [Prod.mk.injEq] at h2
      obtain ⟨rfl, rfl⟩ := h2
      simp [ih h1]

theorem parsePort_comma (p : Bytes) (i w : Nat) (h : 0x2c ∈ p) : Addr.parsePort i w p = none := by
  induction p generalizing i w with
  | nil => simp at h
  | cons c s ih =>
    simp only [Addr.parsePort]
    rcases List.mem_cons.1 h with rfl | h
    · rw [if_pos (by decide)]
    · split
      · rfl
      split
      · rfl
      exact ih _ _ h

theorem decode_comma (s d : Bytes) (h : 0x2c ∈ s) : Base32.decode2 true Base32.table s false ≠ .ok d := by
  intro hd
  obtain ⟨syms, _, h1, h2, _⟩ := Props.Base32.C42_loose_partial s d hd
  have : Spec.Base32.lower 0x2c ∈ s.map Spec.Base32.lower := List.mem_map_of_mem h
  rw [h1, List.mem_map] at this
  obtain ⟨i, hi, e⟩ := this
  have hi := h2 i hi
  revert e
  have : ∀ i < 32, Base32.charset.getD i 0 ≠ Spec.Base32.lower 0x2c := by decide
  exact this i hi

theorem split_comma {s host : Bytes} {p : Option Bytes} (h : Addr.splitHost s = some (host, p)) (hc : 0x2c ∈ s) :
    0x2c ∈ host ∨ ∃ q, p = some q ∧ 0x2c ∈ q := by
  unfold Addr.splitHost at h
  split at h
  · rename_i t
    cases hs : Addr.strchr 0x5d (0x5b :: t) with
    | none => rw [hs] at h; cases h
    | some r =>
      obtain ⟨a, b⟩ := r
      rw [hs] at h
      have e := mem_strchr (x := 0) hs
      have ha : ∃ a', a = 0x5b :: a' := by
        cases a with
        | nil => simp at e
        | cons y a' => simp only [List.cons_append, List.cons.injEq] at e; exact ⟨a', by rw [e.1]⟩
      obtain ⟨a', rfl⟩ := ha
      rw [e] at hc
      simp only [List.cons_append, List.mem_cons, List.mem_append] at hc
      simp only at h
      split at h
      · rename_i q
        simp only [Option.some.injEq, Prod.mk.injEq, List.drop_succ_cons, List.drop_zero] at h
        obtain ⟨rfl, rfl⟩ := h
        rcases hc with hc | hc | hc | hc
        · exact absurd hc (by decide)
        · exact Or.inl hc
        · exact absurd hc (by decide)
        · rcases hc with hc | hc
          · exact Or.inr ⟨_, rfl, by assumption⟩
      · simp only [Option.some.injEq, Prod.mk.injEq, List.drop_succ_cons, List.drop_zero] at h
        obtain ⟨rfl, rfl⟩ := h
        rcases hc with hc | hc | hc | hc
        · exact absurd hc (by decide)
        · exact Or.inl hc
        · exact absurd hc (by decide)
        · cases hc
      · cases h
  · cases hs : Addr.strchr 0x3a s with
    | none => rw [hs] at h; simp only [Option.some.injEq, Prod.mk.injEq] at h; rw [← h.1]; exact Or.inl hc
    | some r =>
      obtain ⟨a, b⟩ := r
      rw [hs] at h
      have e := mem_strchr (x := 0) hs
      simp only at h
      split at h
      · simp only [Option.some.injEq, Prod.mk.injEq] at h; rw [← h.1]; exact Or.inl hc
      · simp only [Option.some.injEq, Prod.mk.injEq] at h
        obtain ⟨rfl, rfl⟩ := h
        rw [e, List.mem_append, List.mem_cons] at hc
        rcases hc with hc | hc | hc
        · exact Or.inl hc
        · exact absurd hc (by decide)
        · exact Or.inr ⟨_, rfl, hc⟩

/-- A text with a comma is not that of an address. -/
theorem comma_bad {I : Inet} (hI : NoCommas I) (s : Bytes) (port : Nat) (hc : 0x2c ∈ s) (a : Addr) : Addr.fromString I s port ≠ .ok a := by
  intro h
  unfold Addr.fromString at h
  cases hk : Addr.parseKey s with
  | err _ => rw [hk] at h; cases h
  | ub => rw [hk] at h; cases h
  | ok r =>
    obtain ⟨key, rest⟩ := r
    rw [hk] at h
    simp only [Out.bind] at h
    have hr : 0x2c ∈ rest := by
      unfold Addr.parseKey at hk
      cases hs : Addr.strchr 0x40 s with
      | none => rw [hs] at hk; simp only [Out.ok.injEq, Prod.mk.injEq] at hk; rw [← hk.2]; exact hc
      | some q =>
        obtain ⟨pub, t⟩ := q
        rw [hs] at hk
        have e := mem_strchr (x := 0) hs
        simp only at hk
        split at hk
        · cases hk
        split at hk
        · cases hk
        split at hk
        · split at hk
          · cases hk
          · cases hd : Base32.decode2 true Base32.table pub false with
            | err _ => rw [hd] at hk; cases hk
            | ub => rw [hd] at hk; cases hk
            | ok d =>
              rw [hd] at hk
              simp only at hk
              split at hk
              · cases hk
              · simp only [Out.ok.injEq, Prod.mk.injEq] at hk
                rw [← hk.2]
                rw [e, List.mem_append, List.mem_cons] at hc
                rcases hc with hc | hc | hc
                · exact absurd hd (decode_comma pub d hc)
                · exact absurd hc (by decide)
                · exact hc
        · cases hk
        · cases hk
    cases hs : Addr.splitHost rest with
    | none => rw [hs] at h; cases h
    | some q =>
      obtain ⟨host, p⟩ := q
      rw [hs] at h
      simp only at h
      split at h
      · cases h
      split at h
      · cases h
      rcases split_comma hs hr with hh | ⟨q, rfl, hq⟩
      · have : Addr.parseHost I host = none := by simp [Addr.parseHost, hI host hh]
        rw [this] at h
        cases hp : Addr.choosePort key.isSome port p <;> rw [hp] at h <;> cases h
      · have : Addr.choosePort key.isSome port (some q) = none := by simp [Addr.choosePort, parsePort_comma q 0 0 hq]
        rw [this] at h
        cases h

/-- One piece. -/
theorem piece_cases (e : Env) (k : Nat) (m : Man) (hm : Addrman.Inv m) (p : Bytes) :
    (p = [] ∧ piece e k m p = .ok (true, k, m)) ∨ (Bad e.I p ∧ piece e k m p = .ok (false, k, m)) ∨
    (∃ a m' b, Reads e.I p a ∧ addAddr e k m a = .ok (m', b) ∧ Addrman.Inv m' ∧ piece e k m p = .ok (b, k + 1, m')) := by
  unfold piece
  by_cases h0 : p.length = 0
  · left; rw [if_pos h0]; exact ⟨List.length_eq_zero_iff.1 h0, rfl⟩
  have hne : p ≠ [] := fun h => h0 (by rw [h]; rfl)
  rw [if_neg h0]
  by_cases h1 : p.length ≥ Addr.maxHost
  · right; left; rw [if_pos h1]; exact ⟨⟨hne, Or.inl h1⟩, rfl⟩
  rw [if_neg h1]
  have h2 : p.length < 128 := by simpa [Addr.maxHost] using h1
  have hc : Addr.strcpy (Addr.maxHost + 1) p = .ok p := by
    unfold Addr.strcpy; rw [if_pos (by simp only [Addr.maxHost]; omega)]
  rw [hc]
  simp only [Out.bind]
  cases hf : Addr.fromString e.I p 0 with
  | ub => exact absurd hf (Props.Addr.C54_safe _ _ _)
  | err _ => right; left; exact ⟨⟨hne, Or.inr fun a h => by rw [hf] at h; cases h⟩, rfl⟩
  | ok a =>
    right; right
    obtain ⟨m', b, ha, hi, _⟩ := hm.add { time := u64 (e.now k), services := 1, addr := a } false (e.now k) (e.rnd k)
    refine ⟨a, m', b, ⟨hne, h2, hf⟩, ha, hi, ?_⟩
    simp only [addAddr, ha]

theorem pieces_append (a r : Bytes) (h : 0x2c ∉ a) : pieces (a ++ 0x2c :: r) = a :: pieces r := by
  induction a with
  | nil => simp [pieces]
  | cons c a ih =>
    simp only [List.mem_cons, not_or] at h
    rw [List.cons_append, pieces, if_neg (Ne.symm h.1), ih h.2]

theorem pieces_last (a : Bytes) (h : 0x2c ∉ a) : pieces a = [a] := by
  induction a with
  | nil => simp [pieces]
  | cons c a ih =>
    simp only [List.mem_cons, not_or] at h
    rw [pieces, if_neg (Ne.symm h.1), ih h.2]

/-- The loop over the rest of the text, with the piece so far. -/
def go (e : Env) : Bytes → Bytes → Nat → Man → Out Unit Man
  | cur, [], k, m => (piece e k m cur).bind fun r => .ok r.2.2
  | cur, c :: r, k, m =>
    (if c = 0x2c then piece e k m cur else .ok (false, k, m)).bind fun (b, k, m) => go e (if b then [] else cur ++ [c]) r k m

theorem loop_go (e : Env) (text : Bytes) (h0 : 0 ∉ text) (hl : text.length < 2 ^ 31 - 1) (r : Bytes) :
    ∀ (i start k : Nat) (m : Man), start ≤ i → i ≤ text.length → text.drop i = r →
    seedsLoop e text (r.length + 1) i start k m = go e ((text.drop start).take (i - start)) r k m := by
  induction r with
  | nil =>
    intro i start k m hs hi hr
    have hc : text.getD i 0 = 0 := by
      rw [List.getD_eq_getElem?_getD, List.getElem?_eq_none (by simpa using hr)]; rfl
    simp only [List.length_nil, Nat.zero_add, seedsLoop, hc, go]
    simp only [or_true, if_true, show ¬ i ≥ 2 ^ 31 - 1 by omega, if_false]
  | cons c r ih =>
    intro i start k m hs hi hr
    have hlt : i < text.length := by
      rcases Nat.lt_or_ge i text.length with h | h
      · exact h
      · rw [List.drop_eq_nil_of_le h] at hr; cases hr
    have hg : text[i]? = some c := by
      have : (text.drop i)[0]? = some c := by rw [hr]; rfl
      simpa using this
    have hc : text.getD i 0 = c := by rw [List.getD_eq_getElem?_getD, hg]; rfl
    have hne : c ≠ 0 := by rintro rfl; exact h0 (List.mem_of_getElem? hg)
    have hr' : text.drop (i + 1) = r := by rw [← List.drop_drop, hr]; rfl
    have hcur : (text.drop start).take (i + 1 - start) = (text.drop start).take (i - start) ++ [c] := by
      rw [Nat.succ_sub hs, List.take_succ]
      congr 1
      rw [List.getElem?_drop, show start + (i - start) = i by omega, hg]; rfl
    rw [List.length_cons, seedsLoop, go]
    simp only [hc, hne, or_false]
    congr 1
    funext ⟨b, k, m⟩
    simp only
    rw [if_neg (by omega)]
    rw [ih (i + 1) _ k m (by split <;> omega) (by omega) hr']
    cases b
    · simp only [Bool.false_eq_true, if_false, hcur]
    · simp only [if_true, Nat.sub_self, List.take_zero]

/-- With a comma in the piece so far nothing happens any more. -/
theorem go_stuck (e : Env) (hI : NoCommas e.I) (r : Bytes) : ∀ (cur : Bytes) (k : Nat) (m : Man), Addrman.Inv m → 0x2c ∈ cur → go e cur r k m = .ok m := by
  have hp : ∀ (cur : Bytes) (k : Nat) (m : Man), Addrman.Inv m → 0x2c ∈ cur → piece e k m cur = .ok (false, k, m) := by
    intro cur k m hm hc
    rcases piece_cases e k m hm cur with ⟨rfl, _⟩ | ⟨_, h⟩ | ⟨a, _, _, h, _⟩
    · cases hc
    · exact h
    · exact absurd h.2.2 (comma_bad hI _ _ hc a)
  induction r with
  | nil => intro cur k m hm hc; simp only [go, hp cur k m hm hc, Out.bind]
  | cons c r ih =>
    intro cur k m hm hc
    simp only [go]
    rw [show (if c = 0x2c then piece e k m cur else .ok (false, k, m)) = .ok (false, k, m) by split <;> simp [hp cur k m hm hc]]
    simp only [Out.bind, Bool.false_eq_true, if_false]
    exact ih _ k m hm (List.mem_append_left _ hc)

theorem go_fed (e : Env) (hI : NoCommas e.I) (r : Bytes) : ∀ (cur : Bytes) (k : Nat) (m : Man), Addrman.Inv m → 0x2c ∉ cur →
    ∃ m', go e cur r k m = .ok m' ∧ Addrman.Inv m' ∧ Fed e k m (pieces (cur ++ r)) m' := by
  induction r with
  | nil =>
    intro cur k m hm hc
    rw [List.append_nil, pieces_last cur hc]
    simp only [go]
    rcases piece_cases e k m hm cur with ⟨rfl, h⟩ | ⟨hb, h⟩ | ⟨a, m', b, hr, ha, hi, h⟩
    · exact ⟨m, by rw [h]; rfl, hm, .empty (.done _ _)⟩
    · exact ⟨m, by rw [h]; rfl, hm, .bad hb⟩
    · refine ⟨m', by rw [h]; rfl, hi, ?_⟩
      cases b
      · exact .known hr ha
      · exact .added hr ha (.done _ _)
  | cons c r ih =>
    intro cur k m hm hc
    by_cases hcc : c = 0x2c
    · subst hcc
      rw [pieces_append cur r hc]
      simp only [go, if_true]
      have stuck : ∀ m k, Addrman.Inv m → go e (cur ++ [0x2c]) r k m = .ok m := fun m k hm => go_stuck e hI r _ k m hm (by simp)
      rcases piece_cases e k m hm cur with ⟨rfl, h⟩ | ⟨hb, h⟩ | ⟨a, m', b, hr, ha, hi, h⟩
      · rw [h]
        simp only [Out.bind, if_true]
        obtain ⟨m', h1, h2, h3⟩ := ih [] k m hm (by simp)
        exact ⟨m', h1, h2, .empty h3⟩
      · rw [h]
        simp only [Out.bind, Bool.false_eq_true, if_false]
        exact ⟨m, stuck m k hm, hm, .bad hb⟩
      · rw [h]
        cases b
        · simp only [Out.bind, Bool.false_eq_true, if_false]
          exact ⟨m', stuck m' (k + 1) hi, hi, .known hr ha⟩
        · simp only [Out.bind, if_true]
          obtain ⟨m'', h1, h2, h3⟩ := ih [] (k + 1) m' hi (by simp)
          exact ⟨m'', h1, h2, .added hr ha h3⟩
    · simp only [go, hcc, if_false, Out.bind, Bool.false_eq_true]
      obtain ⟨m', h1, h2, h3⟩ := ih (cur ++ [c]) k m hm (by simp [hc, Ne.symm hcc])
      exact ⟨m', h1, h2, by simpa using h3⟩

end Verif.Seeds
