import Verif.Lemmas.ProofEv
import Verif.Spec.ProofWire
namespace Verif.Proof
open Verif.Bio Verif.Spec.Radix

/-! ### packed bits -/

theorem byteBits_byteOf : ∀ a b c d e f g h : Bool,
    byteBits (byteOf a b c d e f g h) = [a, b, c, d, e, f, g, h] := by decide

theorem packBits_length (l : List Bool) : (packBits l).length = (l.length + 7) / 8 := by
  fun_induction packBits l with
  | case1 => rfl
  | case2 l hne ih =>
    rw [List.length_cons, ih, List.length_drop]
    have : l.length ≠ 0 := by simpa using hne
    omega

theorem packBits_get (l : List Bool) (i : Nat) (h : i < l.length) :
    (bitsOf (packBits l))[i]? = some l[i] := by
  fun_induction packBits l generalizing i with
  | case1 => simp at h
  | case2 l hne ih =>
    rw [bitsOf_cons, byteBits_byteOf]
    by_cases hi : i < 8
    · rw [List.getElem?_append_left (by simpa using hi)]
      have e : ∀ j, j = i → l.getD j false = l[i] := by
        rintro j rfl; simp [h]
      have : i = 0 ∨ i = 1 ∨ i = 2 ∨ i = 3 ∨ i = 4 ∨ i = 5 ∨ i = 6 ∨ i = 7 := by omega
      rcases this with h' | h' | h' | h' | h' | h' | h' | h' <;>
        rw [← e _ h'.symm] <;> subst h' <;> rfl
    · rw [List.getElem?_append_right (by simpa using hi)]
      have := ih (i - 8) (by simp; omega)
      simp only [List.length_cons, List.length_nil] at this ⊢
      rw [this, List.getElem_drop]
      congr 2
      omega

theorem bitAt_packBits (l : List Bool) (i : Nat) (h : i < l.length) :
    bitAt (packBits l) i = l[i] := by
  unfold bitAt; rw [packBits_get l i h]; rfl

theorem bitAt_eq {m : Bytes} {i : Nat} (h : i < 8 * m.length) :
    (bitsOf m)[i]'(by simpa using h) = bitAt m i := by
  unfold bitAt; rw [List.getElem?_eq_getElem (by simpa using h)]; rfl

theorem prefix_iff_match {p : List Bool} {key : Bytes} {d : Nat} (hk : key.length = 32)
    (hd : d + p.length ≤ 256) :
    p <+: (bitsOf key).drop d ↔ Match (packBits p) p.length key d := by
  rw [List.prefix_iff_getElem]
  unfold Match
  constructor
  · rintro ⟨h, h2⟩
    refine ⟨hd, fun i hi => ?_⟩
    rw [bitAt_packBits p i hi, h2 i hi, List.getElem_drop, bitAt_eq (by omega)]
  · rintro ⟨_, h2⟩
    refine ⟨by simp; omega, fun i hi => ?_⟩
    rw [← bitAt_packBits p i hi, h2 i hi, List.getElem_drop, bitAt_eq (by omega)]

theorem nodeString_eq (p : List Bool) (l r : Bytes) :
    nodeString p l r = preOf (packBits p) p.length l r := by
  unfold nodeString preOf
  by_cases h : p = []
  · simp [h]
  · have : p.length ≠ 0 := by simpa using h
    simp only [h, this, if_false]
    rw [List.take_of_length_le (by rw [packBits_length]; omega)]

theorem preOf_pad (p : List Bool) (t l r : Bytes) :
    preOf (packBits p ++ t) p.length l r = preOf (packBits p) p.length l r := by
  unfold preOf
  rw [List.take_append_of_le_length (by rw [packBits_length]; omega)]

theorem hash_length {H : Bytes → Bytes} (hlen : ∀ x, (H x).length = 32) (t : Tree) :
    (rootHash H t).length = 32 := by
  cases t <;> simp [rootHash, hlen, zero32]

theorem drop_key {key : Bytes} (hk : key.length = 32) {d n : Nat} (h : d + n < 256) :
    ((bitsOf key).drop d).drop n = bitAt key (d + n) :: (bitsOf key).drop (d + n + 1) := by
  rw [List.drop_drop, List.drop_eq_getElem_cons (by simp; omega), bitAt_eq (by omega)]

/-- A tree is evidence for what it holds. -/
theorem ev_tree {H : Bytes → Bytes} (hlen : ∀ x, (H x).length = 32) {key : Bytes}
    (hk : key.length = 32) (t : Tree) (d : Nat) (wf : Spec.Radix.WF d t) :
    Ev H key d (rootHash H t) (Spec.Radix.hashed H t) (walk key t ((bitsOf key).drop d)) := by
  induction t generalizing d with
  | null => exact .dead rfl
  | leaf k v =>
    simp only [rootHash, Spec.Radix.hashed, walk, leafString]
    by_cases h : k = key
    · subst h; simp only [if_true]; exact .found v rfl
    · simp only [h, if_false]; exact .other _ k (H v) wf.1 h rfl (by simp)
  | node p l r ihl ihr =>
    obtain ⟨h1, h2, h3⟩ := wf
    have hm := prefix_iff_match (p := p) hk (d := d) (by omega)
    have hpl : (p.length + 7) / 8 ≤ (packBits p).length := by rw [packBits_length]; omega
    simp only [rootHash, Spec.Radix.hashed, walk, nodeString_eq]
    by_cases h : p <+: (bitsOf key).drop d
    · simp only [h, if_true]
      rw [drop_key hk h1]
      cases hb : bitAt key (d + p.length)
      · refine .node (Spec.Radix.hashed H l) _ (packBits p) p.length _ _ (by omega) hpl
          (hash_length hlen l) (hash_length hlen r) (hm.1 h) rfl ?_ (by simp) ?_
        · rw [hb]; simpa using ihl _ h2
        · intro x hx; simp [hx]
      · refine .node (Spec.Radix.hashed H r) _ (packBits p) p.length _ _ (by omega) hpl
          (hash_length hlen l) (hash_length hlen r) (hm.1 h) rfl ?_ (by simp) ?_
        · rw [hb]; simpa using ihr _ h3
        · intro x hx; simp [hx]
    · simp only [h, if_false]
      exact .short _ (packBits p) p.length _ _ (by omega) hpl (hash_length hlen l)
        (hash_length hlen r) (fun hh => h (hm.2 hh)) rfl (by simp)

/-! ### the honest prover -/

theorem prove_spec {H : Bytes → Bytes} (hlen : ∀ x, (H x).length = 32) {key : Bytes}
    (hk : key.length = 32) (t : Tree) (d : Nat) (hd : d ≤ 256) (wf : Spec.Radix.WF d t) (vo : ValuesOk t) :
    let p := prove H key d t
    Canonical p ∧ (p.nodes.length + d ≤ 256) ∧
    (p.type = SHORT → ¬ Match (p.pfx.getD []) p.pfxSize key p.depth) ∧
    (p.type = COLLISION → p.nxKey ≠ some key) ∧
    p.depth = d + span p.nodes ∧ PathOk key d p.nodes ∧
    rootHash H t = (nodeStrings H key (leafDigest H key p) d p.nodes).2 ∧
    claim p = walk key t ((bitsOf key).drop d) ∧ (∀ v, claim p = some v → ∃ x, NameState v x) := by
  induction t generalizing d with
  | null =>
    refine ⟨⟨⟨?_, ?_, ?_, ?_, ?_, ?_, ?_, ?_⟩, ?_, ?_, ?_, ?_⟩, ?_, ?_, ?_, ?_, ?_, ?_, ?_, ?_⟩ <;>
      simp [prove, init, DEADEND, SHORT, COLLISION, EXISTS, span, PathOk, nodeStrings, leafDigest,
        leafStrings, rootHash, claim, walk, hd]
  | leaf k v =>
    obtain ⟨vo1, x, vo2⟩ := vo
    by_cases h : k = key
    · subst h
      refine ⟨⟨⟨?_, ?_, ?_, ?_, ?_, ?_, ?_, ?_⟩, ?_, ?_, ?_, ?_⟩, ?_, ?_, ?_, ?_, ?_, ?_, ?_, ?_⟩ <;>
      simp [prove, init, SHORT, COLLISION, EXISTS, span, PathOk, nodeStrings, leafDigest,
        leafStrings, rootHash, claim, walk, hd, leafString, vo1, maxDataSize]
      exact ⟨x, vo2⟩
    · refine ⟨⟨⟨?_, ?_, ?_, ?_, ?_, ?_, ?_, ?_⟩, ?_, ?_, ?_, ?_⟩, ?_, ?_, ?_, ?_, ?_, ?_, ?_, ?_⟩ <;>
      simp [prove, init, SHORT, COLLISION, EXISTS, span, PathOk, nodeStrings, leafDigest,
        leafStrings, rootHash, claim, walk, hd, leafString, h, wf.1, hlen]
  | node p l r ihl ihr =>
    obtain ⟨h1, h2, h3⟩ := wf
    have hm := prefix_iff_match (p := p) hk (d := d) (by omega)
    have hpl : (packBits p).length = (p.length + 7) / 8 := packBits_length p
    have hll := hash_length hlen l
    have hlr := hash_length hlen r
    by_cases h : p <+: (bitsOf key).drop d
    · have hmm := hm.1 h
      have hb' : (bitsOf key).getD (d + p.length) false = bitAt key (d + p.length) := by
        rw [bitAt, List.getD_eq_getElem?_getD]
      have hm2 : ∀ t, Match (packBits p ++ t) p.length key d := fun t =>
        Match_congr (fun i hi => (bitAt_append (by omega)).symm) hmm
      have hw : walk key (.node p l r) ((bitsOf key).drop d) =
          if bitAt key (d + p.length) then walk key r ((bitsOf key).drop (d + p.length + 1))
          else walk key l ((bitsOf key).drop (d + p.length + 1)) := by
        simp only [walk, h, if_true]
        rw [drop_key hk h1]
        cases bitAt key (d + p.length) <;> simp
      simp only [hw]
      cases hb : bitAt key (d + p.length)
      · obtain ⟨c, c0, c1, c2, c3, c4, c5, c6, c7⟩ := ihl (d + p.length + 1) (by omega) h2 vo.1
        rw [hb] at hb'
        simp only [prove, h, if_true, hb', Bool.false_eq_true, if_false]
        generalize prove H key (d + p.length + 1) l = q at *
        refine ⟨⟨⟨c.depth, ?_, c.type, ?_, c.short, c.coll, c.exist, c.novalue⟩, ?_, c.noShort, c.noColl,
          c.noExist⟩, ?_, c1, c2, ?_, ?_, ?_, c6, c7⟩
        · simp only [List.length_cons]; omega
        · rintro n hn
          rcases List.mem_cons.1 hn with rfl | hn
          · refine ⟨?_, by simp; omega, hlr⟩
            simp; omega
          · exact c.nodes n hn
        · rintro n hn
          rcases List.mem_cons.1 hn with rfl | hn
          · simp only [← hpl]; simp
          · exact c.blank n hn
        · simp only [List.length_cons]; omega
        · simp only [span]; omega
        · exact ⟨hm2 _, by simp; omega, c4⟩
        · simp only [nodeStrings, hb, Bool.false_eq_true, if_false, preOf_pad]
          rw [rootHash, nodeString_eq, c5]; rfl
      · obtain ⟨c, c0, c1, c2, c3, c4, c5, c6, c7⟩ := ihr (d + p.length + 1) (by omega) h3 vo.2
        rw [hb] at hb'
        simp only [prove, h, if_true, hb']
        generalize prove H key (d + p.length + 1) r = q at *
        refine ⟨⟨⟨c.depth, ?_, c.type, ?_, c.short, c.coll, c.exist, c.novalue⟩, ?_, c.noShort, c.noColl,
          c.noExist⟩, ?_, c1, c2, ?_, ?_, ?_, c6, c7⟩
        · simp only [List.length_cons]; omega
        · rintro n hn
          rcases List.mem_cons.1 hn with rfl | hn
          · refine ⟨?_, by simp; omega, hll⟩
            simp; omega
          · exact c.nodes n hn
        · rintro n hn
          rcases List.mem_cons.1 hn with rfl | hn
          · simp only [← hpl]; simp
          · exact c.blank n hn
        · simp only [List.length_cons]; omega
        · simp only [span]; omega
        · exact ⟨hm2 _, by simp; omega, c4⟩
        · simp only [nodeStrings, hb, if_true, preOf_pad]
          rw [rootHash, nodeString_eq, c5]; rfl
    · have hp0 : p.length ≠ 0 := by
        intro h0
        have : p = [] := by simpa using h0
        rw [this] at h; simp at h
      have hnm : ¬ Match (packBits p) p.length key d := fun hh => h (hm.2 hh)
      refine ⟨⟨⟨?_, ?_, ?_, ?_, ?_, ?_, ?_, ?_⟩, ?_, ?_, ?_, ?_⟩, ?_, ?_, ?_, ?_, ?_, ?_, ?_, ?_⟩ <;>
      simp [prove, init, SHORT, COLLISION, EXISTS, span, PathOk, nodeStrings, leafDigest,
        leafStrings, rootHash, claim, walk, hd, h, hll, hlr, nodeString_eq, hpl, hnm]
      exact ⟨by simpa using hp0, by omega⟩

end Verif.Proof
