import Verif.Model.KeyedHash
import Verif.Spec.KeyedHash
import Verif.Lemmas.Blake2b
import Verif.Lemmas.Sha3
namespace Verif.KeyedHash
open Verif.Words

/-! ## BLAKE2b -/

/-- The state depends on the sizes only through the first word, and there the two sizes are one number. -/
theorem start_eq (nn kk : Nat) (hn : nn ≤ 64) (hk : kk ≤ 64) : Spec.KeyedHash.start nn kk = Spec.Blake2b.start (nn + 256 * kk) := by
  have h : ∀ n < 65, ∀ k < 65, (UInt64.ofNat k <<< (8 : UInt64)) ^^^ UInt64.ofNat n = UInt64.ofNat (n + 256 * k) := by decide +kernel
  unfold Spec.KeyedHash.start Spec.Blake2b.start
  rw [← h nn (by omega) kk (by omega), UInt64.xor_assoc (Spec.Blake2b.IV 0 ^^^ 0x01010000)]

theorem state_eq (nn kk : Nat) (hn : nn ≤ 64) (hk : kk ≤ 64) (d : Bytes) (n : Nat) :
    Spec.KeyedHash.state nn kk d n = Spec.Blake2b.state (nn + 256 * kk) d n := by
  induction n with
  | zero => exact start_eq nn kk hn hk
  | succ n ih => rw [Spec.KeyedHash.state, Spec.Blake2b.state, ih]

/-- A context that says another size. -/
def sized (k : Nat) (c : Blake2b.Ctx) : Blake2b.Ctx := { c with outlen := k }

theorem compress_sized (k : Nat) (c c' : Blake2b.Ctx) (b : Bytes) (h : Blake2b.compress (sized k c) b = .ok c') :
    ∃ d, Blake2b.compress c b = .ok d ∧ c' = sized k d ∧ d.outlen = c.outlen := by
  unfold Blake2b.compress at h ⊢
  by_cases hb : b.length < 128
  · rw [if_pos hb] at h; cases h
  · rw [if_neg hb] at h ⊢
    exact ⟨_, rfl, by cases h; rfl, rfl⟩

theorem loop_sized (k : Nat) : ∀ (fuel : Nat) (c c' : Blake2b.Ctx) (x : Bytes), Blake2b.loop fuel (sized k c) x = .ok c' →
    ∃ d, Blake2b.loop fuel c x = .ok d ∧ c' = sized k d ∧ d.outlen = c.outlen
  | 0, _, _, _, h => by cases h
  | fuel + 1, c, c', x, h => by
    rw [Blake2b.loop] at h ⊢
    by_cases hx : x.length > 128
    · rw [if_pos hx] at h ⊢
      cases h1 : Blake2b.compress (Blake2b.increment (sized k c) 128) (x.take 128) with
      | ub => rw [h1] at h; cases h
      | err e => rw [h1] at h; cases h
      | ok c1 =>
        rw [h1] at h
        obtain ⟨d1, e1, r1, o1⟩ := compress_sized k (Blake2b.increment c 128) c1 _ h1
        dsimp only [Out.bind] at h
        rw [r1] at h
        obtain ⟨d2, e2, r2, o2⟩ := loop_sized k fuel d1 c' _ h
        refine ⟨d2, ?_, r2, o2.trans o1⟩
        rw [e1]; exact e2
    · rw [if_neg hx] at h ⊢
      have hs : (sized k c).buf = c.buf ∧ (sized k c).buflen = c.buflen := ⟨rfl, rfl⟩
      rw [hs.1, hs.2] at h
      cases h1 : memcpy c.buf c.buflen x with
      | ub => rw [h1] at h; cases h
      | err e => rw [h1] at h; cases h
      | ok b =>
        rw [h1] at h
        exact ⟨_, rfl, by cases h; rfl, rfl⟩

theorem update_sized (k : Nat) (c c' : Blake2b.Ctx) (x : Bytes) (h : Blake2b.update (sized k c) x = .ok c') :
    ∃ d, Blake2b.update c x = .ok d ∧ c' = sized k d ∧ d.outlen = c.outlen := by
  unfold Blake2b.update at h ⊢
  have hs : (sized k c).buf = c.buf ∧ (sized k c).buflen = c.buflen := ⟨rfl, rfl⟩
  rw [hs.1, hs.2] at h
  by_cases hx : x.length > 0
  · rw [if_pos hx] at h ⊢
    dsimp only at h ⊢
    by_cases hl : x.length > 128 - c.buflen
    · rw [if_pos hl] at h ⊢
      cases h1 : memcpy c.buf c.buflen (x.take (128 - c.buflen)) with
      | ub => rw [h1] at h; cases h
      | err e => rw [h1] at h; cases h
      | ok b =>
        rw [h1] at h
        dsimp only [Out.bind] at h ⊢
        have hi : Blake2b.increment { sized k c with buf := b, buflen := 0 } 128 = sized k (Blake2b.increment { c with buf := b, buflen := 0 } 128) := rfl
        rw [hi] at h
        cases h2 : Blake2b.compress (sized k (Blake2b.increment { c with buf := b, buflen := 0 } 128)) b with
        | ub => rw [h2] at h; cases h
        | err e => rw [h2] at h; cases h
        | ok c1 =>
          rw [h2] at h
          obtain ⟨d1, e1, r1, o1⟩ := compress_sized k _ c1 _ h2
          dsimp only at h
          rw [r1] at h
          obtain ⟨d2, e2, r2, o2⟩ := loop_sized k _ d1 c' _ h
          rw [e1]
          exact ⟨d2, e2, r2, o2.trans o1⟩
    · rw [if_neg hl] at h ⊢
      cases h1 : memcpy c.buf c.buflen x with
      | ub => rw [h1] at h; cases h
      | err e => rw [h1] at h; cases h
      | ok b =>
        rw [h1] at h
        exact ⟨_, rfl, by cases h; rfl, rfl⟩
  · rw [if_neg hx] at h ⊢
    exact ⟨c, rfl, by cases h; rfl, rfl⟩

/-- The context after a message has been fed, the key's block first. -/
def Keyed (nn kk : Nat) (d : Bytes) (c : Blake2b.Ctx) : Prop := Blake2b.Inv (nn + 256 * kk) d (sized (nn + 256 * kk) c) ∧ c.outlen = nn

theorem update_keyed (nn kk : Nat) (d x : Bytes) (c : Blake2b.Ctx) (hi : Keyed nn kk d c) :
    ∃ c', Blake2b.update c x = .ok c' ∧ Keyed nn kk (d ++ x) c' := by
  obtain ⟨c1, e1, i1⟩ := Blake2b.update_spec _ d x _ hi.1
  obtain ⟨c2, e2, r2, o2⟩ := update_sized _ c c1 x e1
  subst r2
  exact ⟨c2, e2, i1, o2.trans hi.2⟩

theorem updates_keyed (nn kk : Nat) (l : List Bytes) : ∀ (d : Bytes) (c : Blake2b.Ctx), Keyed nn kk d c →
    ∃ c', Blake2b.updates l c = .ok c' ∧ Keyed nn kk (d ++ l.flatten) c' := by
  induction l with
  | nil => intro m c hi; exact ⟨c, rfl, by simpa using hi⟩
  | cons x l ih =>
    intro m c hi
    obtain ⟨c1, e1, i1⟩ := update_keyed nn kk m x c hi
    obtain ⟨c2, e2, i2⟩ := ih _ _ i1
    refine ⟨c2, ?_, ?_⟩
    · rw [Blake2b.updates, e1]; exact e2
    · rw [List.flatten_cons, ← List.append_assoc]; exact i2

theorem init_keyed (nn kk : Nat) (hn : nn ≤ 64) (hk : kk ≤ 64) : Keyed nn kk [] (Blake2b.initParam (paramsKey nn kk)) := by
  refine ⟨⟨⟨?_, rfl, rfl, rfl, rfl, rfl, rfl, rfl⟩, rfl, rfl⟩, ?_⟩
  · have hw : ∀ n < 65, ∀ k < 65, ld64 (paramsKey n k) = 0x01010000 ^^^ UInt64.ofNat (n + 256 * k) := by decide +kernel
    have hiv : Blake2b.iv = [Spec.Blake2b.IV 0, Spec.Blake2b.IV 1, Spec.Blake2b.IV 2, Spec.Blake2b.IV 3, Spec.Blake2b.IV 4, Spec.Blake2b.IV 5,
      Spec.Blake2b.IV 6, Spec.Blake2b.IV 7] := by decide +kernel
    have hz : ∀ i < 7, ld64 ((paramsKey nn kk).drop (8 * (i + 1))) = 0 := by
      intro i hi
      have : ∀ j < 7, ld64 ((paramsKey 0 0).drop (8 * (j + 1))) = 0 := by decide +kernel
      rw [← this i hi, show 8 * (i + 1) = 4 + (8 * i + 4) by omega, ← List.drop_drop, ← List.drop_drop (l := paramsKey 0 0)]
      rfl
    show (List.range 8).map (fun i => Blake2b.iv.getD i 0 ^^^ ld64 ((paramsKey nn kk).drop (8 * i))) = Spec.Blake2b.start (nn + 256 * kk)
    have h0 := hw nn (by omega) kk (by omega)
    have h1 := hz 0 (by decide)
    have h2 := hz 1 (by decide)
    have h3 := hz 2 (by decide)
    have h4 := hz 3 (by decide)
    have h5 := hz 4 (by decide)
    have h6 := hz 5 (by decide)
    have h7 := hz 6 (by decide)
    generalize paramsKey nn kk = p at *
    rw [hiv]
    unfold Spec.Blake2b.start
    generalize Spec.Blake2b.IV 0 = a0, Spec.Blake2b.IV 1 = a1, Spec.Blake2b.IV 2 = a2, Spec.Blake2b.IV 3 = a3, Spec.Blake2b.IV 4 = a4,
      Spec.Blake2b.IV 5 = a5, Spec.Blake2b.IV 6 = a6, Spec.Blake2b.IV 7 = a7
    show [a0 ^^^ ld64 (p.drop 0), a1 ^^^ ld64 (p.drop (8 * (0 + 1))), a2 ^^^ ld64 (p.drop (8 * (1 + 1))), a3 ^^^ ld64 (p.drop (8 * (2 + 1))),
      a4 ^^^ ld64 (p.drop (8 * (3 + 1))), a5 ^^^ ld64 (p.drop (8 * (4 + 1))), a6 ^^^ ld64 (p.drop (8 * (5 + 1))), a7 ^^^ ld64 (p.drop (8 * (6 + 1)))] = _
    rw [h1, h2, h3, h4, h5, h6, h7, List.drop_zero, h0]
    simp only [UInt64.xor_zero, UInt64.xor_assoc]
  · show ((paramsKey nn kk).headD 0).toNat = nn
    show (UInt8.ofNat nn).toNat = nn
    simp; omega

theorem initKey_keyed (nn : Nat) (key : Bytes) (h0 : 0 < nn) (hn : nn ≤ 64) (k0 : key ≠ []) (hk : key.length ≤ 64) :
    ∃ c, initKey nn key = .ok c ∧ Keyed nn key.length (key ++ List.replicate (128 - key.length) 0) c := by
  have hl : 0 < key.length := List.length_pos_iff.2 k0
  obtain ⟨c, e, i⟩ := update_keyed nn key.length [] (key ++ List.replicate (128 - key.length) 0) _ (init_keyed nn key.length hn hk)
  refine ⟨c, ?_, i⟩
  unfold initKey
  rw [if_neg (by omega), if_neg (by omega), memcpy_ok (by rw [List.length_replicate]; omega)]
  dsimp only [Out.bind]
  rw [List.take_zero, List.nil_append, Nat.zero_add, List.drop_replicate]
  exact e

open Blake2b in
theorem final_keyed (nn : Nat) (key m : Bytes) (c : Ctx) (hn : nn ≤ 64) (hk : key.length ≤ 64)
    (hi : Keyed nn key.length (Spec.KeyedHash.keyed key m) c) : final c nn = .ok (Spec.KeyedHash.blake2b nn key m) := by
  unfold Spec.KeyedHash.blake2b
  dsimp only
  generalize Spec.KeyedHash.keyed key m = d at *
  rw [state_eq nn _ hn hk]
  obtain ⟨hi, ho⟩ := hi
  generalize hK : nn + 256 * key.length = K at *
  have hh : c.h = Spec.Blake2b.state K d (full d) := hi.done.h
  have ht0 : c.t0 = _ := hi.done.t0
  have ht1 : c.t1 = _ := hi.done.t1
  have hf0 : c.f0 = 0 := hi.done.f0
  have hf1 : c.f1 = 0 := hi.done.f1
  have hnode : c.lastNode = false := hi.done.node
  have hbl : c.buflen = _ := hi.len
  have hbuf : c.buf.length = 128 := hi.done.buf
  have hrest : c.buf.take c.buflen = _ := hi.rest
  have hfl : 128 * full d ≤ d.length := by unfold full; omega
  have hle : c.buflen ≤ 128 := by rw [hbl]; unfold full; omega
  unfold final
  rw [if_neg (by rw [ho]; omega), if_neg (by rw [hf0]; decide)]
  dsimp only
  rw [increment_at c (128 * full d) _ ht0 ht1]
  have e : 128 * full d + (UInt64.ofNat c.buflen).toNat = d.length := by
    rw [UInt64.toNat_ofNat']; omega
  rw [e]
  unfold setLastblock
  dsimp only
  rw [hnode, if_neg (by decide)]
  dsimp only
  rw [memcpy_ok (by rw [List.length_replicate, hbuf]; omega), hrest, List.length_replicate, List.drop_eq_nil_of_le (as := c.buf) (by omega), List.append_nil]
  dsimp only [Out.bind]
  have hblock : d.drop (128 * full d) ++ List.replicate (128 - c.buflen) 0 = Spec.Blake2b.block d (full d) := by
    unfold Spec.Blake2b.block
    dsimp only
    rw [List.take_of_length_le (by rw [List.length_drop]; omega), List.length_drop, hbl]
  have hlen : (Spec.Blake2b.block d (full d)).length = 128 := by
    rw [← hblock, List.length_append, List.length_drop, List.length_replicate]; omega
  rw [hblock]
  rw [compress_eq _ _ d.length true hlen]
  · dsimp only
    rw [ho, if_pos hn, hh]
    rfl
  · show c.h.length = 8
    rw [hh, state_length]
  · rfl
  · rfl
  · rfl
  · exact hf1

theorem keyed_ne {key m : Bytes} (h : key ≠ []) : Spec.KeyedHash.keyed key m = key ++ List.replicate (128 - key.length) 0 ++ m := if_neg h

/-- Without a key it is the hash of C68. -/
theorem unkeyed (nn : Nat) (hn : nn ≤ 64) (m : Bytes) : Spec.KeyedHash.blake2b nn [] m = Spec.Blake2b.blake2b nn m := by
  unfold Spec.KeyedHash.blake2b Spec.KeyedHash.keyed Spec.Blake2b.blake2b
  dsimp only
  rw [if_pos rfl, state_eq nn _ hn (by decide)]
  rfl

theorem blake2bKey_eq (l : List Bytes) (key : Bytes) (k0 : key ≠ []) (hk : key.length ≤ 64) :
    blake2bKey l key = .ok (Spec.KeyedHash.blake2b 32 key l.flatten) := by
  obtain ⟨c0, e0, i0⟩ := initKey_keyed 32 key (by decide) (by decide) k0 hk
  obtain ⟨c1, e1, i1⟩ := updates_keyed 32 _ l _ c0 i0
  rw [← keyed_ne k0] at i1
  unfold blake2bKey
  rw [e0]
  dsimp only [Blake2b.asserted, Out.bind]
  rw [e1]
  dsimp only
  rw [final_keyed 32 key _ c1 (by decide) hk i1]

/-! ## Keccak -/

open Sha3 Verif.Chunks

/-- The last block's padding. -/
def tailWith (f : UInt8) (q : Nat) : Bytes := if q = 1 then [f ||| 0x80] else [f] ++ List.replicate (q - 2) 0 ++ [0x80]

theorem tailWith_length (f : UInt8) (q : Nat) (h : 0 < q) : (tailWith f q).length = q := by
  unfold tailWith
  by_cases h1 : q = 1
  · rw [if_pos h1, h1]; rfl
  · rw [if_neg h1]; simp; omega

theorem paddingWith_eq (f : UInt8) (P R : Bytes) (q : Nat) (hq : 0 < q) :
    ((orAt (P ++ List.replicate q 0 ++ R) P.length f).bind fun m => orAt m (P.length + q - 1) 0x80) = .ok (P ++ tailWith f q ++ R) := by
  obtain ⟨n, rfl⟩ : ∃ n, q = n + 1 := ⟨q - 1, by omega⟩
  rw [List.replicate_succ, List.append_assoc, List.cons_append, orAt_mid _ _ _ _ _ rfl]
  dsimp only [Out.bind]
  by_cases h : n = 0
  · subst h
    rw [List.replicate_zero, List.nil_append, orAt_mid _ _ _ _ _ (by omega)]
    unfold tailWith
    rw [if_pos rfl, List.append_assoc]
    simp
  · obtain ⟨k, rfl⟩ : ∃ k, n = k + 1 := ⟨n - 1, by omega⟩
    have e : P ++ (0 ||| f) :: (List.replicate (k + 1) 0 ++ R) = (P ++ (0 ||| f) :: List.replicate k 0) ++ 0 :: R := by
      rw [List.replicate_succ']; simp
    rw [e, orAt_mid _ _ _ _ _ (by simp)]
    unfold tailWith
    rw [if_neg (by omega)]
    simp

attribute [local irreducible] Spec.Sha3.absorb Spec.Sha3.keccak

theorem sponge_eq {bs : Nat} (hs : Size bs) (f : UInt8) (m : Bytes) (n : Nat) (hn : n < bs) :
    Spec.KeyedHash.sponge f bs n m = ((Spec.Sha3.absorb (chunks bs Spec.Sha3.absorb (m.length / bs) m (List.replicate 25 0))
      (m.drop (bs * (m.length / bs)) ++ tailWith f (bs - m.length % bs))).flatMap fun w => leBytes 8 w.toNat).take n := by
  have hb := size_bounds hs
  have hdm := Nat.div_add_mod m.length bs
  have hlt := Nat.mod_lt m.length (show 0 < bs by omega)
  unfold Spec.KeyedHash.sponge
  dsimp only
  have hp : Spec.KeyedHash.pad f bs m = m ++ tailWith f (bs - m.length % bs) := rfl
  have hl : (m ++ tailWith f (bs - m.length % bs)).length = bs * (m.length / bs + 1) := by
    rw [List.length_append, tailWith_length _ _ (by omega), Nat.mul_succ]; omega
  rw [hp, hl, Nat.mul_div_cancel_left _ (by omega), foldl_split, chunks_add, chunks, chunks,
    chunks_append _ _ _ _ _ _ (by rw [Nat.mul_comm]; omega), Nat.mul_comm (m.length / bs) bs, List.drop_append_of_le_length (by omega),
    List.take_of_length_le (i := bs), Nat.div_eq_of_lt hn, Spec.KeyedHash.squeeze, Spec.KeyedHash.squeeze, List.append_nil, List.take_take,
    Nat.min_eq_left (by omega)]
  rw [List.length_append, tailWith_length _ _ (by omega), List.length_drop]
  omega

theorem finalWith_spec {bs : Nat} (hs : Size bs) (f : UInt8) (m : Bytes) (c : Sha3.Ctx) (hi : Inv bs m c) (n : Nat) (h8 : n = 100 - bs / 2) (hn : n < bs) :
    finalWith f c = .ok (Spec.KeyedHash.sponge f bs n m) := by
  have hb := size_bounds hs
  have hdm := Nat.div_add_mod m.length bs
  have hlt := Nat.mod_lt m.length (show 0 < bs by omega)
  have hr := hi.rest
  have hpl : (m.drop (bs * (m.length / bs))).length = c.rest := by rw [List.length_drop]; omega
  unfold finalWith finalized
  dsimp only
  rw [if_neg (by simp only [decide_eq_true_eq]; omega), hi.size, memcpy_ok (by rw [hi.mem, List.length_replicate]; omega), hi.buf]
  dsimp only [Out.bind]
  have key := paddingWith_eq f (m.drop (bs * (m.length / bs))) (c.message.drop (c.rest + (List.replicate (bs - c.rest) (0 : UInt8)).length)) (bs - c.rest) (by omega)
  rw [hpl, show c.rest + (bs - c.rest) - 1 = bs - 1 by omega] at key
  generalize hM : m.drop (bs * (m.length / bs)) ++ List.replicate (bs - c.rest) 0 ++ c.message.drop (c.rest + (List.replicate (bs - c.rest) (0 : UInt8)).length) = M at key ⊢
  cases h1 : orAt M c.rest f with
  | ub => rw [h1] at key; cases key
  | err e => rw [h1] at key; cases key
  | ok M1 =>
    rw [h1] at key
    dsimp only [Out.bind] at key ⊢
    rw [key]
    dsimp only
    have htl : (m.drop (bs * (m.length / bs)) ++ tailWith f (bs - c.rest)).length = bs := by
      rw [List.length_append, tailWith_length _ _ (by omega)]; omega
    obtain ⟨p1, p2⟩ := process_eq hs hi.lanes (b := m.drop (bs * (m.length / bs)) ++ tailWith f (bs - c.rest) ++
      c.message.drop (c.rest + (List.replicate (bs - c.rest) (0 : UInt8)).length)) (by rw [List.length_append]; omega)
    rw [List.take_left' htl] at p1
    rw [p1]
    dsimp only
    rw [if_pos (by omega), sponge_eq hs f m n hn, hi.hash, h8, hr]
    rfl

theorem keccakOf_spec (d : Nat) (hd : d = 224 ∨ d = 256 ∨ d = 384 ∨ d = 512) (l : List (Bool × Bytes)) :
    keccakOf d l = .ok (Spec.KeyedHash.keccak d (l.map (·.2)).flatten) := by
  have hs : Size ((1600 - 2 * d) / 8) := by
    rcases hd with rfl | rfl | rfl | rfl <;> unfold Size <;> decide
  have h8 : d / 8 = 100 - (1600 - 2 * d) / 8 / 2 := by
    rcases hd with rfl | rfl | rfl | rfl <;> rfl
  have hlt : d / 8 < (1600 - 2 * d) / 8 := by
    rcases hd with rfl | rfl | rfl | rfl <;> decide
  obtain ⟨c0, e0, i0⟩ := Sha3.init_spec d hd
  obtain ⟨c1, e1, i1⟩ := Sha3.updates_spec hs l [] c0 i0
  unfold keccakOf
  rw [e0]
  dsimp only [Out.bind]
  rw [e1]
  dsimp only
  exact finalWith_spec hs 0x01 _ c1 i1 (d / 8) h8 hlt

/-- To fill an array from front to back. -/
theorem fill (P R w : Bytes) (i : Nat) (hi : i = P.length) (h : w.length ≤ R.length) : memcpy (P ++ R) i w = .ok ((P ++ w) ++ R.drop w.length) := by
  subst hi
  rw [memcpy_ok (by rw [List.length_append]; omega), List.take_left, List.drop_append, List.drop_eq_nil_of_le (by omega), List.nil_append,
    show P.length + w.length - P.length = w.length by omega]

def macOf (data key : Bytes) : Bytes :=
  [0x01, 0x88, 0x01, 0x20, 0x4b, 0x4d, 0x41, 0x43, 0x01, 0x00] ++ List.replicate 126 0 ++ [0x01, 0x88, 0x02, 0x01, 0x00] ++ key ++ List.replicate 99 0 ++ data ++
    [0x01, 0x00, 0x02]

theorem macBytes_eq (mac data key : Bytes) (hm : mac.length = 483) (hd : data.length = 208) (hk : key.length = 32) :
    macBytes mac data key = .ok (macOf data key) := by
  unfold macBytes
  rw [List.take_of_length_le (l := key) (by omega), List.take_of_length_le (l := data) (by omega)]
  have h0 := fill [] mac [0x01, 0x88] 0 rfl (by rw [hm]; decide)
  rw [List.nil_append] at h0
  rw [h0]
  dsimp only [Out.bind]
  rw [fill _ _ _ 2 (by simp) (by simp [hm])]
  dsimp only
  rw [fill _ _ _ 4 (by simp) (by simp [hm])]
  dsimp only
  rw [fill _ _ _ 8 (by simp) (by simp [hm])]
  dsimp only
  rw [fill _ _ _ 10 (by simp) (by simp [hm])]
  dsimp only
  rw [fill _ _ _ 10 (by simp) (by simp [hm])]
  dsimp only
  rw [fill _ _ _ 136 (by simp) (by simp [hm])]
  dsimp only
  rw [fill _ _ _ 138 (by simp) (by simp [hm])]
  dsimp only
  rw [fill _ _ _ 141 (by simp) (by simp [hm, hk])]
  dsimp only
  rw [fill _ _ _ 173 (by simp [hk]) (by simp [hm, hk])]
  dsimp only
  rw [fill _ _ _ 272 (by simp only [List.length_append, List.length_cons, List.length_nil, List.length_replicate, hk])
    (by simp only [List.length_drop, List.length_cons, List.length_nil, List.length_replicate, hm, hk, hd]; decide)]
  dsimp only
  rw [fill _ _ _ 480 (by simp only [List.length_append, List.length_cons, List.length_nil, List.length_replicate, hk, hd])
    (by simp only [List.length_drop, List.length_cons, List.length_nil, List.length_replicate, hm, hk, hd]; decide)]
  rw [List.drop_eq_nil_of_le (i := List.length [0x01, 0x00, 0x02])
    (by simp only [List.length_drop, List.length_cons, List.length_nil, List.length_replicate, hm, hk, hd]; decide)]
  unfold macOf
  generalize List.replicate 126 (0 : UInt8) = z1
  generalize List.replicate 99 (0 : UInt8) = z2
  simp

theorem macOf_eq (data key : Bytes) (hk : key.length = 32) :
    macOf data key = Spec.KeyedHash.bytepad (Spec.KeyedHash.encodeString "KMAC".toUTF8.toList ++ Spec.KeyedHash.encodeString []) 136 ++
      (Spec.KeyedHash.bytepad (Spec.KeyedHash.encodeString key) 136 ++ data ++ Spec.KeyedHash.rightEncode 256) := by
  have h1 : Spec.KeyedHash.bytepad (Spec.KeyedHash.encodeString "KMAC".toUTF8.toList ++ Spec.KeyedHash.encodeString []) 136 =
      [0x01, 0x88, 0x01, 0x20, 0x4b, 0x4d, 0x41, 0x43, 0x01, 0x00] ++ List.replicate 126 0 := by decide +kernel
  have h2 : Spec.KeyedHash.leftEncode 136 = [0x01, 0x88] := by decide +kernel
  have h3 : Spec.KeyedHash.leftEncode 256 = [0x02, 0x01, 0x00] := by decide +kernel
  have h4 : Spec.KeyedHash.rightEncode 256 = [0x01, 0x00, 0x02] := by decide +kernel
  have h5 : Spec.KeyedHash.bytepad (Spec.KeyedHash.encodeString key) 136 = [0x01, 0x88, 0x02, 0x01, 0x00] ++ key ++ List.replicate 99 0 := by
    unfold Spec.KeyedHash.bytepad Spec.KeyedHash.encodeString
    dsimp only
    rw [hk, h2, h3]
    have : (136 - ([0x01, 0x88] ++ ([0x02, 0x01, 0x00] ++ key) : Bytes).length % 136) % 136 = 99 := by
      simp only [List.length_append, List.length_cons, List.length_nil, hk]
    rw [this]
    rfl
  rw [h1, h4, h5]
  unfold macOf
  generalize List.replicate 126 (0 : UInt8) = z1
  generalize List.replicate 99 (0 : UInt8) = z2
  simp

theorem macOf_length (data key : Bytes) (hd : data.length = 208) (hk : key.length = 32) : (macOf data key).length = 483 := by
  unfold macOf
  simp only [List.length_append, List.length_cons, List.length_nil, List.length_replicate, hk, hd]

theorem sha3Key_eq (al : Bool) (mac data key : Bytes) (hm : mac.length = 483) (hd : data.length = 208) (hk : key.length = 32) :
    sha3Key al mac data key = .ok (Spec.KeyedHash.kmac256 key data 256 []) := by
  have hs : Size 136 := .inr (.inl rfl)
  obtain ⟨c0, e0, i0⟩ := Sha3.init_spec 256 (.inr (.inl rfl))
  obtain ⟨c1, e1, i1⟩ := Sha3.update_spec hs al [] (macOf data key) c0 i0
  unfold sha3Key
  rw [if_neg (by omega), if_neg (by omega), e0]
  dsimp only [Out.bind]
  rw [macBytes_eq mac data key hm hd hk]
  dsimp only
  rw [List.take_of_length_le (by rw [macOf_length data key hd hk]), e1]
  dsimp only
  refine (finalWith_spec hs 0x04 _ c1 i1 32 rfl (by decide)).trans ?_
  rw [List.nil_append, macOf_eq data key hk]
  rfl

theorem oneShot_eq (nn : Nat) (key m : Bytes) (h0 : 0 < nn) (hn : nn ≤ 64) (hk : key.length ≤ 64) (p q : Option Bytes)
    (hp : (∃ r, p = some (m ++ r)) ∨ p = none ∧ m = []) (hq : (∃ r, q = some (key ++ r)) ∨ q = none ∧ key = []) :
    oneShot true nn p m.length q key.length = .ok (Spec.KeyedHash.blake2b nn key m) := by
  have up : ∀ (p : Option Bytes) (m : Bytes), ((∃ r, p = some (m ++ r)) ∨ p = none ∧ m = []) → upTo p m.length = .ok m ∧ ¬(p = none ∧ m.length > 0) := by
    intro p m hp
    rcases hp with ⟨r, rfl⟩ | ⟨rfl, rfl⟩
    · refine ⟨?_, by simp⟩
      unfold upTo
      rw [Option.getD_some, if_pos (by rw [List.length_append]; omega), List.take_left]
    · exact ⟨rfl, by simp⟩
  obtain ⟨p1, p2⟩ := up p m hp
  obtain ⟨q1, q2⟩ := up q key hq
  unfold oneShot
  rw [if_neg p2, if_neg (by decide), if_neg q2, if_neg (by omega), if_neg (by omega), p1, q1]
  dsimp only [Out.bind]
  by_cases hz : key = []
  · subst hz
    rw [if_neg (by decide)]
    obtain ⟨c0, e0, i0⟩ := Blake2b.init_spec nn h0 hn
    obtain ⟨c1, e1, i1⟩ := Blake2b.update_spec nn [] m c0 i0
    rw [e0]
    dsimp only
    rw [e1]
    dsimp only
    rw [Blake2b.final_spec nn _ c1 hn i1, List.nil_append, unkeyed nn hn]
  · rw [if_pos (List.length_pos_iff.2 hz)]
    obtain ⟨c0, e0, i0⟩ := initKey_keyed nn key h0 hn hz hk
    obtain ⟨c1, e1, i1⟩ := update_keyed nn _ _ m c0 i0
    rw [← keyed_ne hz] at i1
    rw [e0]
    dsimp only
    rw [e1]
    dsimp only
    rw [final_keyed nn key _ c1 hn hk i1]

end Verif.KeyedHash
