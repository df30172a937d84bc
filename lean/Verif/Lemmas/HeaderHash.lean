import Verif.Model.HeaderHash
import Verif.Spec.BlockHash
import Verif.Lemmas.Blake2b
import Verif.Lemmas.Sha3
namespace Verif.HeaderHash
open Verif.Header Verif.Spec.BlockHash

attribute [local irreducible] Spec.Blake2b.blake2b Spec.Sha3.sha3

/-- The parameters of Model/Header.lean as they are. -/
def hashes : Hashes := ⟨blake256, blake512, sha3⟩

theorem blake256_length (x : Bytes) : (blake256 x).length = 32 := Blake2b.blake2b_length 32 (by decide) x
theorem blake512_length (x : Bytes) : (blake512 x).length = 64 := Blake2b.blake2b_length 64 (by decide) x
theorem sha3_length (x : Bytes) : (sha3 x).length = 32 := Sha3.sha3_length x

theorem zip_range (a b : Bytes) (n : Nat) (ha : a.length = n) (hb : b.length = n) :
    (List.range n).map (fun i => a.getD i 0 ^^^ b.getD i 0) = List.zipWith (· ^^^ ·) a b := by
  apply List.ext_getElem
  · simp [ha, hb]
  · intro i h1 h2
    have : i < n := by simpa using h1
    simp [List.getD_eq_getElem?_getD, ha ▸ this, hb ▸ this]

theorem pad_eq (h : Hdr) (hp : h.prevBlock.length = 32) (hn : h.nameRoot.length = 32) (n : Nat) (hle : n ≤ 64) : padding h n = pad h n := by
  apply List.ext_getElem
  · simp [padding, pad, hp, hn, hle]
  · intro i h1 h2
    have hi : i < n := by simpa [padding] using h1
    simp only [padding, pad, List.getElem_map, List.getElem_range, List.getElem_take, List.getElem_zipWith]
    have key : ∀ l : Bytes, (hl : l.length = 32) → (hx : i < (l ++ l).length) → l.getD (i % 32) 0 = (l ++ l)[i] := by
      intro l hl hx
      rw [List.getD_eq_getElem?_getD, List.getElem_append]
      by_cases hlt : i < l.length
      · rw [dif_pos hlt, Nat.mod_eq_of_lt (by omega)]
        simp [hlt]
      · rw [dif_neg hlt]
        have : i % 32 = i - l.length := by omega
        rw [this, List.getElem?_eq_getElem (by omega)]
        rfl
    rw [key _ hp, key _ hn]

theorem hash32 (l : List Bytes) : Blake2b.hashOf 32 l = .ok (blake256 l.flatten) := Blake2b.hashOf_spec 32 (by decide) (by decide) l
theorem hash64 (l : List Bytes) : Blake2b.hashOf 64 l = .ok (blake512 l.flatten) := Blake2b.hashOf_spec 64 (by decide) (by decide) l
theorem hashSha (l : List (Bool × Bytes)) : Sha3.hashOf 256 l = .ok (sha3 (l.map (·.2)).flatten) := Sha3.hashOf_spec 256 (by decide) l

theorem preWrite_eq (h : Hdr) (hp : h.prevBlock.length = 32) (hn : h.nameRoot.length = 32) : preWrite h = .ok (work h) := by
  unfold preWrite commitHash subHash maskHash
  rw [hash32, hash32]
  dsimp only [Out.bind]
  rw [hash32]
  dsimp only
  rw [pad_eq h hp hn 20 (by decide)]
  simp only [List.flatten_cons, List.flatten_nil, List.append_nil]
  rfl

theorem cache_eq (al : Bool × Bool) (h : Hdr) (hp : h.prevBlock.length = 32) (hn : h.nameRoot.length = 32) (hm : h.mask.length = 32) :
    cache al h = .ok (blockHash h) := by
  unfold cache
  rw [preWrite_eq h hp hn]
  dsimp only [Out.bind]
  rw [hash64]
  dsimp only
  rw [hashSha]
  dsimp only
  rw [hash32]
  dsimp only
  rw [zip_range _ _ 32 (blake256_length _) hm, pad_eq h hp hn 8 (by decide), pad_eq h hp hn 32 (by decide)]
  simp only [List.map_cons, List.map_nil, List.flatten_cons, List.flatten_nil, List.append_nil, ← List.append_assoc]
  rfl

theorem headerHash_eq (h : Hdr) (hp : h.prevBlock.length = 32) (hn : h.nameRoot.length = 32) : headerHash hashes h = blockHash h := by
  have e : preEncode hashes h = work h := by
    unfold preEncode work
    rw [pad_eq h hp hn 20 (by decide)]
    rfl
  unfold headerHash finalInput
  rw [e, pad_eq h hp hn 8 (by decide), pad_eq h hp hn 32 (by decide)]
  rfl

/-- Without conditions on the header: 32 bytes, and the same at every alignment. -/
theorem cache_ok (al al' : Bool × Bool) (h : Hdr) : cache al h = .ok (hashed al' h) ∧ (hashed al' h).length = 32 := by
  have : ∃ x, (∀ al, cache al h = .ok x) ∧ x.length = 32 := by
    unfold cache preWrite commitHash subHash maskHash
    rw [hash32, hash32]
    dsimp only [Out.bind]
    rw [hash32]
    dsimp only
    rw [hash64]
    dsimp only
    simp only [hashSha, hash32, List.map_cons, List.map_nil]
    exact ⟨_, fun _ => rfl, by rw [List.length_map, List.length_range]⟩
  obtain ⟨x, hx, hl⟩ := this
  have e : hashed al' h = x := by unfold hashed; rw [hx]
  rw [e]
  exact ⟨hx al, hl⟩

end Verif.HeaderHash
