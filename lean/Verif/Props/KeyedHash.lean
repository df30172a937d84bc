import Verif.Lemmas.KeyedHash
/-
C98: keyed hashes.
-/
namespace Verif.Props.KeyedHash
open Verif.KeyedHash

/-- C98. The keyed hash of 32 bytes of a message, however it is cut into updates, is BLAKE2b under the key. -/
theorem C98_blake2b (data : List Bytes) (key : Bytes) (k0 : key ≠ []) (hk : key.length ≤ 64) :
    blake2bKey data key = .ok (Spec.KeyedHash.blake2b 32 key data.flatten) :=
  blake2bKey_eq data key k0 hk

/-- C98. An empty key, or one of more than 64 bytes, ends the process. -/
theorem C98_key_sizes (data : List Bytes) (key : Bytes) (h : key = [] ∨ 64 < key.length) : blake2bKey data key = .ub := by
  have : initKey 32 key = .err () := by
    unfold initKey
    rw [if_neg (by decide), if_pos (by rcases h with rfl | h; exacts [.inl rfl, .inr h])]
  unfold blake2bKey
  rw [this]
  rfl

/-- C98. The call that does it all at once gives BLAKE2b of every size under every key of at most 64 bytes,
none included; of what is at the two pointers it reads as much as it is told is there, and a pointer may be
NULL if that is nothing. -/
theorem C98_one_shot (nn : Nat) (key m : Bytes) (h0 : 0 < nn) (hn : nn ≤ 64) (hk : key.length ≤ 64) (p q : Option Bytes)
    (hp : (∃ r, p = some (m ++ r)) ∨ p = none ∧ m = []) (hq : (∃ r, q = some (key ++ r)) ∨ q = none ∧ key = []) :
    oneShot true nn p m.length q key.length = .ok (Spec.KeyedHash.blake2b nn key m) :=
  oneShot_eq nn key m h0 hn hk p q hp hq

/-- C98. It refuses what it cannot do. -/
theorem C98_refused (out : Bool) (nn inlen keylen : Nat) (p q : Option Bytes)
    (h : out = false ∨ nn = 0 ∨ 64 < nn ∨ 64 < keylen ∨ p = none ∧ 0 < inlen ∨ q = none ∧ 0 < keylen) :
    oneShot out nn p inlen q keylen = .err () := by
  unfold oneShot
  by_cases h1 : p = none ∧ inlen > 0
  · rw [if_pos h1]
  rw [if_neg h1]
  cases out with
  | false => rfl
  | true =>
    rw [if_neg (by decide)]
    by_cases h2 : q = none ∧ keylen > 0
    · rw [if_pos h2]
    rw [if_neg h2]
    by_cases h3 : nn = 0 ∨ nn > 64
    · rw [if_pos h3]
    rw [if_neg h3, if_pos]
    rcases h with h | h | h | h | h | h
    · cases h
    · exact absurd (.inl h) h3
    · exact absurd (.inr h) h3
    · exact h
    · exact absurd h h1
    · exact absurd h h2

/-- C98. Without a key it is the hash of C68. -/
theorem C98_no_key (nn : Nat) (hn : nn ≤ 64) (m : Bytes) : Spec.KeyedHash.blake2b nn [] m = Spec.Blake2b.blake2b nn m := unkeyed nn hn m

/-- C98. The keyed hash of 208 bytes under a key of 32 is KMAC256, 256 bits long and not customised, whatever
was in the array it is put together in. -/
theorem C98_kmac (al : Bool) (mac data key : Bytes) (hm : mac.length = 483) (hd : data.length = 208) (hk : key.length = 32) :
    sha3Key al mac data key = .ok (Spec.KeyedHash.kmac256 key data 256 []) :=
  sha3Key_eq al mac data key hm hd hk

/-- C98. Data or a key of another size end the process. -/
theorem C98_kmac_sizes (al : Bool) (mac data key : Bytes) (h : data.length ≠ 208 ∨ key.length ≠ 32) : sha3Key al mac data key = .ub := by
  unfold sha3Key
  by_cases h1 : data.length ≠ 208
  · rw [if_pos h1]
  · rw [if_neg h1, if_pos (by rcases h with h | h; exacts [absurd h h1, h])]

/-- C98. Ended the other way, the hash is Keccak as it was before it became SHA-3. -/
theorem C98_keccak (d : Nat) (hd : d = 224 ∨ d = 256 ∨ d = 384 ∨ d = 512) (l : List (Bool × Bytes)) :
    keccakOf d l = .ok (Spec.KeyedHash.keccak d (l.map (·.2)).flatten) :=
  keccakOf_spec d hd l

/-- The specifications on known answers: BLAKE2b under a key of 64 bytes of nothing, sample 4 of KMAC from NIST,
Keccak-256 of nothing. -/
example : Spec.KeyedHash.blake2b 64 ((List.range 64).map UInt8.ofNat) [] = beBytes 64
    0x10ebb67700b1868efb4417987acf4690ae9d972fb7a590c2f02871799aaa4786b5e996e8f0f4eb981fc214b005f42d2ff4233499391653df7aefcbc13fc51568 := by
  decide +kernel
set_option maxRecDepth 100000 in
example : Spec.KeyedHash.kmac256 ((List.range 32).map fun i => UInt8.ofNat (0x40 + i)) [0, 1, 2, 3] 512 "My Tagged Application".toUTF8.toList = beBytes 64
    0x20C570C31346F703C9AC36C61C03CB64C3970D0CFC787E9B79599D273A68D2F7F69D4CC3DE9D104A351689F27CF6F5951F0103F33F4F24871024D9C27773A8DD := by
  decide +kernel
example : Spec.KeyedHash.keccak 256 [] = beBytes 32 0xc5d2460186f7233c927e7db2dcc703c0e500b653ca82273b7bfad8045d85a470 := by
  decide +kernel
/-- The routines, on a message in two updates, with NULL for a key, and on a header of 208 bytes. -/
example : blake2bKey [(List.range 100).map UInt8.ofNat, (List.range 30).map fun i => UInt8.ofNat (100 + i)] "key".toUTF8.toList = .ok (beBytes 32
    0x3d73e3ef9bcbe6fc6c22b9cd55bef8e6057a77740814b594d5b93b5fdaf015e9) := by
  decide +kernel
example : oneShot true 20 (some [1, 2, 3, 4]) 3 none 0 = .ok (Spec.Blake2b.blake2b 20 [1, 2, 3]) := by decide +kernel
example : sha3Key true (List.replicate 483 0xaa) (List.replicate 208 7) (List.replicate 32 9) =
    .ok (Spec.KeyedHash.kmac256 (List.replicate 32 9) (List.replicate 208 7) 256 []) :=
  C98_kmac _ _ _ _ List.length_replicate List.length_replicate List.length_replicate
end Verif.Props.KeyedHash
