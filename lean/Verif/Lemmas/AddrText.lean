import Verif.Lemmas.Addr
import Verif.Lemmas.Base32
/-
Helper lemmas for addresses as text.
-/
namespace Verif.Addr
open Verif.Base32

/-- What is assumed of the text conversions of libuv. -/
structure InetOK (I : Inet) : Prop where
  v4 : ∀ ip : Bytes, ip.length = 4 → I.pton4 (I.ntop4 ip) = some ip
  v6 : ∀ ip : Bytes, ip.length = 16 → I.pton6 (I.ntop6 ip) = some ip ∧ I.pton4 (I.ntop6 ip) = none
  len4 : ∀ ip : Bytes, ip.length = 4 → (I.ntop4 ip).length ≤ 15
  len6 : ∀ ip : Bytes, ip.length = 16 → (I.ntop6 ip).length ≤ 45
  chars4 : ∀ ip : Bytes, ip.length = 4 → ∀ c ∈ I.ntop4 ip, c ≠ 0x40 ∧ c ≠ 0x5b ∧ c ≠ 0x5d ∧ c ≠ 0x3a
  chars6 : ∀ ip : Bytes, ip.length = 16 → ∀ c ∈ I.ntop6 ip, c ≠ 0x40 ∧ c ≠ 0x5b ∧ c ≠ 0x5d

theorem strcpy_twice {n : Nat} {s : Bytes} (h1 : s.length < maxHost) (h2 : s.length < n) :
    (strcpy maxHost s).bind (strcpy n) = .ok s := by
  have e1 : strcpy maxHost s = .ok s := by rw [strcpy, if_pos (by omega)]
  have e2 : strcpy n s = .ok s := by rw [strcpy, if_pos (by omega)]
  rw [e1]
  exact e2

theorem strchr_append {c : UInt8} {p s : Bytes} (h : ∀ x ∈ p, x ≠ c) : strchr c (p ++ c :: s) = some (p, s) := by
  induction p with
  | nil => simp [strchr]
  | cons x p ih =>
    rw [List.cons_append, strchr, if_neg (h x (by simp)), ih (fun y hy => h y (by simp [hy]))]
    rfl

theorem strchr_none {c : UInt8} {s : Bytes} (h : ∀ x ∈ s, x ≠ c) : strchr c s = none := by
  induction s with
  | nil => rfl
  | cons x s ih =>
    rw [strchr, if_neg (h x (by simp)), ih (fun y hy => h y (by simp [hy]))]
    rfl

theorem strchr_some {c : UInt8} {s p r : Bytes} (h : strchr c s = some (p, r)) : s = p ++ c :: r ∧ ∀ x ∈ p, x ≠ c := by
  induction s generalizing p with
  | nil => cases h
  | cons x s ih =>
    rw [strchr] at h
    split at h
    · rename_i hx
      simp only [Option.some.injEq, Prod.mk.injEq] at h
      obtain ⟨rfl, rfl⟩ := h
      exact ⟨by rw [hx]; rfl, by simp⟩
    · rename_i hx
      cases hs : strchr c s with
      | none => rw [hs] at h; cases h
      | some q =>
        rw [hs] at h
        obtain ⟨q1, q2⟩ := q
        simp only [Option.map_some, Option.some.injEq, Prod.mk.injEq] at h
        obtain ⟨rfl, rfl⟩ := h
        obtain ⟨e1, e2⟩ := ih hs
        refine ⟨by rw [e1]; rfl, ?_⟩
        intro y hy
        rcases List.mem_cons.1 hy with rfl | hy
        · exact hx
        · exact e2 y hy

theorem digit_toNat (d : Nat) (h : d < 10) : (UInt8.ofNat (0x30 + d)).toNat = 0x30 + d := by
  rw [UInt8.toNat_ofNat']; omega

theorem parsePort_append (s : Bytes) (d : Nat) (hd : d < 10) (i w v : Nat) (h : parsePort i w s = some v)
    (hi : i + s.length < 5) : parsePort i w (s ++ [UInt8.ofNat (0x30 + d)]) = some (v * 10 + d) := by
  induction s generalizing i w with
  | nil =>
    simp only [parsePort, Option.some.injEq] at h
    simp only [List.length_nil] at hi
    simp only [List.nil_append, parsePort, digit_toNat d hd]
    rw [if_neg (by omega), if_neg (by omega), h]
    congr 1; omega
  | cons c s ih =>
    simp only [List.length_cons] at hi
    rw [List.cons_append, parsePort]
    rw [parsePort] at h
    split at h
    · cases h
    · rename_i h1
      rw [if_neg h1]
      split at h
      · cases h
      · rename_i h2
        rw [if_neg h2]
        exact ih _ _ h (by omega)

theorem decimal_spec (f n : Nat) (hf : f ≤ 5) (hn : n < 10 ^ f) (h0 : 0 < f) :
    parsePort 0 0 (decimal f n) = some n ∧ (decimal f n).length ≤ f ∧
      (∀ c ∈ decimal f n, 0x30 ≤ c.toNat ∧ c.toNat ≤ 0x39) := by
  induction f generalizing n with
  | zero => omega
  | succ f ih =>
    rw [decimal]
    by_cases h : n < 10
    · rw [if_pos h]
      refine ⟨?_, by simp, ?_⟩
      · simp only [parsePort, digit_toNat n h]
        rw [if_neg (by omega)]
        simp
      · intro c hc
        rw [List.mem_singleton.1 hc, digit_toNat n h]
        omega
    · rw [if_neg h]
      have hf0 : 0 < f := by
        rcases Nat.eq_zero_or_pos f with h1 | h1
        · subst h1; simp at hn; omega
        · exact h1
      have hn' : n / 10 < 10 ^ f := by rw [Nat.pow_succ] at hn; omega
      obtain ⟨i1, i2, i3⟩ := ih (n / 10) (by omega) hn' hf0
      have hd : n % 10 < 10 := Nat.mod_lt _ (by omega)
      refine ⟨?_, by simp; omega, ?_⟩
      · rw [parsePort_append _ _ hd 0 0 _ i1 (by omega)]
        congr 1; omega
      · intro c hc
        rcases List.mem_append.1 hc with hc | hc
        · exact i3 c hc
        · rw [List.mem_singleton.1 hc, digit_toNat _ hd]
          omega

theorem decimal_port (n : Nat) (h : n < 65536) :
    parsePort 0 0 (decimal 5 n) = some n ∧ (decimal 5 n).length ≤ 5 ∧ ∀ c ∈ decimal 5 n, 0x30 ≤ c.toNat ∧ c.toNat ≤ 0x39 :=
  decimal_spec 5 n (by omega) (by omega) (by omega)

/-- No '@' in base32. -/
theorem charset_no_at : ∀ i < 32, charset.getD i 0 ≠ 0x40 := by decide

theorem text_no_at (data : Bytes) : ∀ c ∈ Spec.Base32.text charset data false, c ≠ 0x40 := by
  intro c hc
  simp only [Spec.Base32.text, Bool.false_eq_true, if_false, List.append_nil, List.mem_map] at hc
  obtain ⟨i, hi, rfl⟩ := hc
  exact charset_no_at i (groups_lt _ (isBits_bits data) i hi)

theorem text_length (data : Bytes) : (Spec.Base32.text charset data false).length = (8 * data.length + 4) / 5 := by
  simp [Spec.Base32.text, groups_length, bits_length]

/-- Parsing a printed key. -/
theorem parseKey_text {key rest : Bytes} (hk : key.length = 33) :
    parseKey (Spec.Base32.text charset key false ++ 0x40 :: rest) = .ok (some key, rest) := by
  have hl : (Spec.Base32.text charset key false).length = 53 := by rw [text_length, hk]
  have hd := decode_text codec key false
  unfold parseKey
  rw [strchr_append (text_no_at key)]
  simp only
  rw [if_neg (by omega), if_neg (by omega)]
  have hs : decodeSize true table (Spec.Base32.text charset key false) = .ok 33 := by
    rw [decodeSize, hd]; simp [hk]
  rw [hs]
  simp only
  rw [if_neg (by simp), hd]
  simp [hk]

theorem parseKey_none {s : Bytes} (h : ∀ c ∈ s, c ≠ 0x40) : parseKey s = .ok (none, s) := by
  unfold parseKey
  rw [strchr_none h]

theorem splitHost_plain {host p : Bytes} (hh : ∀ c ∈ host, c ≠ 0x5b ∧ c ≠ 0x3a) (hp : ∀ c ∈ p, c ≠ 0x3a) :
    splitHost (host ++ 0x3a :: p) = some (host, some p) := by
  unfold splitHost
  split
  · rename_i t ht
    cases host with
    | nil => simp at ht
    | cons c host =>
      simp only [List.cons_append, List.cons.injEq] at ht
      exact absurd ht.1 (hh c (by simp)).1
  · rw [strchr_append (fun c hc => (hh c hc).2)]
    simp only
    rw [strchr_none hp]
    simp

theorem splitHost_bracket {host p : Bytes} (hh : ∀ c ∈ host, c ≠ 0x5d) :
    splitHost (0x5b :: host ++ 0x5d :: 0x3a :: p) = some (host, some p) := by
  unfold splitHost
  simp only [List.cons_append]
  have : strchr 0x5d (0x5b :: (host ++ 0x5d :: 0x3a :: p)) = some (0x5b :: host, 0x3a :: p) := by
    rw [← List.cons_append]
    apply strchr_append
    intro x hx
    rcases List.mem_cons.1 hx with rfl | hx
    · decide
    · exact hh x hx
  rw [this]
  simp

end Verif.Addr
