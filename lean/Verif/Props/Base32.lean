import Verif.Lemmas.Base32
/-
C42: base32 is a faithful codec. `Spec.Base32.text` is the RFC 4648 text; decoding is
stated for a platform whose plain `char` is signed, which is what the code needs.
-/
namespace Verif.Props.Base32
open Verif.Base32 Verif.Spec.Base32

/-- C42: encoding writes the RFC 4648 text in the chosen alphabet, padded if asked to;
it never indexes outside the alphabet. -/
theorem C42_encode (data : Bytes) (pad : Bool) :
    encode2 charset data pad = .ok (text charset data pad) ∧
    encode2 charsetHex data pad = .ok (text charsetHex data pad) :=
  ⟨(encode2_eq codec.size data pad).1, (encode2_eq codecHex.size data pad).1⟩

/-- C42: the announced size is the size of that text and its final NUL. -/
theorem C42_encode_size (data : Bytes) (pad : Bool) :
    encodeSize data pad = (text charset data pad).length + 1 ∧
    encodeSize data pad = (text charsetHex data pad).length + 1 :=
  ⟨(encode2_eq codec.size data pad).2, (encode2_eq codecHex.size data pad).2⟩

/-- C42: decoding the text of any bytes returns the bytes. -/
theorem C42_round_trip (data : Bytes) (pad : Bool) :
    (encode2 charset data pad).bind (fun t => decode2 true table t pad) = .ok data ∧
    (encode2 charsetHex data pad).bind (fun t => decode2 true tableHex t pad) = .ok data := by
  rw [(C42_encode data pad).1, (C42_encode data pad).2]
  exact ⟨decode_text codec data pad, decode_text codecHex data pad⟩

example : text charset [0x66, 0x6f, 0x6f, 0x62] true = [0x6d, 0x7a, 0x78, 0x77, 0x36, 0x79, 0x71, 0x3d] ∧
    text charsetHex [0x66, 0x6f] false = [0x63, 0x70, 0x6e, 0x67] := by decide

/-- C42: when padding is demanded, the only texts accepted are, up to case, the texts of
the bytes returned: no foreign character, no wrong length, no stray bits. -/
theorem C42_strict (str data : Bytes) :
    (decode2 true table str true = .ok data → str.map lower = text charset data true) ∧
    (decode2 true tableHex str true = .ok data → str.map lower = text charsetHex data true) :=
  ⟨decode_canonical codec str data, decode_canonical codecHex str data⟩

example : decode2 true table [0x4d, 0x5a, 0x78, 0x77, 0x36, 0x79, 0x51, 0x3d] true = .ok [0x66, 0x6f, 0x6f, 0x62] ∧
    decode2 true table [0x6d, 0x7a, 0x78, 0x77, 0x36, 0x79, 0x72, 0x3d] true = .err () ∧
    decode2 true table [0x6d, 0x7a, 0x78, 0x77, 0x36, 0x79, 0x71] true = .err () := by decide

/-- C42: when padding is not demanded, every character accepted is in the alphabet, up to
case, and the bytes returned are the leading bits of the text, fewer than eight dropped.
Missing: a wrong length and stray final bits are not refused (`C42_loose_false`). -/
theorem C42_loose_partial (str data : Bytes) (h : decode2 true table str false = .ok data) :
    ∃ syms dropped : List Nat, str.map lower = syms.map (fun i => charset.getD i 0) ∧ (∀ i ∈ syms, i < 32) ∧
      syms.flatMap (fun i => [i / 16 % 2, i / 8 % 2, i / 4 % 2, i / 2 % 2, i % 2]) = bits data ++ dropped ∧
      dropped.length < 8 ∧ data.length = str.length * 5 / 8 := by
  obtain ⟨pre, rest, syms, z, h1, h2, h3, h4, h5, _, h6, _⟩ := decode_sound codec str data false h
  rw [h6 rfl, List.append_nil] at h1
  subst h1
  refine ⟨syms, z, h3, h2, h4, h5, ?_⟩
  have e1 := congrArg List.length h4
  have e2 := congrArg List.length h3
  rw [flatMap_bits5_length, List.length_append, bits_length] at e1
  rw [List.length_map, List.length_map] at e2
  omega

/-- The same for the hex alphabet. -/
theorem C42_loose_hex_partial (str data : Bytes) (h : decode2 true tableHex str false = .ok data) :
    ∃ syms dropped : List Nat, str.map lower = syms.map (fun i => charsetHex.getD i 0) ∧ (∀ i ∈ syms, i < 32) ∧
      syms.flatMap (fun i => [i / 16 % 2, i / 8 % 2, i / 4 % 2, i / 2 % 2, i % 2]) = bits data ++ dropped ∧
      dropped.length < 8 ∧ data.length = str.length * 5 / 8 := by
  obtain ⟨pre, rest, syms, z, h1, h2, h3, h4, h5, _, h6, _⟩ := decode_sound codecHex str data false h
  rw [h6 rfl, List.append_nil] at h1
  subst h1
  refine ⟨syms, z, h3, h2, h4, h5, ?_⟩
  have e1 := congrArg List.length h4
  have e2 := congrArg List.length h3
  rw [flatMap_bits5_length, List.length_append, bits_length] at e1
  rw [List.length_map, List.length_map] at e2
  omega

example : decode2 true table [0x6d, 0x7a, 0x78, 0x77] false = .ok [0x66, 0x6f] := by decide

/-- C42 is false as stated when padding is not demanded: a text of impossible length is
accepted, and two different texts decode to the same bytes. -/
theorem C42_loose_false :
    decode2 true table [0x61] false = .ok [] ∧
    decode2 true table [0x6d, 0x7a, 0x78, 0x77] false = .ok [0x66, 0x6f] ∧
    decode2 true table [0x6d, 0x7a, 0x78, 0x78] false = .ok [0x66, 0x6f] := by decide

/-- C42: where plain `char` is unsigned the comparison with -1 never holds, and no
character is refused: "!!" is then accepted. -/
theorem C42_unsigned_char_false :
    (∃ data, decode2 false table [0x21, 0x21] false = .ok data) ∧ decode2 true table [0x21, 0x21] false = .err () :=
  ⟨⟨[255], by decide⟩, by decide⟩

/-- C42: the announced decoded size is the number of bytes decoding stores. -/
theorem C42_decode_size (str data : Bytes) (h : decode2 true table str false = .ok data) :
    decodeSize true table str = .ok data.length := by
  simp only [decodeSize, h]

/-- C42: decoding never indexes outside its tables, whatever the text. -/
theorem C42_total (str : Bytes) (unpad : Bool) :
    decode2 true table str unpad ≠ .ub ∧ decode2 true tableHex str unpad ≠ .ub := by
  have key : ∀ {alphabet : Bytes} {table : List Int}, Codec alphabet table → decode2 true table str unpad ≠ .ub := by
    intro alphabet table C
    unfold decode2
    have := decLoop_total C unpad str 0 0
    generalize decLoop true table unpad 0 0 str = g at *
    cases g with
    | ub => exact absurd rfl this
    | err _ => simp [Out.bind]
    | ok d =>
      simp only [Out.bind]
      split
      · split
        · simp
        · split
          · simp
          · split <;> simp
      · simp
  exact ⟨key codec, key codecHex⟩

/-- C42: the announced decoded size is never less than what decoding stores, with or
without padding demanded. -/
theorem C42_decode_fits (str data : Bytes) (unpad : Bool) (h : decode2 true table str unpad = .ok data) :
    ∃ n, decodeSize true table str = .ok n ∧ data.length ≤ n := by
  cases unpad with
  | false => exact ⟨_, C42_decode_size str data h, Nat.le_refl _⟩
  | true =>
    obtain ⟨pre, rest, syms, z, h1, h2, h3, h4, h5, _, _, _⟩ := decode_sound codec str data true h
    have e1 := congrArg List.length h4
    have e2 := congrArg List.length h3
    have e3 := congrArg List.length h1
    rw [flatMap_bits5_length, List.length_append, bits_length] at e1
    rw [List.length_map, List.length_map] at e2
    rw [List.length_append] at e3
    have hle : data.length ≤ str.length * 5 / 8 := by omega
    unfold decodeSize
    cases hd : decode2 true table str false with
    | ok out =>
      refine ⟨_, rfl, ?_⟩
      obtain ⟨_, _, _, _, _, _, hl⟩ := C42_loose_partial str out hd
      omega
    | err _ => exact ⟨_, rfl, hle⟩
    | ub => exact absurd hd (C42_total str false).1

end Verif.Props.Base32
