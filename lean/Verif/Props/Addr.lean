import Verif.Lemmas.AddrText
/-
C40: address handling is consistent. C54: addresses as text.
-/
namespace Verif.Props.Addr
open Verif.Bio Verif.Addr Verif.Spec.Addr

/-- A network address the C type can hold, with the unused part of an IP address zero. -/
def Fits (na : Netaddr) : Prop :=
  na.time < 2 ^ 64 ∧ na.services < 2 ^ 64 ∧ WF na.addr ∧ (na.addr.type = 0 → na.addr.ip.drop 16 = List.replicate 20 0)

/-- C40: what is written is read back, and nothing after it is consumed. -/
theorem C40_wire_round_trip (na : Netaddr) (h : Fits na) (r : Bytes) :
    readNetaddr (writeNetaddr na ++ r) = .ok (na, r) ∧ (writeNetaddr na).length = 88 := by
  obtain ⟨h1, h2, ⟨w1, w2, w3, w4⟩, h3⟩ := h
  refine ⟨?_, by simp [writeNetaddr, writeU64, writeU8, writeU16, w2, w4]⟩
  simp only [readNetaddr, writeNetaddr, writeU64, writeU8, writeU16, List.append_assoc]
  rw [readU64_append h1]
  simp only [Out.bind_ok]
  rw [readU64_append h2]
  simp only [Out.bind_ok]
  rw [readU8_append w1]
  simp only [Out.bind_ok]
  rw [readBytes_append' w2]
  simp only [Out.bind_ok]
  rw [readU16_append w3]
  simp only [Out.bind_ok]
  rw [readBytes_append' w4]
  simp only [Out.bind_ok, Out.pure_eq, Out.ok.injEq, Prod.mk.injEq, and_true]
  have : (if na.addr.type = 0 then na.addr.ip.take 16 ++ List.replicate 20 0 else na.addr.ip) = na.addr.ip := by
    split
    · rename_i ht
      rw [← h3 ht, List.take_append_drop]
    · rfl
  rw [this]

/-- C40: whatever is read was 88 bytes of input, gives a value that fits, and writing it
reproduces those bytes except, for an IP address, the 20 unused bytes, which become zero. -/
theorem C40_wire_read (s r : Bytes) (na : Netaddr) (h : readNetaddr s = .ok (na, r)) :
    Fits na ∧ ∃ unused : Bytes, unused.length = 20 ∧
      s = writeNetaddr { na with addr := { na.addr with ip := na.addr.ip.take 16 ++ unused } } ++ r ∧
      (na.addr.type ≠ 0 → unused = na.addr.ip.drop 16) := by
  simp only [readNetaddr, Out.bind_eq_ok, Out.pure_eq, Out.ok.injEq, Prod.exists, Prod.mk.injEq] at h
  obtain ⟨time, s1, e1, services, s2, e2, type, s3, e3, ip, s4, e4, port, s5, e5, key, s6, e6, hna, rfl⟩ := h
  obtain ⟨rfl, b1⟩ := readU64_eq_ok.1 e1
  obtain ⟨rfl, b2⟩ := readU64_eq_ok.1 e2
  obtain ⟨rfl, b3⟩ := readU8_eq_ok.1 e3
  obtain ⟨rfl, b4⟩ := readBytes_eq_ok.1 e4
  obtain ⟨rfl, b5⟩ := readU16_eq_ok.1 e5
  obtain ⟨rfl, b6⟩ := readBytes_eq_ok.1 e6
  have l16 : (ip.take 16).length = 16 := by rw [List.length_take, b4]; rfl
  have t16 : ∀ z : Bytes, (ip.take 16 ++ z).take 16 = ip.take 16 := by
    intro z; rw [List.take_append_of_le_length (by omega), List.take_of_length_le (by omega)]
  have d16 : ∀ z : Bytes, (ip.take 16 ++ z).drop 16 = z := by
    intro z; rw [List.drop_append_of_le_length (by omega), List.drop_of_length_le (by omega), List.nil_append]
  subst hna
  by_cases ht : type = 0
  · subst ht
    simp only [if_true]
    refine ⟨⟨b1, b2, ⟨b3, by simp [l16], b5, b6⟩, fun _ => d16 _⟩, ip.drop 16, by rw [List.length_drop, b4], ?_, by simp⟩
    rw [t16, List.take_append_drop]
    simp [writeNetaddr, writeU64, writeU8, writeU16]
  · simp only [if_neg ht]
    refine ⟨⟨b1, b2, ⟨b3, b4, b5, b6⟩, fun h => absurd h ht⟩, ip.drop 16, by rw [List.length_drop, b4], ?_, fun _ => rfl⟩
    rw [List.take_append_drop]
    simp [writeNetaddr, writeU64, writeU8, writeU16]

/-- An IPv4 address 1.2.3.4:12038 with a key. -/
def exAddr : Addr := { type := 0, ip := v4 1 2 3 4 ++ List.replicate 20 0, port := 12038, key := List.replicate 33 7 }

theorem exAddr_wf : WF exAddr := ⟨by decide, by decide, by decide, by decide⟩

example : Fits { time := 1700000000, services := 1, addr := exAddr } :=
  ⟨by decide, by decide, exAddr_wf, fun _ => rfl⟩

/-- C40: socket addresses survive the conversion; an IPv4-mapped IPv6 one comes back as
the IPv4 address it stands for. -/
theorem C40_socket_round_trip (ip : Bytes) (port : Nat) :
    (ip.length = 4 → toSa (fromSa (.in4 ip port)) = .in4 ip port) ∧
    (ip.length = 16 → ip.take 12 ≠ [0, 0, 0, 0, 0, 0, 0, 0, 0, 0, 0xff, 0xff] → toSa (fromSa (.in6 ip port)) = .in6 ip port) ∧
    (ip.length = 16 → ip.take 12 = [0, 0, 0, 0, 0, 0, 0, 0, 0, 0, 0xff, 0xff] →
      toSa (fromSa (.in6 ip port)) = .in4 (ip.drop 12) port) := by
  refine ⟨?_, ?_, ?_⟩
  · intro h
    have h4 : ip.take 4 = ip := List.take_of_length_le (by omega)
    match ip, h with
    | [a, b, c, d], _ => rfl
  · intro h hm
    have h16 : ip.take 16 = ip := List.take_of_length_le (by omega)
    have hi : (fromSa (.in6 ip port)).ip = ip ++ List.replicate 20 0 := by simp [fromSa, setIp, h16]
    have : isMapped (fromSa (.in6 ip port)) = false := by
      simp only [isMapped, startsWith, hi, mapped, List.length_cons, List.length_nil]
      rw [List.take_append_of_le_length (by omega)]
      simpa using hm
    simp only [toSa, getAf, this, Bool.false_eq_true, if_false, hi]
    rw [List.take_append_of_le_length (by omega), h16]
    rfl
  · intro h hm
    have h16 : ip.take 16 = ip := List.take_of_length_le (by omega)
    have hi : (fromSa (.in6 ip port)).ip = ip ++ List.replicate 20 0 := by simp [fromSa, setIp, h16]
    have : isMapped (fromSa (.in6 ip port)) = true := by
      simp only [isMapped, startsWith, hi, mapped, List.length_cons, List.length_nil]
      rw [List.take_append_of_le_length (by omega)]
      simpa using hm
    simp only [toSa, getAf, this, if_true, hi]
    rw [List.drop_append_of_le_length (by omega), List.take_append_of_le_length (by rw [List.length_drop]; omega),
      List.take_of_length_le (by rw [List.length_drop]; omega)]
    rfl

/-- C40: turning an IP address into a socket address and back keeps the IP and the port;
the key is not part of a socket address. -/
theorem C40_address_round_trip (a : Addr) (h : WF a) (ht : a.type = 0) (hz : a.ip.drop 16 = List.replicate 20 0) :
    fromSa (toSa a) = { a with key := List.replicate 33 0 } := by
  have hip : a.ip.take 16 ++ List.replicate 20 0 = a.ip := by rw [← hz, List.take_append_drop]
  have hl : (a.ip.take 16).length = 16 := by rw [List.length_take, h.ip]; rfl
  cases hm : isMapped a with
  | false =>
    simp only [toSa, getAf, hm, Bool.false_eq_true, if_false, fromSa, setIp, init]
    rw [List.take_of_length_le (l := a.ip.take 16) (by omega), hip, ← ht]
  | true =>
    simp only [toSa, getAf, hm, if_true, fromSa, setIp, init]
    have hm' : a.ip.take 12 = mapped := by simpa [isMapped, startsWith, mapped] using hm
    have : List.replicate 10 0 ++ List.replicate 2 0xff ++ ((a.ip.drop 12).take 4).take 4 ++ List.replicate 20 0 = a.ip := by
      rw [List.take_of_length_le (l := (a.ip.drop 12).take 4) (by rw [List.length_take]; omega)]
      rw [show List.replicate 10 (0 : UInt8) ++ List.replicate 2 0xff = a.ip.take 12 from hm'.symm, ← List.take_add]
      exact hip
    rw [this, ← ht]

/-- C40: an address is valid exactly if it is an IP address outside the blocks no node can
have, and routable exactly if it is valid, outside every reserved block, and not a unique
local address other than a Tor one. -/
theorem C40_routable_partial (a : Addr) (h : WF a) :
    (isValid a = true ↔ a.type = 0 ∧ ∀ b ∈ invalidBlocks, ¬inBlock (a.ip.take 16) b.1 b.2) ∧
    (isRoutable a = true ↔ isValid a = true ∧ (∀ b ∈ reservedBlocks, ¬inBlock (a.ip.take 16) b.1 b.2) ∧
      (inBlock (a.ip.take 16) uniqueLocal.1 uniqueLocal.2 → inBlock (a.ip.take 16) onion.1 onion.2)) := by
  have e1 := isNull_iff h
  have e2 := isBroadcast_iff h
  have e3 := isRfc3849_iff h
  have e4 := isShifted_iff h
  have f1 := isRfc1918_iff h
  have f2 := isRfc2544_iff h
  have f3 := isRfc3927_iff h
  have f4 := isRfc4862_iff h
  have f5 := isRfc6598_iff h
  have f6 := isRfc5737_iff h
  have f7 := isRfc4193_iff h
  have f8 := isOnion_iff h
  have f9 := isRfc4843_iff h
  have f10 := isLocal_iff h
  have hv : isValid a = true ↔ a.type = 0 ∧ ¬ startsWith a shifted = true ∧ ¬ isNull a = true ∧ ¬ isBroadcast a = true ∧ ¬ isRfc3849 a = true := by
    unfold isValid
    by_cases ht : a.type = 0
    · cases startsWith a shifted <;> cases isNull a <;> cases isBroadcast a <;> cases isRfc3849 a <;> simp [ht]
    · simp [ht]
  have hr : isRoutable a = true ↔ isValid a = true ∧ ¬ isRfc1918 a = true ∧ ¬ isRfc2544 a = true ∧ ¬ isRfc3927 a = true ∧
      ¬ isRfc4862 a = true ∧ ¬ isRfc6598 a = true ∧ ¬ isRfc5737 a = true ∧ (isRfc4193 a = true → isOnion a = true) ∧
      ¬ isRfc4843 a = true ∧ ¬ isLocal a = true := by
    unfold isRoutable
    cases isValid a
    · simp
    cases isRfc1918 a
    · cases isRfc2544 a
      · cases isRfc3927 a
        · cases isRfc4862 a
          · cases isRfc6598 a
            · cases isRfc5737 a
              · cases isRfc4193 a <;> cases isOnion a <;> cases isRfc4843 a <;> cases isLocal a <;> simp
              · simp
            · simp
          · simp
        · simp
      · simp
    · simp
  constructor
  · rw [hv, e1, e2, e3, e4]
    simp only [invalidBlocks, List.forall_mem_cons, List.not_mem_nil, false_imp_iff, implies_true, and_true, not_or, within]
    constructor
    · rintro ⟨ht, h1, ⟨h2, h3⟩, h4, h5⟩
      exact ⟨ht, h2, h3, h4, h5, h1⟩
    · rintro ⟨ht, h2, h3, h4, h5, h1⟩
      exact ⟨ht, h1, ⟨h2, h3⟩, h4, h5⟩
  · rw [hr, f1, f2, f3, f4, f5, f6, f7, f8, f9, f10]
    simp only [reservedBlocks, List.forall_mem_cons, List.not_mem_nil, false_imp_iff, implies_true, and_true, not_or, within]
    constructor
    · rintro ⟨hv, ⟨a1, a2, a3⟩, ⟨b1, b2⟩, _, c, d, ⟨x, y, z⟩, u, v, l1, l2⟩
      exact ⟨hv, ⟨a1, a2, a3, b1, b2, d, x, y, z, c, v, l1, l2⟩, u⟩
    · rintro ⟨hv, ⟨a1, a2, a3, b1, b2, d, x, y, z, c, v, l1, l2⟩, u⟩
      exact ⟨hv, ⟨a1, a2, a3⟩, ⟨b1, b2⟩, b2, c, d, ⟨x, y, z⟩, u, v, l1, l2⟩

example : isRoutable exAddr = true ∧ isRoutable { exAddr with ip := v4 10 2 3 4 ++ List.replicate 20 0 } = false ∧
    isValid { exAddr with ip := v4 10 2 3 4 ++ List.replicate 20 0 } = true := by decide

/-- C40: only 127.0.0.0/16 counts as loopback, although the whole of 127.0.0.0/8 is:
127.1.0.1 is classed as routable. So is a multicast address. -/
theorem C40_loopback_false :
    isRoutable { exAddr with ip := v4 127 1 0 1 ++ List.replicate 20 0 } = true ∧
    inBlock (v4 127 1 0 1) (v4 127 0 0 0) 104 ∧
    isRoutable { exAddr with ip := v4 224 0 0 1 ++ List.replicate 20 0 } = true ∧
    isMulticast { exAddr with ip := v4 224 0 0 1 ++ List.replicate 20 0 } = true :=
  ⟨by decide, by decide, by decide, by decide⟩

/-- C40: addresses are equal when type, bytes and port are; equal addresses have equal
hashes, whatever the hashOf function; the key plays no part. -/
theorem C40_equality (x y : Addr) :
    (equal x y = true ↔ x.type = y.type ∧ x.ip = y.ip ∧ x.port = y.port) ∧
    (equal x y = true → ∀ f, hashOf f x = hashOf f y) := by
  have h1 : equal x y = true ↔ x.type = y.type ∧ x.ip = y.ip ∧ x.port = y.port := by
    unfold equal
    by_cases h1 : x.type = y.type <;> by_cases h2 : x.ip = y.ip <;> by_cases h3 : x.port = y.port <;> simp [h1, h2, h3]
  refine ⟨h1, fun h f => ?_⟩
  obtain ⟨a, b, c⟩ := h1.1 h
  simp only [hashOf, a, b, c]

/-- C40: a null address is turned into the loopback address of its family, any other IP
address is left alone, and the result is not null. -/
theorem C40_localize (a : Addr) (h : WF a) (ht : a.type = 0) :
    (localize a).2 = true ∧ isNull (localize a).1 = false ∧
    (isNull a = true → isLocal (localize a).1 = true) ∧ (isNull a = false → (localize a).1 = a) := by
  obtain ⟨b0, b1, b2, b3, b4, b5, b6, b7, b8, b9, b10, b11, b12, b13, b14, b15, t, hb⟩ := h.bytes
  cases hn : isNull a with
  | false => simp [localize, hn, ht]
  | true =>
    cases hm : isMapped a with
    | true =>
      have e : (localize a) = ({ a with ip := (a.ip.set 12 127).set 15 1 }, true) := by simp [localize, ht, hn, hm]
      rw [e]
      simp only [isNull, hm, if_true] at hn
      simp [byte, hb] at hn
      simp [isMapped, startsWith, mapped, hb] at hm
      simp [isNull, isLocal, isMapped, startsWith, mapped, hb, hm, byte, hn]
    | false =>
      have e : (localize a) = ({ a with ip := a.ip.set 15 1 }, true) := by simp [localize, ht, hn, hm]
      rw [e]
      simp only [isNull, hm, Bool.false_eq_true, if_false] at hn
      simp [startsWith, zeroIp, hb] at hn
      simp [isNull, isLocal, isMapped, startsWith, mapped, zeroIp, localIp, hb, hn]

/-! ### Text -/

/-- C54: for an IP address that is not a Tor one, with a port, the full text (key, host,
port) fits the 128 byte buffer used everywhere and parses back to the same address. -/
theorem C54_round_trip (I : Inet) (hI : InetOK I) (a : Addr) (h : WF a) (ht : a.type = 0) (hp : a.port ≠ 0)
    (hz : a.ip.drop 16 = List.replicate 20 0) (ho : isOnion a = false) (fb port : Nat) (hfb : fb ≠ 0) :
    ∃ s, toFull I a 128 fb = .ok s ∧ s.length < 128 ∧ fromString I s port = .ok a := by
  have hip : a.ip.take 16 ++ List.replicate 20 0 = a.ip := by rw [← hz, List.take_append_drop]
  have hl : (a.ip.take 16).length = 16 := by rw [List.length_take, h.ip]; rfl
  obtain ⟨d1, d2, d3⟩ := decimal_port a.port h.port
  -- the text without the key, what it parses to, and its characters
  have base : ∃ s, toStr I a 128 fb = .ok s ∧ s.length ≤ 53 ∧ (∀ c ∈ s, c ≠ 0x40) ∧
      ∃ host p af ip, splitHost s = some (host, some p) ∧ host.length ≤ 46 ∧ parsePort 0 0 p = some a.port ∧
        parseHost I host = some (af, ip) ∧ ∀ x : Addr, (setIp x af ip).ip = a.ip := by
    have dne : ∀ c ∈ decimal 5 a.port, c ≠ 0x40 ∧ c ≠ 0x3a := by
      intro c hc
      have := d3 c hc
      constructor <;> (intro e; subst e; simp at this)
    cases hm : isMapped a with
    | true =>
      have hm' : a.ip.take 12 = mapped := by simpa [isMapped, startsWith, mapped] using hm
      have l4 : ((a.ip.drop 12).take 4).length = 4 := by rw [List.length_take, List.length_drop, h.ip]; rfl
      have c4 := hI.chars4 _ l4
      have len4 := hI.len4 _ l4
      refine ⟨I.ntop4 ((a.ip.drop 12).take 4) ++ [0x3a] ++ decimal 5 a.port, ?_, ?_, ?_,
        I.ntop4 ((a.ip.drop 12).take 4), decimal 5 a.port, .inet, (a.ip.drop 12).take 4, ?_, by omega, d1, ?_, ?_⟩
      · simp only [toStr, ntop, getAf, hm, if_pos, getIp, isIp6, Bool.not_true, Bool.false_and, Bool.false_eq_true, if_false]
        rw [memSlice_ok (by rw [List.length_drop, h.ip]; omega), List.drop_zero]
        simp only [Out.bind]
        rw [if_pos (by omega)]
        simp only
        rw [if_neg hfb, if_neg (show ¬(Af.inet = Af.inet6) by simp), if_neg (by omega), if_neg hp,
          if_neg (show ¬(Af.inet = Af.inet6) by simp)]
        exact strcpy_twice (by simp only [List.length_append, List.length_singleton, maxHost]; omega)
          (by simp only [List.length_append, List.length_singleton]; omega)
      · simp only [List.length_append, List.length_singleton]; omega
      · intro c hc
        simp only [List.mem_append, List.mem_singleton] at hc
        rcases hc with (hc | rfl) | hc
        · exact (c4 c hc).1
        · decide
        · exact (dne c hc).1
      · have := splitHost_plain (host := I.ntop4 ((a.ip.drop 12).take 4)) (p := decimal 5 a.port)
          (fun c hc => ⟨(c4 c hc).2.1, (c4 c hc).2.2.2⟩) (fun c hc => (dne c hc).2)
        simpa using this
      · simp only [parseHost, hI.v4 _ l4]
      · intro x
        simp only [setIp]
        rw [List.take_of_length_le (l := (a.ip.drop 12).take 4) (by omega)]
        rw [show List.replicate 10 (0 : UInt8) ++ List.replicate 2 0xff = a.ip.take 12 from hm'.symm, ← List.take_add]
        exact hip
    | false =>
      have c6 := hI.chars6 _ hl
      have len6 := hI.len6 _ hl
      refine ⟨[0x5b] ++ I.ntop6 (a.ip.take 16) ++ [0x5d, 0x3a] ++ decimal 5 a.port, ?_, ?_, ?_,
        I.ntop6 (a.ip.take 16), decimal 5 a.port, .inet6, a.ip.take 16, ?_, by omega, d1, ?_, ?_⟩
      · simp only [toStr, ntop, getAf, hm, getIp, isIp6, ho, Bool.not_false, Bool.and_true, Bool.false_eq_true, if_false, if_true]
        rw [memSlice_ok (by rw [h.ip]; omega), List.drop_zero]
        simp only [Out.bind]
        rw [if_pos (by omega)]
        simp only
        rw [if_neg hfb, if_neg (by omega), if_neg hp]
        rw [if_pos (by simp only [maxHost]; omega)]
        exact strcpy_twice (by simp only [List.length_append, List.length_singleton, List.length_cons, List.length_nil, maxHost]; omega)
          (by simp only [List.length_append, List.length_singleton, List.length_cons, List.length_nil]; omega)
      · simp only [List.length_append, List.length_singleton, List.length_cons, List.length_nil]; omega
      · intro c hc
        simp only [List.mem_append, List.mem_singleton, List.mem_cons, List.not_mem_nil, or_false] at hc
        rcases hc with ((rfl | hc) | (rfl | rfl)) | hc
        · decide
        · exact (c6 c hc).1
        · decide
        · decide
        · exact (dne c hc).1
      · have := splitHost_bracket (host := I.ntop6 (a.ip.take 16)) (p := decimal 5 a.port) (fun c hc => (c6 c hc).2.2)
        simpa using this
      · simp only [parseHost, (hI.v6 _ hl).1, (hI.v6 _ hl).2]
      · intro x
        simp only [setIp]
        rw [List.take_of_length_le (l := a.ip.take 16) (by omega), hip]
  obtain ⟨s, b1, b2, b3, host, p, af, ip, b4, b5, b6, b7, b8⟩ := base
  have finish : ∀ (key : Option Bytes) (t : Bytes), parseKey t = .ok (key, s) → key.getD (List.replicate 33 0) = a.key →
      fromString I t port = .ok a := by
    intro key t hk hkey
    simp only [fromString, hk, Out.bind, b4]
    rw [if_neg (by simp only [addrStrLen]; omega), if_neg (by simp only [addrStrLen]; omega)]
    simp only [choosePort, b6, Option.map_some, b7, Nat.mod_eq_of_lt h.port, hkey]
    have e := b8 { init with key := a.key }
    cases af <;> simp only [setIp, init] at e ⊢ <;> rw [e, ← ht]
  cases hk : hasKey a with
  | false =>
    have hkey : a.key = List.replicate 33 0 := by simpa [hasKey, zeroPub] using hk
    refine ⟨s, ?_, by omega, ?_⟩
    · simp only [toFull, b1, Out.bind, hk, Bool.not_false, if_true]
    · exact finish none s (parseKey_none b3) (by rw [hkey]; rfl)
  | true =>
    obtain ⟨g1, g2⟩ := Base32.encode2_eq Base32.codec.size a.key false
    have hl53 : (Spec.Base32.text Base32.charset a.key false).length = 53 := by rw [text_length, h.key]
    rw [hl53] at g2
    refine ⟨Spec.Base32.text Base32.charset a.key false ++ [0x40] ++ s, ?_, ?_, ?_⟩
    · simp only [toFull, b1, Out.bind, hk, Bool.not_true, Bool.false_eq_true, if_false, g2]
      rw [if_neg (by omega), if_pos (by simp only [maxHost]; omega), g1]
      have e : strcpy 54 (Spec.Base32.text Base32.charset a.key false) = .ok (Spec.Base32.text Base32.charset a.key false) := by
        rw [strcpy, if_pos (by omega)]
      simp only [e]
      exact strcpy_twice (by simp only [List.length_append, List.length_singleton, maxHost]; omega)
          (by simp only [List.length_append, List.length_singleton]; omega)
    · simp only [List.length_append, List.length_singleton]; omega
    · have := parseKey_text (key := a.key) (rest := s) h.key
      exact finish (some a.key) _ (by simpa using this) rfl

/-- A stand-in for libuv's conversions that satisfies the assumptions: two letters a byte. -/
def toyText (ip : Bytes) : Bytes := ip.flatMap fun b => [UInt8.ofNat (0x61 + b.toNat / 16), UInt8.ofNat (0x61 + b.toNat % 16)]
def toyBytes : Bytes → Bytes
  | x :: y :: r => UInt8.ofNat ((x.toNat - 0x61) * 16 + (y.toNat - 0x61)) :: toyBytes r
  | _ => []
def toyInet : Inet where
  pton4 s := if s.length = 8 then some (toyBytes s) else none
  pton6 s := if s.length = 32 then some (toyBytes s) else none
  ntop4 := toyText
  ntop6 := toyText

theorem toy_length (ip : Bytes) : (toyText ip).length = 2 * ip.length := by
  induction ip with
  | nil => rfl
  | cons b r ih => simp only [toyText, List.flatMap_cons, List.length_append, List.length_cons, List.length_nil] at *; omega

theorem toy_back (ip : Bytes) : toyBytes (toyText ip) = ip := by
  induction ip with
  | nil => rfl
  | cons b r ih =>
    have hb : b.toNat < 256 := b.toNat_lt
    simp only [toyText, List.flatMap_cons, List.cons_append, List.nil_append, toyBytes, List.cons.injEq] at *
    refine ⟨?_, ih⟩
    apply UInt8.toNat.inj
    simp only [UInt8.toNat_ofNat']
    omega

theorem toy_chars (ip : Bytes) : ∀ c ∈ toyText ip, c ≠ 0x40 ∧ c ≠ 0x5b ∧ c ≠ 0x5d ∧ c ≠ 0x3a := by
  intro c hc
  simp only [toyText, List.mem_flatMap, List.mem_cons, List.not_mem_nil, or_false] at hc
  obtain ⟨b, _, hc⟩ := hc
  have hb : b.toNat < 256 := b.toNat_lt
  have : 0x61 ≤ c.toNat := by
    rcases hc with rfl | rfl <;> simp only [UInt8.toNat_ofNat'] <;> omega
  refine ⟨?_, ?_, ?_, ?_⟩ <;> (intro e; subst e; simp at this)

theorem toyInet_ok : InetOK toyInet := by
  refine ⟨?_, ?_, ?_, ?_, fun ip _ => toy_chars ip, fun ip _ c hc => ?_⟩
  · intro ip h; simp [toyInet, toy_length, toy_back, h]
  · intro ip h; simp [toyInet, toy_length, toy_back, h]
  · intro ip h; simp [toyInet, toy_length, h]
  · intro ip h; simp [toyInet, toy_length, h]
  · have := toy_chars ip c hc; exact ⟨this.1, this.2.1, this.2.2.1⟩

example : ∃ s, toFull toyInet exAddr 128 44806 = .ok s ∧ s.length < 128 ∧ fromString toyInet s 0 = .ok exAddr :=
  C54_round_trip toyInet toyInet_ok exAddr exAddr_wf rfl (by decide) rfl (by decide) 44806 0 (by decide)

/-- C54: parsing never writes outside its buffers, whatever the text. -/
theorem C54_safe (I : Inet) (s : Bytes) (port : Nat) : fromString I s port ≠ .ub := by
  have hk : parseKey s ≠ .ub := by
    unfold parseKey
    split
    · simp
    · rename_i pub rest _
      split
      · simp
      · rw [if_neg (by omega)]
        split
        · rename_i n hn
          split
          · simp
          · rename_i h33
            split
            · rename_i key hd
              have : n = key.length := by
                rw [Base32.decodeSize, hd] at hn; exact (Out.ok.inj hn).symm
              rw [if_neg (by omega)]
              simp
            · simp
            · rename_i hu
              rw [Base32.decodeSize, hu] at hn; cases hn
        · simp
        · rename_i hn
          exfalso
          unfold Base32.decodeSize at hn
          split at hn
          · cases hn
          · cases hn
          · rename_i hu
            unfold Base32.decode2 at hu
            have := Base32.decLoop_total Base32.codec false pub 0 0
            generalize Base32.decLoop true Base32.table false 0 0 pub = g at this hu
            cases g with
            | ub => exact this rfl
            | err _ => cases hu
            | ok d =>
              simp only [Out.bind] at hu
              rw [if_neg (by simp)] at hu
              cases hu
  unfold fromString
  generalize parseKey s = g at hk
  cases g with
  | ub => exact absurd rfl hk
  | err _ => simp [Out.bind]
  | ok q =>
    obtain ⟨key, rest⟩ := q
    simp only [Out.bind]
    split
    · simp
    · split
      · simp
      · rw [if_neg (by omega)]
        split
        · simp
        · split <;> simp

/-- C54: a parsed address is an IP address with a port in range and a key of 33 bytes. -/
theorem C54_parsed_wf (I : Inet) (h4 : ∀ s ip, I.pton4 s = some ip → ip.length = 4) (h6 : ∀ s ip, I.pton6 s = some ip → ip.length = 16)
    (s : Bytes) (port : Nat) (hport : port < 65536) (a : Addr) (h : fromString I s port = .ok a) :
    WF a ∧ a.type = 0 ∧ a.ip.drop 16 = List.replicate 20 0 := by
  unfold fromString at h
  obtain ⟨⟨key, rest⟩, hk, h⟩ := Out.bind_eq_ok.1 h
  have hkey : (key.getD (List.replicate 33 0)).length = 33 := by
    unfold parseKey at hk
    split at hk
    · cases hk; rfl
    · split at hk
      · cases hk
      · split at hk
        · cases hk
        · split at hk
          · split at hk
            · cases hk
            · split at hk
              · split at hk
                · cases hk
                · simp only [Out.ok.injEq, Prod.mk.injEq] at hk
                  rw [← hk.1]
                  simp only [Option.getD_some, List.length_append, List.length_replicate]
                  omega
              · cases hk
              · cases hk
          · cases hk
          · cases hk
  simp only at h
  split at h
  · cases h
  · rename_i host p hsp
    split at h
    · cases h
    · split at h
      · cases h
      · split at h
        · cases h
        · rename_i sp hsp'
          have hpr : sp < 65536 := by
            cases p with
            | none => simp only [choosePort, Option.some.injEq] at hsp'; rw [← hsp']; split <;> (try split) <;> omega
            | some q =>
              simp only [choosePort, Option.map_eq_some_iff] at hsp'
              obtain ⟨w, _, rfl⟩ := hsp'
              exact Nat.mod_lt _ (by omega)
          split at h
          · cases h
          · rename_i af ip hph
            have hlen : (af = .inet ∧ ip.length = 4) ∨ (af = .inet6 ∧ ip.length = 16) := by
              unfold parseHost at hph
              split at hph
              · rename_i ip' he
                simp only [Option.some.injEq, Prod.mk.injEq] at hph
                obtain ⟨rfl, rfl⟩ := hph
                exact Or.inl ⟨rfl, h4 _ _ he⟩
              · split at hph
                · rename_i ip' he
                  simp only [Option.some.injEq, Prod.mk.injEq] at hph
                  obtain ⟨rfl, rfl⟩ := hph
                  exact Or.inr ⟨rfl, h6 _ _ he⟩
                · cases hph
            simp only [Out.ok.injEq] at h
            subst h
            rcases hlen with ⟨rfl, hl⟩ | ⟨rfl, hl⟩
            · refine ⟨⟨by simp [setIp, init], by simp [setIp, hl], hpr, hkey⟩, rfl, ?_⟩
              match ip, hl with
              | [a, b, c, d], _ => rfl
            · refine ⟨⟨by simp [setIp, init], by simp [setIp, hl], hpr, hkey⟩, rfl, ?_⟩
              simp only [setIp]
              rw [List.take_of_length_le (by omega), ← hl, List.drop_left]

/-- C54 is false of ports: a five-digit port above 65535 is not refused but reduced
modulo 65536, and an empty port is accepted as 0. -/
theorem C54_port_false :
    fromString toyInet (toyText [1, 2, 3, 4] ++ [0x3a, 0x39, 0x39, 0x39, 0x39, 0x39]) 0 =
      .ok { type := 0, ip := v4 1 2 3 4 ++ List.replicate 20 0, port := 34463, key := List.replicate 33 0 } ∧
    fromString toyInet (toyText [1, 2, 3, 4] ++ [0x3a]) 0 =
      .ok { type := 0, ip := v4 1 2 3 4 ++ List.replicate 20 0, port := 0, key := List.replicate 33 0 } := by
  decide +kernel

/-- C54 is false of Tor addresses: two different ones with the same last twenty bytes are
printed alike, from the wrong bytes. -/
theorem C54_onion_false :
    let x : Addr := { exAddr with ip := [0xfd, 0x87, 0xd8, 0x7e, 0xeb, 0x43, 1, 1, 1, 1, 1, 1, 5, 5, 5, 5] ++ List.replicate 20 0 }
    let y : Addr := { exAddr with ip := [0xfd, 0x87, 0xd8, 0x7e, 0xeb, 0x43, 2, 2, 2, 2, 2, 2, 5, 5, 5, 5] ++ List.replicate 20 0 }
    x ≠ y ∧ ∀ I : Inet, toStr I x 128 44806 = toStr I y 128 44806 := by
  refine ⟨by decide, fun I => rfl⟩

end Verif.Props.Addr
