import Verif.Lemmas.Stub
/-
C95: the recursive server asks the name server of the same process.
-/
namespace Verif.Props.Stub
open Verif Verif.Addr Verif.Stub Verif.Spec.Stub Verif.Lemmas.Stub

/-- C95: whatever address the name server listens at, except a Tor one, and whatever port it was told except 0, the text given to
libunbound fits its buffer and denotes an address at which that server is reached. Missing: Tor addresses and port 0, for which this
is false. -/
theorem C95_stub_partial (I : Inet) (hI : InetOK I) (s : Sa) (h : Ok s) (hp : port s ≠ 0) (ht : ¬Tor s) :
    ∃ t, stubText I s = .ok t ∧ t.length < 128 ∧ Denotes I t (reach s) := by
  have ho := reach_ok s h
  rw [stub_reach I s h]
  cases s with
  | in4 ip p => exact at4 I hI (reach4 ip) p ho.1 h.2 hp
  | in6 ip p =>
    rw [reach] at ho ⊢
    by_cases hm : ip.take 12 = [0, 0, 0, 0, 0, 0, 0, 0, 0, 0, 0xff, 0xff]
    · rw [if_pos hm] at ho ⊢
      exact at4 I hI _ p ho.1 h.2 hp
    · rw [if_neg hm]
      by_cases hz : ip = List.replicate 16 0
      · rw [if_pos hz]
        exact at6 I hI _ p (by decide) h.2 hp (by decide) (by decide)
      · rw [if_neg hz]
        exact at6 I hI ip p h.1 h.2 hp hm ht

example : ∃ t, stubText Verif.Props.Addr.toyInet (.in4 [0, 0, 0, 0] 53) = .ok t ∧ t.length < 128 ∧
    Denotes Verif.Props.Addr.toyInet t (.in4 [127, 0, 0, 1] 53) :=
  C95_stub_partial _ Verif.Props.Addr.toyInet_ok (.in4 [0, 0, 0, 0] 53) ⟨rfl, by decide⟩ (by decide) (fun h => h)

example : reach (.in6 (mapped ++ [10, 1, 2, 3]) 53) = .in4 [10, 1, 2, 3] 53 := by decide

/-- C95: nothing the daemon can be told makes this write outside a buffer, Tor addresses and port 0 included. -/
theorem C95_safe (I : Inet) (hI : InetOK I) (s : Sa) (h : Ok s) : stubText I s ≠ .ub := by
  have key : ∀ (af : Af) (b : Bytes), 20 ≤ b.length → ∀ q < 65536, (ntop I af b maxHost).bind (fun dst =>
      if nsPort = 0 then .ok dst else if maxHost - dst.length < 7 then .err () else
      (strcpy maxHost (dst ++ [0x40] ++ decimal 5 (if q = 0 then nsPort else q))).bind (strcpy maxHost)) ≠ .ub := by
    intro af b hb q hq
    have hd : (decimal 5 (if q = 0 then nsPort else q)).length ≤ 5 := by
      refine (decimal_port _ ?_).2.1
      split
      · decide
      · exact hq
    have fin : ∀ dst : Bytes, dst.length ≤ 45 → (if nsPort = 0 then Out.ok dst else if maxHost - dst.length < 7 then .err () else
      (strcpy maxHost (dst ++ [0x40] ++ decimal 5 (if q = 0 then nsPort else q))).bind (strcpy maxHost)) ≠ .ub := by
      intro dst hl
      rw [if_neg (by decide), if_neg (by simp only [maxHost]; omega),
        strcpy_twice (by simp only [List.length_append, List.length_singleton, maxHost]; omega)
        (by simp only [List.length_append, List.length_singleton, maxHost]; omega)]
      intro hh
      cases hh
    cases af with
    | inet =>
      have hl : ((b.drop 0).take 4).length = 4 := by simp; omega
      have l4 := hI.len4 _ hl
      dsimp only [ntop]
      rw [memSlice_ok (by omega)]
      dsimp only [Out.bind]
      rw [if_pos (by simp only [maxHost]; omega)]
      exact fin _ (by omega)
    | inet6 =>
      have hl : ((b.drop 0).take 16).length = 16 := by simp; omega
      have l6 := hI.len6 _ hl
      dsimp only [ntop]
      rw [memSlice_ok (by omega)]
      dsimp only [Out.bind]
      rw [if_pos (by simp only [maxHost]; omega)]
      exact fin _ (by omega)
  have all : ∀ r : Sa, Ok r → saToAt I r maxHost nsPort ≠ .ub := by
    intro r hr
    have hlen : (fromSa r).ip.length = 36 ∧ (fromSa r).port < 65536 := by
      cases r with
      | in4 ip p => exact ⟨by simp [fromSa, setIp, hr.1], hr.2⟩
      | in6 ip p => exact ⟨by simp [fromSa, setIp, hr.1], hr.2⟩
    refine key (getAf (fromSa r)) (getIp (fromSa r)) ?_ _ hlen.2
    rw [getIp]
    split
    · omega
    · rw [List.length_drop]; omega
  rw [stub_reach I s h]
  exact all _ (reach_ok s h)

example : Ok (.in6 (torOnion ++ List.replicate 10 7) 0) := ⟨by decide, by decide⟩

/-- C95: a text denotes one address and port. -/
theorem C95_one (I : Inet) (t : Bytes) (x y : Sa) (hx : Denotes I t x) (hy : Denotes I t y) : x = y := by
  obtain ⟨h1, p1, e1, n1, _, _, m1⟩ := hx
  obtain ⟨h2, p2, e2, n2, _, _, m2⟩ := hy
  have a := strchr_append (s := p1) n1
  have b := strchr_append (s := p2) n2
  rw [← e1] at a
  rw [← e2, a] at b
  simp only [Option.some.injEq, Prod.mk.injEq] at b
  obtain ⟨rfl, rfl⟩ := b
  cases x <;> cases y <;> simp_all

example : Denotes Verif.Props.Addr.toyInet (Verif.Props.Addr.toyText [10, 1, 2, 3] ++ [0x40, 0x35, 0x33]) (.in4 [10, 1, 2, 3] 53) :=
  ⟨Verif.Props.Addr.toyText [10, 1, 2, 3], [0x35, 0x33], by decide, by decide, by decide, by decide, by decide⟩

theorem tor_x : reach (.in6 (torOnion ++ [1, 1, 1, 1, 1, 1, 5, 5, 5, 5]) 53) = .in6 (torOnion ++ [1, 1, 1, 1, 1, 1, 5, 5, 5, 5]) 53 := by
  decide

theorem tor_y : reach (.in6 (torOnion ++ [2, 2, 2, 2, 2, 2, 5, 5, 5, 5]) 53) = .in6 (torOnion ++ [2, 2, 2, 2, 2, 2, 5, 5, 5, 5]) 53 := by
  decide

/-- C95 is false of Tor addresses: for two name servers at different ones, the same text is given to libunbound; it is wrong for one
of them at least. -/
theorem C95_tor_false : ∃ x y : Sa, Ok x ∧ Ok y ∧ port x ≠ 0 ∧ port y ≠ 0 ∧ reach x ≠ reach y ∧
    ∀ I : Inet, stubText I x = stubText I y ∧ ∀ t, ¬(Denotes I t (reach x) ∧ Denotes I t (reach y)) := by
  refine ⟨.in6 (torOnion ++ [1, 1, 1, 1, 1, 1, 5, 5, 5, 5]) 53, .in6 (torOnion ++ [2, 2, 2, 2, 2, 2, 5, 5, 5, 5]) 53,
    ⟨by decide, by decide⟩, ⟨by decide, by decide⟩, by decide, by decide, by decide, fun I => ⟨?_, fun t ht => ?_⟩⟩
  · rw [stub_reach I (.in6 (torOnion ++ [1, 1, 1, 1, 1, 1, 5, 5, 5, 5]) 53) ⟨by decide, by decide⟩,
      stub_reach I (.in6 (torOnion ++ [2, 2, 2, 2, 2, 2, 5, 5, 5, 5]) 53) ⟨by decide, by decide⟩, tor_x, tor_y]
    unfold saToAt toAt
    rw [show getAf (fromSa (.in6 (torOnion ++ [1, 1, 1, 1, 1, 1, 5, 5, 5, 5]) 53)) =
        getAf (fromSa (.in6 (torOnion ++ [2, 2, 2, 2, 2, 2, 5, 5, 5, 5]) 53)) by decide,
      show getIp (fromSa (.in6 (torOnion ++ [1, 1, 1, 1, 1, 1, 5, 5, 5, 5]) 53)) =
        getIp (fromSa (.in6 (torOnion ++ [2, 2, 2, 2, 2, 2, 5, 5, 5, 5]) 53)) by decide, port_fromSa, port_fromSa]
    rfl
  · exact absurd (C95_one I t _ _ ht.1 ht.2) (by decide)

/-- C95 is false of port 0: a name server told "127.0.0.1:0" is bound to a port that the system chooses, and libunbound is told
another, 5349. -/
theorem C95_port_false (I : Inet) (hI : InetOK I) :
    fromString I (I.ntop4 [127, 0, 0, 1] ++ 0x3a :: [0x30]) nsPort = .ok (fromSa (.in4 [127, 0, 0, 1] 0)) ∧
    ∃ t, stubText I (.in4 [127, 0, 0, 1] 0) = .ok t ∧ Denotes I t (.in4 [127, 0, 0, 1] 5349) := by
  constructor
  · have hl : ([127, 0, 0, 1] : Bytes).length = 4 := rfl
    have c4 := hI.chars4 _ hl
    have l4 := hI.len4 _ hl
    have e := splitHost_plain (host := I.ntop4 [127, 0, 0, 1]) (p := [0x30])
      (fun c hc => ⟨(c4 c hc).2.1, (c4 c hc).2.2.2⟩) (by decide)
    have k : parseKey (I.ntop4 [127, 0, 0, 1] ++ 0x3a :: [0x30]) = .ok (none, I.ntop4 [127, 0, 0, 1] ++ 0x3a :: [0x30]) := by
      refine parseKey_none ?_
      intro c hc
      rcases List.mem_append.1 hc with hc | hc
      · exact (c4 c hc).1
      · simp only [List.mem_cons, List.not_mem_nil, or_false] at hc
        rcases hc with rfl | rfl <;> decide
    simp only [fromString, k, Out.bind, e]
    rw [if_neg (by simp only [addrStrLen]; omega), if_neg (by simp only [addrStrLen]; omega)]
    simp only [parseHost, hI.v4 _ hl]
    rfl
  · obtain ⟨t, h1, _, h2⟩ := C95_stub_partial I hI (.in4 [127, 0, 0, 1] 5349) ⟨rfl, by decide⟩ (by decide) (fun h => h)
    refine ⟨t, ?_, h2⟩
    rw [← h1, stub_reach I (.in4 [127, 0, 0, 1] 0) ⟨rfl, by decide⟩,
      stub_reach I (.in4 [127, 0, 0, 1] 5349) ⟨rfl, by decide⟩]
    rfl

example : InetOK Verif.Props.Addr.toyInet := Verif.Props.Addr.toyInet_ok

end Verif.Props.Stub
