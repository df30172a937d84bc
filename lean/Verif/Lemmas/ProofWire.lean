import Verif.Lemmas.ProofTree
namespace Verif.Proof
open Verif.Bio Verif.Spec.Radix

theorem readBitlenRaw_ne_ub (s : Bytes) : readBitlenRaw s ≠ .ub := by
  unfold readBitlenRaw
  refine Out.bind_ne_ub (by simp) ?_
  rintro ⟨b, s⟩ -
  dsimp only
  split
  · exact Out.bind_ne_ub (readU8_ne_ub _) (by simp)
  · simp

theorem readBitlen_ne_ub (s : Bytes) : readBitlen s ≠ .ub := by
  unfold readBitlen
  refine Out.bind_ne_ub (readBitlenRaw_ne_ub s) ?_
  rintro ⟨b, s⟩ -
  dsimp only
  split <;> simp

theorem readBitlen_bound {s r : Bytes} {n k : Nat} (h : readBitlen s = .ok ((n, k), r)) :
    1 ≤ n ∧ n ≤ 256 ∧ k = (n + 7) / 8 := by
  unfold readBitlen at h
  simp only [Out.bind_eq_ok, Prod.exists] at h
  obtain ⟨b, s1, _, h⟩ := h
  split at h
  · cases h
  · rename_i hx
    simp only [Out.pure_eq, Out.ok.injEq, Prod.mk.injEq] at h
    obtain ⟨⟨rfl, rfl⟩, rfl⟩ := h
    omega

theorem and_128 (b : Nat) (h : b < 256) : (b &&& 0x80 ≠ 0) ↔ 128 ≤ b := by
  have : ∀ b : Fin 256, (b.val &&& 0x80 ≠ 0) ↔ 128 ≤ b.val := by decide +kernel
  exact this ⟨b, h⟩

theorem readBitlen_encode {n : Nat} (h1 : 1 ≤ n) (h2 : n ≤ 256) (r : Bytes) :
    readBitlen (encodeBitlen n ++ r) = .ok ((n, (n + 7) / 8), r) := by
  unfold readBitlen readBitlenRaw encodeBitlen
  by_cases h : n < 128
  · simp only [h, if_true]
    rw [readU8_append (by omega)]
    have : ¬ (n &&& 0x80 ≠ 0) := by rw [and_128 n (by omega)]; omega
    simp only [Out.bind_ok, this, if_false, Out.pure_eq]
    have : ¬ (n = 0 ∨ n > 256) := by omega
    simp only [this, if_false]
  · simp only [h, if_false]
    rw [List.append_assoc, readU8_append (by omega)]
    have : (128 + n / 256) &&& 0x80 ≠ 0 := by rw [and_128 _ (by omega)]; omega
    simp only [Out.bind_ok, this, ne_eq, not_false_eq_true, if_true]
    rw [readU8_append (by omega)]
    simp only [Out.bind_ok, Out.pure_eq]
    have e : (128 + n / 256 - 128) * 256 + n % 256 = n := by omega
    rw [e]
    have : ¬ (n = 0 ∨ n > 256) := by omega
    simp only [this, if_false]

theorem readInto_ne_ub {cap n : Nat} (h : n ≤ cap) (s : Bytes) : readInto cap n s ≠ .ub := by
  unfold readInto
  refine Out.bind_ne_ub (by simp) ?_
  rintro ⟨b, s⟩ -
  have : ¬ n > cap := by omega
  simp [this]

theorem readInto_eq_ok {cap n : Nat} (h : n ≤ cap) {s b r : Bytes} :
    readInto cap n s = .ok (b, r) ↔
      ∃ c, c.length = n ∧ s = c ++ r ∧ b = c ++ List.replicate (cap - n) 0 := by
  unfold readInto
  have : ¬ n > cap := by omega
  simp only [Out.bind_eq_ok, Prod.exists, readBytes_eq_ok, this, if_false, Out.pure_eq, Out.ok.injEq,
    Prod.mk.injEq]
  constructor
  · rintro ⟨c, s', ⟨rfl, hc⟩, rfl, rfl⟩; exact ⟨c, hc, rfl, rfl⟩
  · rintro ⟨c, hc, rfl, rfl⟩; exact ⟨c, r, ⟨rfl, hc⟩, rfl, rfl⟩

theorem readNodes_succ (map : Bytes) (left i : Nat) (s : Bytes) :
    readNodes map (left + 1) i s =
      (hasBit map i >>= fun bit => readHead bit s >>= fun x => readBytes 32 x.2 >>= fun y =>
        readNodes map left (i + 1) y.2 >>= fun z =>
          .ok ({ pfx := x.1.1, pfxSize := x.1.2, node := y.1 } :: z.1, z.2)) := by
  rw [readNodes]; rfl

theorem readHead_ne_ub (bit : Bool) (s : Bytes) : readHead bit s ≠ .ub := by
  unfold readHead
  cases bit
  · simp
  · simp only [if_true]
    refine Out.bind_ne_ub (readBitlen_ne_ub s) ?_
    rintro ⟨⟨n, k⟩, s'⟩ h
    have := readBitlen_bound h
    refine Out.bind_ne_ub (readInto_ne_ub (by simp only; omega) _) ?_
    simp

theorem readHead_ok {bit : Bool} {s r b : Bytes} {n : Nat} (h : readHead bit s = .ok ((b, n), r)) :
    b.length = 32 ∧ n ≤ 256 ∧ b.drop ((n + 7) / 8) = List.replicate (32 - (n + 7) / 8) 0 := by
  unfold readHead at h
  cases bit
  · simp only [Bool.false_eq_true, if_false, Out.pure_eq, Out.ok.injEq, Prod.mk.injEq] at h
    obtain ⟨⟨rfl, rfl⟩, rfl⟩ := h
    simp
  · simp only [if_true, Out.bind_eq_ok, Prod.exists] at h
    obtain ⟨n', k, s1, h1, b', s2, h2, h3⟩ := h
    have := readBitlen_bound h1
    obtain ⟨c, hc, rfl, rfl⟩ := (readInto_eq_ok (by omega)).1 h2
    simp only [Out.pure_eq, Out.ok.injEq, Prod.mk.injEq] at h3
    obtain ⟨⟨rfl, rfl⟩, rfl⟩ := h3
    refine ⟨by simp; omega, by omega, ?_⟩
    rw [List.drop_append_of_le_length (by omega), List.drop_of_length_le (by omega)]
    simp [this.2.2]

theorem readNodes_ne_ub (map : Bytes) (left i : Nat) (s : Bytes) (h : i + left ≤ 8 * map.length) :
    readNodes map left i s ≠ .ub := by
  induction left generalizing i s with
  | zero => simp [readNodes]
  | succ left ih =>
    rw [readNodes_succ, hasBit_ok (by omega)]
    simp only [Out.bind_ok]
    refine Out.bind_ne_ub (readHead_ne_ub _ _) fun x _ => ?_
    refine Out.bind_ne_ub (by simp) fun y _ => ?_
    exact Out.bind_ne_ub (ih _ _ (by omega)) (by simp)

theorem readNodes_ok {map : Bytes} {left i : Nat} {s r : Bytes} {ns : List Node}
    (h : readNodes map left i s = .ok (ns, r)) :
    ns.length = left ∧ ∀ n ∈ ns, NodeWF n ∧
      n.pfx.drop ((n.pfxSize + 7) / 8) = List.replicate (32 - (n.pfxSize + 7) / 8) 0 := by
  induction left generalizing i s ns r with
  | zero =>
    simp only [readNodes, Out.pure_eq, Out.ok.injEq, Prod.mk.injEq] at h
    obtain ⟨rfl, rfl⟩ := h; simp
  | succ left ih =>
    rw [readNodes_succ] at h
    simp only [Out.bind_eq_ok, Prod.exists] at h
    obtain ⟨bit, _, b, n, s1, h1, nd, s2, h2, rest, s3, h3, h4⟩ := h
    simp only [Out.ok.injEq, Prod.mk.injEq] at h4
    obtain ⟨rfl, rfl⟩ := h4
    obtain ⟨i1, i2⟩ := ih h3
    obtain ⟨j1, j2, j3⟩ := readHead_ok h1
    refine ⟨by simp [i1], ?_⟩
    intro m hm
    rcases List.mem_cons.1 hm with rfl | hm
    · exact ⟨⟨j1, j2, (readBytes_eq_ok.1 h2).2⟩, j3⟩
    · exact i2 m hm

theorem readHead_encode {n : Node} (hn : NodeWF n)
    (hb : n.pfx.drop ((n.pfxSize + 7) / 8) = List.replicate (32 - (n.pfxSize + 7) / 8) 0) (r : Bytes) :
    readHead (n.pfxSize != 0)
      ((if n.pfxSize = 0 then [] else encodeBitlen n.pfxSize ++ n.pfx.take ((n.pfxSize + 7) / 8)) ++ r)
      = .ok ((n.pfx, n.pfxSize), r) := by
  obtain ⟨h1, h2, h3⟩ := hn
  unfold readHead
  by_cases h : n.pfxSize = 0
  · simp only [h, bne_self_eq_false, Bool.false_eq_true, if_false, if_true, List.nil_append, Out.pure_eq]
    rw [h] at hb; simp only [Nat.zero_add, Nat.reduceDiv, List.drop_zero, Nat.sub_zero] at hb; rw [hb]
  · simp only [h, bne_iff_ne, ne_eq, not_false_eq_true, if_true, if_false]
    rw [List.append_assoc, readBitlen_encode (by omega) h2]
    simp only [Out.bind_ok]
    have : readInto 32 ((n.pfxSize + 7) / 8) (n.pfx.take ((n.pfxSize + 7) / 8) ++ r) = .ok (n.pfx, r) := by
      rw [readInto_eq_ok (by omega)]
      refine ⟨_, by simp; omega, rfl, ?_⟩
      rw [← hb, List.take_append_drop]
    rw [this]; rfl

theorem readNodes_encode {map : Bytes} {ns : List Node} {i : Nat} {r : Bytes}
    (hm : i + ns.length ≤ 8 * map.length)
    (hbit : ∀ j, (h : j < ns.length) → bitAt map (i + j) = (ns[j].pfxSize != 0))
    (hn : ∀ n ∈ ns, NodeWF n)
    (hb : ∀ n ∈ ns, n.pfx.drop ((n.pfxSize + 7) / 8) = List.replicate (32 - (n.pfxSize + 7) / 8) 0) :
    readNodes map ns.length i (ns.flatMap encodeNode ++ r) = .ok (ns, r) := by
  induction ns generalizing i with
  | nil => simp [readNodes]
  | cons n ns ih =>
    simp only [List.length_cons] at hm ⊢
    rw [readNodes_succ, hasBit_ok (by omega)]
    have hb0 := hbit 0 (by simp)
    simp only [Nat.add_zero, List.getElem_cons_zero] at hb0
    simp only [Out.bind_ok, hb0, List.flatMap_cons, encodeNode]
    rw [List.append_assoc, List.append_assoc, readHead_encode (hn n List.mem_cons_self)
      (hb n List.mem_cons_self)]
    simp only [Out.bind_ok]
    rw [readBytes_append' (hn n List.mem_cons_self).2.2]
    simp only [Out.bind_ok]
    have := ih (i := i + 1) (by omega)
      (fun j h => by
        have := hbit (j + 1) (by simpa using h)
        rw [List.getElem_cons_succ] at this; rw [← this]; congr 1; omega)
      (fun m hm => hn m (List.mem_cons_of_mem _ hm)) (fun m hm => hb m (List.mem_cons_of_mem _ hm))
    rw [this]; rfl

theorem read_ne_ub (s : Bytes) : read s ≠ .ub := by
  unfold read
  refine Out.bind_ne_ub (by simp) ?_
  rintro ⟨field, s⟩ hf
  have hf' := (readU16_eq_ok.1 hf).2
  simp only
  split
  · simp
  · refine Out.bind_ne_ub (by simp) ?_
    rintro ⟨count, s⟩ -
    simp only
    split
    · simp
    · refine Out.bind_ne_ub (by simp) ?_
      rintro ⟨map, s⟩ hm
      have hml := (readBytes_eq_ok.1 hm).2
      refine Out.bind_ne_ub (readNodes_ne_ub _ _ _ _ (by simp only; omega)) ?_
      rintro ⟨nodes, s⟩ -
      simp only
      split
      · simp
      · split
        · refine Out.bind_ne_ub (readBitlen_ne_ub _) fun a _ => ?_
          refine Out.bind_ne_ub (by simp) fun a _ => ?_
          refine Out.bind_ne_ub (by simp) fun a _ => ?_
          exact Out.bind_ne_ub (by simp) fun a _ => by simp
        · split
          · refine Out.bind_ne_ub (by simp) fun a _ => ?_
            exact Out.bind_ne_ub (by simp) fun a _ => by simp
          · split
            · refine Out.bind_ne_ub (by simp) ?_
              rintro ⟨vs, s⟩ -
              simp only
              split
              · simp
              · exact Out.bind_ne_ub (by simp) fun a _ => by simp
            · rename_i h0 h1 h2 h3
              exfalso
              simp only [DEADEND, SHORT, COLLISION, EXISTS] at *
              have : field / 2 ^ 14 < 4 := by omega
              omega

theorem read_canonical {s r : Bytes} {p : Proof} (h : read s = .ok (p, r)) : Canonical p := by
  unfold read at h
  simp only [Out.bind_eq_ok, Prod.exists] at h
  obtain ⟨field, s1, hf, h⟩ := h
  have hf' := (readU16_eq_ok.1 hf).2
  split at h
  · cases h
  rename_i hdepth
  simp only [Out.bind_eq_ok, Prod.exists] at h
  obtain ⟨count, s2, _, h⟩ := h
  split at h
  · cases h
  rename_i hcount
  simp only [Out.bind_eq_ok, Prod.exists] at h
  obtain ⟨map, s3, hm, nodes, s4, hnodes, h⟩ := h
  obtain ⟨n1, n2⟩ := readNodes_ok hnodes
  have hty : field / 2 ^ 14 < 4 := by omega
  have hn : ∀ n ∈ nodes, n.pfx.length = 32 ∧ n.pfxSize ≤ 256 ∧ n.node.length = 32 := fun n hn => (n2 n hn).1
  have hbk := fun n hn => (n2 n hn).2
  split at h
  · rename_i ht
    simp only [Out.pure_eq, Out.ok.injEq, Prod.mk.injEq] at h
    obtain ⟨rfl, rfl⟩ := h
    refine ⟨⟨?_, ?_, ?_, hn, ?_, ?_, ?_, ?_⟩, hbk, ?_, ?_, ?_⟩ <;>
      simp [init, ht, DEADEND, SHORT, COLLISION, EXISTS]
    · omega
    · omega
  split at h
  · rename_i ht
    simp only [Out.bind_eq_ok, Prod.exists] at h
    obtain ⟨size, bytes, s5, h1, pfx, s6, h2, l, s7, h3, rr, s8, h4, h⟩ := h
    simp only [Out.pure_eq, Out.ok.injEq, Prod.mk.injEq] at h
    obtain ⟨rfl, rfl⟩ := h
    have := readBitlen_bound h1
    have e2 := (readBytes_eq_ok.1 h2).2
    have e3 := (readBytes_eq_ok.1 h3).2
    have e4 := (readBytes_eq_ok.1 h4).2
    refine ⟨⟨?_, ?_, ?_, hn, ?_, ?_, ?_, ?_⟩, hbk, ?_, ?_, ?_⟩ <;>
      simp [init, ht, SHORT, COLLISION, EXISTS, e3, e4]
    all_goals omega
  split at h
  · rename_i ht
    simp only [Out.bind_eq_ok, Prod.exists] at h
    obtain ⟨k, s7, h3, x, s8, h4, h⟩ := h
    simp only [Out.pure_eq, Out.ok.injEq, Prod.mk.injEq] at h
    obtain ⟨rfl, rfl⟩ := h
    have e3 := (readBytes_eq_ok.1 h3).2
    have e4 := (readBytes_eq_ok.1 h4).2
    refine ⟨⟨?_, ?_, ?_, hn, ?_, ?_, ?_, ?_⟩, hbk, ?_, ?_, ?_⟩ <;>
      simp [init, ht, SHORT, COLLISION, EXISTS, e3, e4]
    all_goals omega
  split at h
  · rename_i ht
    simp only [Out.bind_eq_ok, Prod.exists] at h
    obtain ⟨vs, s7, h3, h⟩ := h
    split at h
    · cases h
    rename_i hvs
    simp only [Out.bind_eq_ok, Prod.exists] at h
    obtain ⟨v, s8, h4, h⟩ := h
    simp only [Out.pure_eq, Out.ok.injEq, Prod.mk.injEq] at h
    obtain ⟨rfl, rfl⟩ := h
    have e4 := (readBytes_eq_ok.1 h4).2
    refine ⟨⟨?_, ?_, ?_, hn, ?_, ?_, ?_, ?_⟩, hbk, ?_, ?_, ?_⟩ <;>
      simp [init, ht, SHORT, COLLISION, EXISTS, e4]
    all_goals omega
  · cases h

theorem read_encode {p : Proof} (c : Canonical p) (r : Bytes) : read (encode p ++ r) = .ok (p, r) := by
  have hd := c.depth
  have hc := c.count
  have ht := c.type
  unfold read encode
  simp only [List.append_assoc]
  rw [readU16_append (by omega)]
  simp only [Out.bind_ok]
  have e1 : (p.type * 16384 + p.depth) / 2 ^ 14 = p.type := by omega
  have e2 : (p.type * 16384 + p.depth) % 2 ^ 14 = p.depth := by omega
  simp only [e1, e2]
  clear e1 e2
  have g1 : ¬ p.depth > 256 := by omega
  simp only [g1, if_false]
  rw [readU16_append (by omega)]
  simp only [Out.bind_ok]
  have g2 : ¬ p.nodes.length > 256 := by omega
  simp only [g2, if_false]
  rw [readBytes_append' (by rw [packBits_length, List.length_map])]
  simp only [Out.bind_ok]
  rw [readNodes_encode (by rw [packBits_length, List.length_map]; omega) ?_ c.nodes c.blank]
  · simp only [Out.bind_ok]
    have : p.type = 0 ∨ p.type = 1 ∨ p.type = 2 ∨ p.type = 3 := by omega
    obtain ⟨ty, depth, nodes, pfx, pfxSize, left, right, nxKey, nxHash, value, valueSize⟩ := p
    simp only at this
    rcases this with h | h | h | h
    · subst h
      have s1 := c.noShort (by simp [SHORT])
      have s2 := c.noColl (by simp [COLLISION])
      have s3 := c.noExist (by simp [EXISTS])
      have s4 := c.novalue (by simp [EXISTS])
      simp only at s1 s2 s3 s4
      obtain ⟨rfl, rfl, rfl, rfl⟩ := s1
      obtain ⟨rfl, rfl⟩ := s2
      subst s3 s4
      simp [DEADEND, SHORT, COLLISION, EXISTS, init]
    · subst h
      obtain ⟨h0, h1, b, l, rr, e1, e2, e3, e4, e5, e6⟩ := c.short rfl
      have s2 := c.noColl (by simp [COLLISION])
      have s3 := c.noExist (by simp [EXISTS])
      have s4 := c.novalue (by simp [EXISTS])
      simp only at s2 s3 s4 e1 e3 e5 h0 h1 e2
      obtain ⟨rfl, rfl⟩ := s2
      subst s3 s4 e1 e3 e5
      simp only [DEADEND, SHORT, init, if_true, show ¬ (1 = 0) by decide, if_false, Option.getD_some, List.append_assoc]
      rw [readBitlen_encode (by omega) h1]
      simp only [Out.bind_ok]
      rw [readBytes_append' e2]
      simp only [Out.bind_ok]
      rw [readBytes_append' e4]
      simp only [Out.bind_ok]
      rw [readBytes_append' e6]
      simp
    · subst h
      obtain ⟨k, x, e1, e2, e3, e4⟩ := c.coll rfl
      have s1 := c.noShort (by simp [SHORT])
      have s3 := c.noExist (by simp [EXISTS])
      have s4 := c.novalue (by simp [EXISTS])
      simp only at s1 s3 s4 e1 e3
      obtain ⟨rfl, rfl, rfl, rfl⟩ := s1
      subst s3 s4 e1 e3
      simp only [DEADEND, SHORT, COLLISION, init, if_true, show ¬ (2 = 0) by decide, show ¬ (2 = 1) by decide, if_false, Option.getD_some, List.append_assoc]
      rw [readBytes_append' e2]
      simp only [Out.bind_ok]
      rw [readBytes_append' e4]
      simp
    · subst h
      obtain ⟨h1, v, e1, e2⟩ := c.exist rfl
      have s1 := c.noShort (by simp [SHORT])
      have s2 := c.noColl (by simp [COLLISION])
      simp only at s1 s2 e1 e2 h1
      obtain ⟨rfl, rfl, rfl, rfl⟩ := s1
      obtain ⟨rfl, rfl⟩ := s2
      subst e1
      have : valueSize ≤ 668 := h1
      simp only [DEADEND, SHORT, COLLISION, EXISTS, init, if_true, show ¬ (3 = 0) by decide, show ¬ (3 = 1) by decide,
        show ¬ (3 = 2) by decide, if_false, Option.getD_some, List.append_assoc]
      rw [readU16_append (by omega)]
      have g3 : ¬ valueSize > maxDataSize := by omega
      simp only [Out.bind_ok, g3, if_false]
      rw [readBytes_append' e2]
      simp
  · intro j hj
    rw [Nat.zero_add, bitAt_packBits _ _ (by simpa using hj)]
    simp

end Verif.Proof
