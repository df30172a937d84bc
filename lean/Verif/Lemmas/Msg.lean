import Verif.Spec.Msg
import Verif.Props.Bio
import Verif.Props.Proof
import Verif.Lemmas.Tail
namespace Verif.Msg
open Verif.Bio Verif.Spec.Msg
open Verif.Addr (Netaddr readNetaddr writeNetaddr)

theorem goodChar_iff (c : UInt8) : goodChar c = true ↔
    ((32 ≤ c.toNat ∧ c.toNat ≤ 126) ∨ c.toNat = 9 ∨ c.toNat = 10 ∨ c.toNat = 13) := by
  revert c
  have : ∀ i : Fin 256, (goodChar (UInt8.ofNat i) = true ↔
      ((32 ≤ (UInt8.ofNat i).toNat ∧ (UInt8.ofNat i).toNat ≤ 126) ∨ (UInt8.ofNat i).toNat = 9 ∨
        (UInt8.ofNat i).toNat = 10 ∨ (UInt8.ofNat i).toNat = 13)) := by decide +kernel
  intro c
  have h := this ⟨c.toNat, c.toNat_lt⟩
  simpa using h

theorem all_good {b : Bytes} : b.all goodChar = true ↔ Text b := by
  rw [List.all_eq_true]
  exact forall₂_congr fun c _ => goodChar_iff c

theorem readAscii_eq_ok {n : Nat} {s b r : Bytes} (hn : n < 256) :
    readAscii 256 n s = .ok (b, r) ↔ s = b ++ r ∧ b.length = n ∧ Text b := by
  simp only [readAscii, sliceAscii, Out.bind_eq_ok, Prod.exists, readBytes_eq_ok]
  constructor
  · rintro ⟨b', r', ⟨b1, r1, ⟨rfl, h1⟩, h2⟩, h3⟩
    rw [List.take_of_length_le (by omega)] at h2
    split at h2
    · rename_i ha
      simp only [Out.pure_eq, Out.ok.injEq, Prod.mk.injEq] at h2
      obtain ⟨rfl, rfl⟩ := h2
      rw [if_pos (by omega)] at h3
      simp only [Out.pure_eq, Out.ok.injEq, Prod.mk.injEq] at h3
      obtain ⟨rfl, rfl⟩ := h3
      exact ⟨rfl, h1, all_good.1 ha⟩
    · cases h2
  · rintro ⟨rfl, h1, h2⟩
    refine ⟨b, r, ⟨b, r, ⟨rfl, h1⟩, ?_⟩, ?_⟩
    · rw [List.take_of_length_le (by omega), if_pos (all_good.2 h2), if_pos hn]; rfl
    · rw [if_pos (by omega)]; rfl

theorem readAscii_ne_ub {n : Nat} {s : Bytes} (hn : n < 256) : readAscii 256 n s ≠ .ub := by
  unfold readAscii sliceAscii
  refine Out.bind_ne_ub (Out.bind_ne_ub (by simp) fun a _ => ?_) fun a _ => ?_
  · dsimp only
    split
    · simp
    · simp
  · dsimp only
    rw [if_pos (by omega)]
    simp

theorem readNetaddr_ne_ub (s : Bytes) : readNetaddr s ≠ .ub := by
  unfold readNetaddr
  refine Out.bind_ne_ub (by simp) (fun _ _ => ?_)
  refine Out.bind_ne_ub (by simp) (fun _ _ => ?_)
  refine Out.bind_ne_ub (by simp) (fun _ _ => ?_)
  refine Out.bind_ne_ub (by simp) (fun _ _ => ?_)
  refine Out.bind_ne_ub (by simp) (fun _ _ => ?_)
  refine Out.bind_ne_ub (by simp) (fun _ _ => ?_)
  simp

theorem readMany_write {α : Type} (rd : Bytes → Rd α) (wr : α → Bytes) (cap : Nat) (l : List α)
    (h : ∀ x ∈ l, ∀ r, rd (wr x ++ r) = .ok (x, r)) (i : Nat) (hc : i + l.length ≤ cap) (r : Bytes) :
    readMany rd cap l.length i ((l.map wr).flatten ++ r) = .ok (l, r) := by
  induction l generalizing i with
  | nil => rfl
  | cons x l ih =>
    simp only [List.length_cons] at hc
    rw [List.length_cons, readMany, List.map_cons, List.flatten_cons, List.append_assoc, h x List.mem_cons_self]
    simp only [Out.bind_ok]
    rw [if_pos (by omega), ih (fun y hy => h y (List.mem_cons_of_mem _ hy)) (i + 1) (by omega)]
    rfl

theorem readMany_ne_ub {α : Type} (rd : Bytes → Rd α) (cap : Nat) (h : ∀ s, rd s ≠ .ub) (n i : Nat) (hc : i + n ≤ cap) (s : Bytes) :
    readMany rd cap n i s ≠ .ub := by
  induction n generalizing i s with
  | zero => simp [readMany]
  | succ n ih =>
    rw [readMany]
    refine Out.bind_ne_ub (h s) (fun a _ => ?_)
    dsimp only
    rw [if_pos (by omega)]
    exact Out.bind_ne_ub (ih _ (by omega) _) (fun _ _ => by simp)

theorem readMany_ok {α : Type} (rd : Bytes → Rd α) (P : α → Prop) (h : ∀ s x r, rd s = .ok (x, r) → P x ∧ ∃ p, s = p ++ r) (cap n i : Nat)
    (s : Bytes) (l : List α) (r : Bytes) (he : readMany rd cap n i s = .ok (l, r)) :
    l.length = n ∧ (∀ x ∈ l, P x) ∧ ∃ p, s = p ++ r := by
  induction n generalizing i s l with
  | zero =>
    simp only [readMany, Out.ok.injEq, Prod.mk.injEq] at he
    obtain ⟨rfl, rfl⟩ := he
    exact ⟨rfl, by simp, [], rfl⟩
  | succ n ih =>
    rw [readMany] at he
    obtain ⟨⟨x, s1⟩, h1, h2⟩ := Out.bind_eq_ok.1 he
    dsimp only at h2
    split at h2
    · obtain ⟨⟨l1, s2⟩, h3, h4⟩ := Out.bind_eq_ok.1 h2
      simp only [Out.pure_eq, Out.ok.injEq, Prod.mk.injEq] at h4
      obtain ⟨rfl, rfl⟩ := h4
      obtain ⟨hx, p, rfl⟩ := h _ _ _ h1
      obtain ⟨e1, e2, q, rfl⟩ := ih _ _ _ h3
      refine ⟨by simp [e1], ?_, p ++ q, by simp⟩
      intro y hy
      rcases List.mem_cons.1 hy with rfl | hy
      · exact hx
      · exact e2 y hy
    · cases h2

theorem readHdrs_eq (n i cap : Nat) (hc : i + n ≤ cap) (s : Bytes) : readHdrs n s = readMany Header.read cap n i s := by
  induction n generalizing i s with
  | zero => rfl
  | succ n ih =>
    rw [readHdrs, readMany]
    cases hr : Header.read s with
    | ok a =>
      obtain ⟨h, t⟩ := a
      simp only [Out.bind_ok]
      rw [if_pos (by omega), ih (i + 1) (by omega)]
    | err e => rfl
    | ub => rfl

theorem readVarsize_write {n : Nat} (h : n < 2 ^ 31) (r : Bytes) : readVarsize (writeVarint n ++ r) = .ok (n, r) := by
  unfold readVarsize
  rw [Props.Bio.C48_varint_roundtrip n (by omega)]
  simp only [Out.bind_ok]
  rw [if_neg (by omega)]
  rfl

theorem readVarsize_ok {s r : Bytes} {n : Nat} (h : readVarsize s = .ok (n, r)) : s = writeVarint n ++ r := by
  obtain ⟨⟨m, t⟩, h1, h2⟩ := Out.bind_eq_ok.1 h
  dsimp only at h2
  split at h2
  · cases h2
  · simp only [Out.pure_eq, Out.ok.injEq, Prod.mk.injEq] at h2
    obtain ⟨rfl, rfl⟩ := h2
    exact (Props.Bio.C48_varint_canonical _ _ _ h1).2

theorem tail_bitlen (s : Bytes) : Tail s (Proof.readBitlen s) := by
  unfold Proof.readBitlen Proof.readBitlenRaw
  refine .bind (.bind (.readU8 _) fun _ _ _ => ?_) fun _ _ _ => ?_
  · dsimp only
    split
    · exact .bind (.readU8 _) fun _ _ _ => .pure _
    · exact .pure _
  · dsimp only
    split
    · exact .err
    · exact .pure _

theorem tail_nodes (map : Bytes) (n i : Nat) (s : Bytes) : Tail s (Proof.readNodes map n i s) := by
  induction n generalizing i s with
  | zero => exact .pure _
  | succ n ih =>
    rw [Proof.readNodes]
    refine .bind' fun bit _ => .bind ?_ fun _ _ _ => .bind (.readBytes _ _) fun _ _ _ => .bind (ih _ _) fun _ _ _ => .pure _
    unfold Proof.readHead
    split
    · refine .bind (tail_bitlen _) fun _ _ _ => .bind ?_ fun _ _ _ => .pure _
      unfold Proof.readInto
      refine .bind (.readBytes _ _) fun _ _ _ => ?_
      dsimp only
      split
      · exact .ub
      · exact .pure _
    · exact .pure _

theorem tail_proof (s : Bytes) : Tail s (Proof.read s) := by
  unfold Proof.read
  refine .bind (.readU16 _) fun _ _ _ => ?_
  dsimp only
  split
  · exact .err
  refine .bind (.readU16 _) fun _ _ _ => ?_
  dsimp only
  split
  · exact .err
  refine .bind (.readBytes _ _) fun _ _ _ => .bind (tail_nodes _ _ _ _) fun _ _ _ => ?_
  dsimp only
  split
  · exact .pure _
  split
  · exact .bind (tail_bitlen _) fun _ _ _ => .bind (.readBytes _ _) fun _ _ _ => .bind (.readBytes _ _) fun _ _ _ =>
      .bind (.readBytes _ _) fun _ _ _ => .pure _
  split
  · exact .bind (.readBytes _ _) fun _ _ _ => .bind (.readBytes _ _) fun _ _ _ => .pure _
  split
  · refine .bind (.readU16 _) fun _ _ _ => ?_
    dsimp only
    split
    · exact .err
    · exact .bind (.readBytes _ _) fun _ _ _ => .pure _
  · exact .ub

theorem proof_prefix {s r : Bytes} {p : Proof.Proof} (h : Proof.read s = .ok (p, r)) : ∃ q, s = q ++ r := by
  obtain ⟨q, hq⟩ := tail_proof s p r h
  exact ⟨q, hq.symm⟩

end Verif.Msg
