import Verif.Lemmas.PoolSafe
import Verif.Props.Pool
import Mathlib.Data.List.Perm.Subperm
/-
C59: what peers can do to the memory of the node. False in full: three kinds of messages
lead to undefined behaviour. The rest is proved.
-/
namespace Verif.Props.Pool
open Verif Verif.Pool Verif.Spec.Pool
open Verif.Header (Hdr)

variable {e : Env} {g : Hdr} {chain : Chain.State} {am : Addrman.Man} {max : Nat} {evs : List Ev} {p : Pool}

/-- C59, what holds of it. Whatever happens, the pool, the chain, the addresses and the network
time stay defined: no access out of bounds, no use of a peer already released, no
failed assertion, no overflow; unless an event is one of those in `Provokes`. Missing: messages
that do (the three theorems below). -/
theorem C59_safe_partial (w : World e g chain) (ham : Addrman.Inv am) (max : Nat) (evs : List Ev) :
    (∃ p, run e (init chain am max) evs = .ok p) ∨
    ∃ before ev after p, evs = before ++ ev :: after ∧ run e (init chain am max) before = .ok p ∧ Provokes e p ev := by
  rcases run_safe w evs (safe_init w ham max) with ⟨p, h, _⟩ | h
  · exact Or.inl ⟨p, h⟩
  · exact Or.inr h

/-- C59 fails: a version message with an agent of 255 characters, the most the message can
carry, overruns the array of the peer by the terminating zero (src/pool.c:1325, src/pool.h:63). -/
theorem C59_agent_false : run calmEnv (init start seeds 8) (up ++ [.data 0 (versionData 255)]) = .ub :=
  isUb_spec (by decide +kernel)

/-- One character less is harmless. -/
example : okWith (fun (p : Pool) => p.peers.length = 1) (run calmEnv (init start seeds 8) (up ++ [.data 0 (versionData 254)])) = true := by
  decide +kernel

/-- C59 fails: a version message with a time of 2^63 overflows the difference to the own
clock (src/timedata.c:116). -/
theorem C59_time_false : run calmEnv (init start seeds 8)
    (up ++ [.data 0 (framed 0 (Msg.writeVersion { hello 3 with time := 2 ^ 63 }))]) = .ub :=
  isUb_spec (by decide +kernel)

/-- C59 fails: the empty payload of a headers message is read past its end (C47). -/
theorem C59_empty_false : run calmEnv (init start seeds 8) (up ++ [.data 0 (framed 11 [])]) = .ub :=
  isUb_spec (by decide +kernel)

/-! ### The assumptions are met

By the network of the examples, with a genesis header whose parent is no hash of a header. -/

def gen2 : Hdr := { gen with prevBlock := List.replicate 32 1 }
def start2 : Chain.State := match Chain.initGenesis net Props.Chain.toyH 2000 gen2 with
  | .ok s => s
  | _ => Props.Chain.toyS

theorem booted2 : Props.Chain.Booted net Props.Chain.toyH gen2 start2 where
  params := ⟨by decide +kernel, by decide +kernel⟩
  hash := fun h => by simp [Props.Chain.toyH]
  time := by decide +kernel
  noLoop := by decide +kernel
  start := ⟨2000, by
    have h : (Chain.initGenesis net Props.Chain.toyH 2000 gen2) ≠ .ub ∧ (Chain.initGenesis net Props.Chain.toyH 2000 gen2) ≠ .err () := by
      decide +kernel
    unfold start2
    cases hc : Chain.initGenesis net Props.Chain.toyH 2000 gen2 with
    | ok s => rfl
    | err e => exact absurd hc h.2
    | ub => exact absurd hc h.1⟩

/-- The example hash has 2^32 values, so there is no longer chain. -/
theorem toy_height {g : Hdr} {s0 s : Chain.State} {P : Chain.Params} {ops : List (Int × Hdr)} (hb : Props.Chain.Booted P Props.Chain.toyH g s0)
    (hops : Props.Chain.Plausible Props.Chain.toyH g ops) (hr : Chain.run P Props.Chain.toyH s0 ops = .ok s) : s.height < 2 ^ 32 := by
  have inv := (hb.at hops hr).1
  let f : Nat → Nat := fun n => match Chain.getByHeight s n with
    | some x => leNat (x.hash.drop 28)
    | none => 0
  have ent : ∀ n, n ≤ s.height → ∃ x, Chain.getByHeight s n = some x ∧ x.height = n ∧ x.hash = List.replicate 28 0 ++ leBytes 4 x.hdr.nonce ∧
      AMap.get s.hashes x.hash = some x := by
    intro n hn
    obtain ⟨h1, h2⟩ := Props.Chain.C07_index_linked hb hops hr n
    obtain ⟨x, hx⟩ := Option.isSome_iff_exists.1 (h1.2 hn)
    obtain ⟨k1, k2, _⟩ := h2 x hx
    exact ⟨x, hx, k1, (inv.key _ _ k2).2.1.symm, k2⟩
  have nd : ((List.range (s.height + 1)).map f).Nodup := by
    refine List.pairwise_map.2 (List.nodup_range.imp_of_mem ?_)
    intro a b ha hb' hne hab
    refine hne ?_
    obtain ⟨x, x1, x2, x3, x4⟩ := ent a (by have := List.mem_range.1 ha; omega)
    obtain ⟨y, y1, y2, y3, y4⟩ := ent b (by have := List.mem_range.1 hb'; omega)
    dsimp only [f] at hab
    rw [x1, y1] at hab
    dsimp only at hab
    rw [x3, y3, List.drop_left' (by simp), List.drop_left' (by simp)] at hab
    have := leNat_inj (by simp) hab
    have hxy : x.hash = y.hash := by rw [x3, y3, this]
    rw [hxy, y4] at x4
    cases x4
    omega
  have sub : ((List.range (s.height + 1)).map f) ⊆ List.range (2 ^ 32) := by
    intro v hv
    obtain ⟨n, hn, rfl⟩ := List.mem_map.1 hv
    obtain ⟨x, x1, _, x3, _⟩ := ent n (by have := List.mem_range.1 hn; omega)
    rw [List.mem_range]
    dsimp only [f]
    rw [x1]
    dsimp only
    rw [x3, List.drop_left' (by simp)]
    have := leNat_lt (leBytes 4 x.hdr.nonce)
    simpa using this
  have := (List.Nodup.subperm nd sub).length_le
  rw [List.length_map, List.length_range, List.length_range] at this
  omega

theorem world2 : World { calmEnv with clock := fun t => 2000 + (t % 1000000 : Nat) } gen2 start2 where
  boot := booted2
  noLoop := fun h hc => by
    have := congrArg (fun l : Bytes => l.head?) hc
    simp [calmEnv, Props.Chain.toyH, gen2, List.replicate_succ] at this
  clock := fun t => by dsimp only; omega
  height := fun c ⟨ops, h1, _, h2⟩ => toy_height booted2 h1 h2

theorem seeds_inv : Addrman.Inv seeds := by
  refine ⟨by decide +kernel, ?_, by decide +kernel⟩
  intro k i
  have h1 : Addrman.keyOf (seedAddr 1) ≠ Addrman.keyOf (seedAddr 2) := by decide +kernel
  unfold seeds
  dsimp only
  rw [AMap.get_set, AMap.get_set]
  constructor
  · intro h
    split at h
    · rename_i hk; cases h; exact ⟨entryOf 2, rfl, hk⟩
    · split at h
      · rename_i hk; cases h; exact ⟨entryOf 1, rfl, hk⟩
      · cases h
  · rintro ⟨x, hx, hk⟩
    match i with
    | 0 =>
      cases hx
      have hk' : Addrman.keyOf (seedAddr 1) = k := hk
      rw [if_neg (fun hc => h1 (hk'.trans hc.symm)), if_pos hk']
    | 1 =>
      cases hx
      have hk' : Addrman.keyOf (seedAddr 2) = k := hk
      rw [if_pos hk']
    | n + 2 => cases hx

/-- So the theorem applies, here to a history of requests, answers, losses and headers that
provokes nothing. -/
example : okWith (fun (p : Pool) => p.chain.height = 1 ∧ (p.log.filter fun a => match a with | .called _ _ => true | _ => false).length = 3)
    (run { calmEnv with clock := fun t => 2000 + (t % 1000000 : Nat) } (init start2 seeds 8)
      (story ++ [.timer, .connect 1 true true, .data 1 (versionData 5), .data 1 (headersData [next]), .closed 0])) = true := by decide +kernel

end Verif.Props.Pool
