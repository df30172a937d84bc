import Verif.Lemmas.PoolVet
import Verif.Lemmas.Eval
import Verif.Props.Chain
import Verif.Props.Proof
/-
C34, C35 and C49, and what C31 needs of the pool.

All theorems are about the pool after an arbitrary history `evs` from its start, in an
arbitrary environment `e`: any data from any peer, any clock, any outcome of writes.
-/
namespace Verif.Props.Pool
open Verif.Pool
open Verif.Spec.Pool
open Verif.Header (Hdr)

variable {e : Env} {chain : Chain.State} {am : Addrman.Man} {max : Nat} {evs : List Ev} {p : Pool}

theorem inv_of (hr : run e (init chain am max) evs = .ok p) : Verif.Pool.Inv e p := keep_run evs (inv_init e chain am max) hr

/-! ### C34 -/

/-- C34. After any history, each request taken up has been called back exactly once and is not
held any more, or has not been called back and is held, where it was put. What is missing for
"exactly once" is that held requests are called back at some time: those at peers are
(C34_deadline, C34_lost), with the exception of C34_unsent; those held for want of a peer
never (C34_pending_never). -/
theorem C34_once_partial (hr : run e (init chain am max) evs = .ok p) {r : Req} {a : Option Nat} (ha : Act.asked r a ∈ p.log) :
    (calls r.no p.log = 1 ∧ ∀ b, ¬ Held p b r) ∨ (calls r.no p.log = 0 ∧ Held p a r) := by
  have h := inv_of hr
  rcases (calls_of_sound h.sound).1 r a ha with k | k
  · exact Or.inr ⟨k.2, (h.held a r).1 k.1⟩
  · exact Or.inl ⟨k.2, fun b hb => k.1 _ ((h.held b r).2 hb) rfl⟩

/-- C34. No two requests taken up share a number, so `calls` counts for one request. -/
theorem C34_distinct (hr : run e (init chain am max) evs = .ok p) {r r' : Req} {a a' : Option Nat} {t1 t2 : List Act}
    (hl : p.log = t1 ++ Act.asked r a :: t2) (ha : Act.asked r' a' ∈ t1) : r'.no ≠ r.no :=
  (inv_of hr).sound t1 _ t2 hl r' a' ha

/-- C34. No callback is invoked but that of a request taken up before. -/
theorem C34_only_asked (hr : run e (init chain am max) evs = .ok p) {r : Req} {ans : Option Proof.Answer} {t1 t2 : List Act}
    (hl : p.log = t1 ++ Act.called r ans :: t2) : ∃ a, Act.asked r a ∈ t1 := by
  have h := (inv_of hr).sound t1 _ t2 hl
  cases ans with
  | none => obtain ⟨a, ha⟩ := h; exact ⟨a, live_sub ha⟩
  | some x => obtain ⟨⟨a, ha⟩, _⟩ := h; exact ⟨a, live_sub ha⟩

/-- C34 and C31. What a call of resolve does. If the chain is not synced it fails, and nothing
else happens. If it is, one request is taken up, with the name and argument given and
the tree root of the chain; then resolve returns, and if it returns success there is no
callback before. -/
theorem C34_resolve {p' : Pool} {name : Bytes} {arg : Nat} (hx : step e p (.resolve name arg) = .ok p') :
    (p.chain.synced = false → p' = note p [.unsynced arg]) ∧
    (p.chain.synced = true → ∃ (root : Bytes) (r : Req) (at_ : Option Nat) (mid : List Act) (b : Bool),
      Chain.safeRoot e.P p.chain = .ok root ∧ r.name = name ∧ r.root = root ∧ r.arg = arg ∧
      p'.log = p.log ++ Act.asked r at_ :: (mid ++ [.returned arg b]) ∧ (∀ a ∈ mid, Quiet a) ∧
      (b = true → ∀ a ∈ mid, ¬ AnyCall a)) :=
  (resolve_log hx).2

/-- C34. Nothing else takes up requests. -/
theorem C34_only_resolve (hr : run e (init chain am max) evs = .ok p) {p' : Pool} {ev : Ev} (hx : step e p ev = .ok p')
    (hne : ∀ name arg, ev ≠ .resolve name arg) : ∃ l, p'.log = p.log ++ l ∧ ∀ r a, Act.asked r a ∉ l := by
  obtain ⟨l, h1, h2⟩ := (keep_event (good_refl (inv_of hr)) hx hne).since.ext
  exact ⟨l, h1, fun r a hm => h2 _ hm⟩

/-- C34. When a peer is lost its requests are called back. -/
theorem C34_lost (hr : run e (init chain am max) evs = .ok p) {p' : Pool} {id : Nat} (hx : step e p (.lost id) = .ok p')
    {r : Req} (hh : Held p (some id) r) : calls r.no p.log = 0 ∧ calls r.no p'.log = 1 := by
  have h := inv_of hr
  have h' := keep_step h hx
  refine called_of_gone h h' hh ?_ (fed_step h hx).2
  rintro ⟨q, hq, hid, _⟩
  cases Out.ok.inj hx
  exact (calm_close p id).2 q hq hid

/-- C34. The deadline. Let the timer fire, and let the clock show at least `T` from then on. A
request at a peer that was ready then and still is waiting afterwards was made at `T - 5`
or later: any older one has been called back. -/
theorem C34_deadline (hr : run e (init chain am max) evs = .ok p) {p' : Pool} {T : Int} (hT : ∀ t, p.tick ≤ t → T ≤ e.clock t)
    (hx : step e p .timer = .ok p') {q : Peer} (hq : q ∈ p.peers) (hst : q.st = .handshake) {r : Req}
    (hh : Held p (some q.id) r) (hold : r.time + 5 < T) : calls r.no p.log = 0 ∧ calls r.no p'.log = 1 := by
  have h := inv_of hr
  refine called_of_gone h (keep_step h hx) hh ?_ (fed_step h hx).2
  intro hc
  have := timer_timely h hT hx hq hst hc
  omega

/-- C34. A valid proof from a peer, for the root of its latest request for that key, answers
every request it holds for that key. -/
theorem C34_answered (hr : run e (init chain am max) evs = .ok p) {q : Peer} (hq : q ∈ p.peers) {key : Bytes} {pf : Proof.Proof} {h : Req}
    {l : List Req} (hg : q.names.get key = some (h :: l)) {a : Proof.Answer} (hv : Proof.verify e.hashProof h.root key pf = .ok a) :
    ∃ p', handleMsg e q.id p (.proof h.root key pf) = .ok (true, p') ∧
      p'.log = p.log ++ Act.heard q.id (.proof h.root key pf) :: (h :: l).map fun r => Act.called r (some a) := by
  have hp : peer p q.id = some q := by
    unfold peer
    cases hf : (p.peers ++ p.closing).find? fun x => x.id = q.id with
    | none => exact absurd rfl (find_none hf q (List.mem_append_left _ hq))
    | some x =>
      obtain ⟨h1, h2⟩ := find_some hf
      rw [nodup_inj (f := fun q : Peer => q.id) (inv_of hr).ids h1 (List.mem_append_left _ hq) h2]
  unfold handleMsg
  rw [hp]
  show ∃ p', handleProof e _ q _ _ _ = _ ∧ _
  unfold handleProof
  rw [hg]
  show ∃ p', (if h.root ≠ h.root then _ else _) = _ ∧ _
  rw [if_neg (by simp), hv]
  exact ⟨_, rfl, List.append_assoc p.log _ _⟩

/-- C34 fails in full: a request for which there is no ready peer is never called back,
whatever happens afterwards. -/
theorem C34_pending_never (hr : run e (init chain am max) evs = .ok p) {r : Req} (hp : r ∈ p.pending) (more : List Ev) {p' : Pool}
    (hm : run e p more = .ok p') : r ∈ p'.pending ∧ calls r.no p'.log = 0 := by
  have key : ∀ (more : List Ev) (p p' : Pool), Verif.Pool.Inv e p → r ∈ p.pending → run e p more = .ok p' → r ∈ p'.pending ∧ Verif.Pool.Inv e p' := by
    intro more
    induction more with
    | nil => intro p p' h hp hm; cases Out.ok.inj hm; exact ⟨hp, h⟩
    | cons ev more ih =>
      intro p p' h hp hm
      obtain ⟨p1, h1, hm⟩ := Out.bind_eq_ok.1 hm
      refine ih p1 p' (keep_step h h1) ?_ hm
      by_cases hres : ∃ name arg, ev = .resolve name arg
      · obtain ⟨name, arg, rfl⟩ := hres
        have h2 : resolve e p name arg = .ok p1 := h1
        exact resolve_pending h2 r hp
      · rw [(keep_event (good_refl h) h1 fun name arg hc => hres ⟨name, arg, hc⟩).since.pend]
        exact hp
  obtain ⟨k1, k2⟩ := key more p p' (inv_of hr) hp hm
  refine ⟨k1, ?_⟩
  have hl := (k2.held none r).2 k1
  rcases (calls_of_sound k2.sound).1 r none (live_sub hl) with k | k
  · exact k.2
  · exact absurd rfl (k.1 _ hl)

/-! ### C35 -/

/-- C35. After any history: whenever a callback received an answer, the message just handled was
a proof, from a peer the request had been given to, for the hash of the name asked for; its
root was that of a request for the same name outstanding at that same peer; and the proof,
verified against that root, yields the answer. -/
theorem C35_proven (hr : run e (init chain am max) evs = .ok p) {r : Req} {ans : Proof.Answer} {t1 t2 : List Act}
    (hl : p.log = t1 ++ Act.called r (some ans) :: t2) : Proven e.hashProof t1 r ans ∧ r.hash = e.hashName r.name := by
  have h := inv_of hr
  obtain ⟨⟨a, ha⟩, h2⟩ := h.sound t1 _ t2 hl
  refine ⟨h2, (h.fresh r a ?_).2⟩
  rw [hl]
  exact List.mem_append_left _ (live_sub ha)

/-! ### C49 -/

/-- C49. The chain of a pool is what the chain it started with becomes by offering headers, each
of which is from a batch received from a peer that is short enough, linked and worked for
throughout; and each is offered at a time that differs from the clock by less than seventy
minutes. -/
theorem C49_vetted (hH : ∀ h, (e.H h).length = 32) (hr : run e (init chain am max) evs = .ok p) :
    ∃ ops, Chain.run e.P e.H chain ops = .ok p.chain ∧ ∀ op ∈ ops,
      (∃ t, e.clock t ≤ op.1 ∧ op.1 < e.clock t + 4200) ∧
      ∃ id n l, Act.heard id (.headers n l) ∈ p.log ∧ Vetted e.H l ∧ op.2 ∈ l := by
  obtain ⟨h, _⟩ := fed_run evs (inv_init e chain am max) hr
  obtain ⟨_, ops, h1, h2⟩ := h (show (0 : Int) ≤ 0 ∧ (0 : Int) < 4200 by decide)
  refine ⟨ops, h1, fun op hop => ?_⟩
  obtain ⟨k1, id, n, l, k2, k3, k4, k5, k6⟩ := h2 op hop
  exact ⟨k1, id, n, l, k2, (vetted_none hH (by omega)).1 k5, k6⟩

/-- C49 with C05: started from the genesis block, whatever peers send, the chain holds only
headers that obey the rules of the network. -/
theorem C49_chain_valid {g : Hdr} (hb : Props.Chain.Booted e.P e.H g chain) (hclock : ∀ t, 0 ≤ e.clock t ∧ e.clock t < 2 ^ 62)
    (hr : run e (init chain am max) evs = .ok p)
    (hg : ∀ id n l h, Act.heard id (.headers n l) ∈ p.log → h ∈ l → e.H h ≠ g.prevBlock)
    {k : Bytes} {x : Chain.Entry} (hx : p.chain.hashes.get k = some x) :
    x.hash = k ∧ k = e.H x.hdr ∧
    ∃ l : List Chain.Entry, Chain.Path p.chain.hashes x l ∧ l.getLast? = some chain.tip ∧ chain.tip.hdr = g ∧ chain.tip.height = 0 ∧
      (∀ y ∈ l, AMap.get p.chain.hashes y.hash = some y) ∧
      Spec.Chain.ValidChain (Chain.rules e.P) (· = Chain.blk chain.tip) (l.map Chain.blk) := by
  obtain ⟨ops, h1, h2⟩ := C49_vetted hb.hash hr
  refine Props.Chain.C05_stored_headers_valid hb ?_ h1 hx
  intro op hop
  obtain ⟨⟨t, k1, k2⟩, id, n, l, k3, _, k4⟩ := h2 op hop
  have := hclock t
  exact ⟨⟨by omega, by omega⟩, hg id n l _ k3 k4⟩

/-- C49. A batch that is too long, not linked or not worked for is refused, and nothing else
happens. (The read that contained it then destroys the peer, C49_refused_dropped.) -/
theorem C49_refused (hH : ∀ h, (e.H h).length = 32) (q : Peer) {l : List Hdr} (hv : ¬ Vetted e.H l) :
    handleHeaders e p q l.length l = .ok (false, p) := by
  unfold handleHeaders
  have h0 : l.length ≠ 0 := by
    intro h0
    rw [List.length_eq_zero_iff.1 h0] at hv
    exact hv ⟨by decide, (fun t1 a b t2 hc => by cases t1 <;> cases hc), fun h hm => by cases hm⟩
  rw [if_neg h0]
  by_cases h1 : l.length > 2000
  · rw [if_pos h1]
  · rw [if_neg h1]
    have h2 : vetted e.H none l = false := by
      cases h : vetted e.H none l with
      | false => rfl
      | true => exact absurd ((vetted_none hH (by omega)).1 h) hv
    rw [h2]; rfl

/-- A read that ends in an error removes the peer. -/
theorem C49_refused_dropped (id : Nat) (x : Bool × Framing.Frame × Pool) (hx : x.1 = false) :
    ∀ q ∈ (finishRead id x).peers, q.id ≠ id := by
  unfold finishRead
  rw [hx]
  exact (calm_close _ id).2

/-- C49. The peer is banned for a header that is older than the chain allows or whose
difficulty is not the one demanded, and it is removed. -/
theorem C49_ban (hH : ∀ h, (e.H h).length = 32) (q : Peer)
    {l1 l2 : List Hdr} {h : Hdr} (hv : Vetted e.H (l1 ++ h :: l2)) {o : Bool} {n t : Nat} {c1 c2 : Chain.State} {rc : Chain.Rc}
    (h1 : addAll e p.td l1 false 0 p.tick p.chain = .ok (.all o, c1, n, t))
    (h2 : Chain.add e.P e.H c1 (Timedata.adjusted p.td (e.clock t)) h = .ok (rc, c2)) (hrc : rc = .timeTooOld ∨ rc = .badDiffBits) :
    ∃ p', handleHeaders e p q (l1 ++ h :: l2).length (l1 ++ h :: l2) = .ok (false, p') ∧ p'.chain = c2 ∧
      (∀ x ∈ p'.peers, x.id ≠ q.id) ∧ (∀ x ∈ p.peers, x.id ≠ q.id → x ∈ p'.peers) ∧
      ∀ now, now ≤ e.clock (t + 1) + 86400 → (Addrman.isBanned p'.am q.addr now).2 = true := by
  have hlen : (l1 ++ h :: l2).length ≠ 0 := by simp
  have hlen' := hv.1
  unfold handleHeaders
  rw [if_neg hlen, if_neg (by omega), (vetted_none hH hlen').2 hv]
  rw [addAll_ban hrc l1 h1 h2]
  refine ⟨_, rfl, ?_, ?_, ?_, ?_⟩
  · unfold close; dsimp only; split <;> rfl
  · exact (calm_close _ q.id).2
  · intro x hx hne
    unfold close
    dsimp only
    have hxe : x ∈ (edit p q.id fun q => { q with headers := q.headers + n }).peers := by
      refine List.mem_map.2 ⟨x, hx, ?_⟩
      unfold editPeer
      rw [if_neg hne]
    split
    · exact hxe
    · exact List.mem_filter.2 ⟨hxe, by simpa using hne⟩
  · intro now hnow
    have ham : ∀ (pp : Pool), (close pp q.id).am = pp.am := by
      intro pp; unfold close; split <;> rfl
    rw [ham]
    show (Addrman.isBanned (Addrman.addBan p.am q.addr (e.clock (t + 1))) q.addr now).2 = true
    unfold Addrman.isBanned Addrman.addBan
    dsimp only
    rw [AMap.get_set, if_pos rfl]
    dsimp only
    rw [if_neg (by omega)]

/-! ### Concrete histories

Two genesis-like headers with trees: `tree0` in which `k0` has the resource [7, 8], and one in
which it has another. -/

def seedAddr (n : UInt8) : Addr.Addr :=
  { type := 0, ip := [0, 0, 0, 0, 0, 0, 0, 0, 0, 0, 0xff, 0xff, 8, 8, 8, n] ++ List.replicate 20 0, port := 44806, key := Addr.zeroPub }
def entryOf (n : UInt8) : Addrman.Entry := Addrman.fresh { time := 1000, services := 1, addr := seedAddr n }
def seeds : Addrman.Man :=
  { addrs := [entryOf 1, entryOf 2], map := AMap.set (AMap.set [] (Addrman.keyOf (seedAddr 1)) 0) (Addrman.keyOf (seedAddr 2)) 1, banned := [] }

def tree1 : Spec.Radix.Tree := .leaf Props.Proof.k0 [1, 97, 1, 0, 9, 99]
def root0 : Bytes := Spec.Radix.rootHash Props.Proof.toyH Props.Proof.t0
def root1 : Bytes := Spec.Radix.rootHash Props.Proof.toyH tree1
def gen : Hdr := { Props.Chain.g0 with nameRoot := root0 }
def next : Hdr := { Props.Chain.mk 2 (Props.Chain.toyH gen) 1001 with nameRoot := root1 }
/-- Every block commits its tree. -/
def net : Chain.Params := { Props.Chain.toyP with treeInterval := 1 }
def start : Chain.State := match Chain.initGenesis net Props.Chain.toyH 2000 gen with
  | .ok s => s
  | _ => Props.Chain.toyS

/-- A benign outside: the clock shows `2000 + tick`, all writes succeed. Random draws choose
the first address for the first peer and the other for the next. -/
def calmEnv : Env :=
  { magic := 0x5b6ef2d3, P := net, H := Props.Chain.toyH, hashName := fun n => List.replicate 32 (n.getD 0 0),
    hashProof := Props.Proof.toyH, okKey := fun _ => true, agent := [47, 97, 47], clock := fun t => 2000 + t,
    rnd := fun _ i => i + 1, wr := fun _ => .sent, opens := fun _ => true }

def framed (cmd : UInt8) (body : Bytes) : Bytes := [0xd3, 0xf2, 0x6e, 0x5b, cmd] ++ leBytes 4 body.length ++ body
def proofData (root : Bytes) (t : Spec.Radix.Tree) : Bytes :=
  framed 27 (root ++ Props.Proof.k0 ++ Proof.encode (Proof.prove Props.Proof.toyH Props.Proof.k0 0 t))
def headersData (l : List Hdr) : Bytes := framed 11 (UInt8.ofNat l.length :: l.flatMap Header.write)

/-- What of a record is shown below. -/
def show_ : Act → List Nat
  | .asked r a => [1, r.no, match a with | none => 0 | some i => i + 1]
  | .unsynced a => [2, a]
  | .returned a b => [3, a, if b then 1 else 0]
  | .heard id m => [4, id, m.cmd]
  | .wrote id m => [5, id, m.cmd]
  | .called r none => [6, r.no, 0]
  | .called r (some .absent) => [6, r.no, 1]
  | .called r (some (.present d)) => [6, r.no, 2] ++ d.map UInt8.toNat

def up : List Ev := [.timer, .connect 0 true true]

/-- The record, the height of the chain, the listed peers (are they ready, how many names do
they owe), and the number of banned addresses. -/
def look (p : Pool) : List (List Nat) × Nat × List (Nat × Bool × Nat) × Nat :=
  (p.log.map show_, p.chain.height, p.peers.map fun q => (q.id, decide (q.st = .handshake), q.names.size), p.am.banned.length)

/-- Two requests for one name are answered by one proof; a third is lost with its peer; a
fourth finds no peer. -/
def story : List Ev :=
  up ++ [.resolve [0x20] 5, .resolve [0x20] 6, .data 0 (proofData root0 Props.Proof.t0), .resolve [0x21] 7, .lost 0, .resolve [0x20] 8]

theorem story_log : okWith (fun (p : Pool) => p.log.map show_ =
    [[5, 0, 0], [1, 0, 1], [5, 0, 26], [3, 5, 1], [1, 1, 1], [3, 6, 1], [4, 0, 27], [6, 1, 2, 7, 8], [6, 0, 2, 7, 8],
     [1, 2, 1], [5, 0, 26], [3, 7, 1], [6, 2, 0], [1, 3, 0], [3, 8, 1]] ∧ (p.pending.map fun r => r.no) = [3])
    (run calmEnv (init start seeds 8) story) = true := by decide +kernel

/-- The hypotheses of the theorems on C34, C35 and C49 are met by this history: a request
answered, one lost with its peer, one that waits for ever. -/
example : ∃ p, run calmEnv (init start seeds 8) story = .ok p ∧
    (∃ r t1 t2, p.log = t1 ++ Act.called r (some (.present [7, 8])) :: t2) ∧
    (∃ r a, Act.asked r a ∈ p.log ∧ calls r.no p.log = 1) ∧ (∃ r, r ∈ p.pending) := by
  have h : okWith (fun (p : Pool) =>
      decide ((p.log.any fun a => match a with | .called _ (some (.present [7, 8])) => true | _ => false) = true ∧
        (p.log.any fun a => match a with | .asked r _ => decide (calls r.no p.log = 1) | _ => false) = true ∧ p.pending ≠ []))
      (run calmEnv (init start seeds 8) story) = true := by decide +kernel
  obtain ⟨p, h1, h2⟩ := okWith_spec h
  obtain ⟨k1, k2, k3⟩ := of_decide_eq_true h2
  refine ⟨p, h1, ?_, ?_, ?_⟩
  · obtain ⟨a, ha, hm⟩ := List.any_eq_true.1 k1
    split at hm
    · rename_i r
      obtain ⟨t1, t2, ht⟩ := List.append_of_mem ha
      exact ⟨r, t1, t2, ht⟩
    · cases hm
  · obtain ⟨a, ha, hm⟩ := List.any_eq_true.1 k2
    split at hm
    · rename_i r b
      exact ⟨r, b, ha, of_decide_eq_true hm⟩
    · cases hm
  · cases hp : p.pending with
    | nil => exact absurd hp k3
    | cons r l => exact ⟨r, List.mem_cons_self ..⟩

/-- C34 fails in full: on a synchronous write error the callback is invoked, and resolve
returns an error as well. -/
theorem C34_both : okWith (fun (p : Pool) => look p = ([[5, 0, 0], [1, 0, 1], [6, 0, 0], [3, 5, 0]], 0, [], 0))
    (run { calmEnv with wr := fun t => if t < 6 then .sent else .broken } (init start seeds 8) (up ++ [.resolve [0x20] 5])) = true := by
  decide +kernel

/-- C34: when a write fails for want of memory, resolve returns an error and the request
stays; here it is called back later, when the peer is lost. -/
theorem C34_late : okWith (fun (p : Pool) => look p = ([[5, 0, 0], [1, 0, 1], [3, 5, 0], [6, 0, 0]], 0, [], 0))
    (run { calmEnv with wr := fun t => if t < 6 then .sent else .refused } (init start seeds 8) (up ++ [.resolve [0x20] 5, .lost 0])) = true := by
  decide +kernel

/-- C34: a request may be given to a peer that is still connecting. It is not sent, resolve
returns success, and the timer, here firing twice after hundreds of seconds, does not call
back. (C34_deadline is for peers that are ready.) -/
theorem C34_unsent : okWith (fun (p : Pool) => look p = ([[5, 1, 0], [1, 0, 1], [3, 5, 1]], 0, [(0, false, 1), (2, false, 0)], 0))
    (run { calmEnv with rnd := fun _ i => if i = 3 then 0 else i + 1, clock := fun t => 2000 + 100 * t } (init start seeds 8)
      [.timer, .timer, .connect 1 true true, .resolve [0x20] 5, .timer, .timer]) = true := by decide +kernel

/-- The deadline at work: a ready peer, a request, and a timer that fires more than five
seconds later. -/
example : okWith (fun (p : Pool) => look p = ([[5, 0, 0], [1, 0, 1], [5, 0, 26], [3, 5, 1], [6, 0, 0]], 0, [(1, false, 0)], 0))
    (run { calmEnv with clock := fun t => 2000 + 100 * t } (init start seeds 8) (up ++ [.resolve [0x20] 5, .timer])) = true := by
  decide +kernel

/-- C35, of requests for one name at one peer: only the first is sent, and the latest
decides which root is accepted. Here the tree root changes between them. The peer answers
the request it got, as it should; its proof is refused, it is dropped, and both callbacks
time out. -/
theorem C35_honest_answer_refused : okWith (fun (p : Pool) => look p =
      ([[5, 0, 0], [1, 0, 1], [5, 0, 26], [3, 5, 1], [4, 0, 11], [1, 1, 1], [3, 6, 1], [4, 0, 27], [6, 1, 0], [6, 0, 0]], 1, [], 0))
    (run calmEnv (init start seeds 8) (up ++ [.resolve [0x20] 5, .data 0 (headersData [next]), .resolve [0x20] 6,
      .data 0 (proofData root0 Props.Proof.t0)])) = true := by decide +kernel

/-- C35, the same with a proof for the new root that was never asked for: both get the new
data, also the request made for the old root. -/
theorem C35_other_root : okWith (fun (p : Pool) => look p =
      ([[5, 0, 0], [1, 0, 1], [5, 0, 26], [3, 5, 1], [4, 0, 11], [1, 1, 1], [3, 6, 1], [4, 0, 27], [6, 1, 2, 9], [6, 0, 2, 9]],
       1, [(0, true, 0)], 0) ∧
      (p.log.any fun a => match a with | .asked r _ => r.no = 0 ∧ r.root = root0 | _ => false) ∧ root0 ≠ root1)
    (run calmEnv (init start seeds 8) (up ++ [.resolve [0x20] 5, .data 0 (headersData [next]), .resolve [0x20] 6,
      .data 0 (proofData root1 tree1)])) = true := by decide +kernel

/-- C49: a header older than its parents. The chain stays, the peer is removed and its
address banned. -/
example : okWith (fun (p : Pool) => look p = ([[5, 0, 0], [4, 0, 11]], 0, [], 1))
    (run calmEnv (init start seeds 8) (up ++ [.data 0 (headersData [{ next with time := 900 }])])) = true := by decide +kernel

/-- C49: a batch that is not linked. The chain stays, though the first header is good. -/
example : okWith (fun (p : Pool) => look p = ([[5, 0, 0], [4, 0, 11]], 0, [], 0))
    (run calmEnv (init start seeds 8) (up ++ [.data 0 (headersData [next, next])])) = true := by decide +kernel

/-- The start of C49_chain_valid. -/
example : Props.Chain.Booted net Props.Chain.toyH gen start where
  params := ⟨by decide +kernel, by decide +kernel⟩
  hash := fun h => by simp [Props.Chain.toyH]
  time := by decide +kernel
  noLoop := by decide +kernel
  start := ⟨2000, by
    have h : (Chain.initGenesis net Props.Chain.toyH 2000 gen) ≠ .ub ∧ (Chain.initGenesis net Props.Chain.toyH 2000 gen) ≠ .err () := by
      decide +kernel
    unfold start
    cases hc : Chain.initGenesis net Props.Chain.toyH 2000 gen with
    | ok s => rfl
    | err e => exact absurd hc h.2
    | ub => exact absurd hc h.1⟩

/-- A version message with an agent of `n` characters. -/
def hello (n : Nat) : Msg.Version :=
  { version := 1, services := 1, time := 2000, remote := ⟨0, 0, seedAddr 1⟩, nonce := 1, agent := List.replicate n 97, height := 0, noRelay := false }

def versionData (n : Nat) : Bytes := framed 0 (Msg.writeVersion (hello n))

end Verif.Props.Pool
