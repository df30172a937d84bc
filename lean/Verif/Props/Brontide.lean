import Verif.Lemmas.BrontideNet
import Verif.Lemmas.BrontideSched
import Verif.Lemmas.Eval
/-
C37, C38, C39 and C60: the encrypted transport. The primitives, the random source and the
host (its callbacks, what it writes and when) are arbitrary; what is asked of them is in the
hypotheses.
-/
namespace Verif.Props.Brontide
open Verif.Brontide
open Verif.Spec.Brontide

variable {σ τ : Type}

/-! ### C37 -/

/-- C37. At any point of the life of a connection, bytes cut into reads in any two ways have the
same outcome: state, host, messages delivered and bytes sent. -/
theorem C37_split (P : Prim) (E : Env σ) {m0 m : M σ} {ops : List (Op σ)}
    (h0 : (∃ h k t, dial P E h k t = .ok m0) ∨ ∃ h k, listen P E h k = .ok m0) (hr : run P E ops m0 = .ok m)
    {a b : List Bytes} (hab : a.flatten = b.flatten) :
    run P E (a.map .read) m = run P E (b.map .read) m := by
  have hm0 : Ready m0 := by
    rcases h0 with ⟨_, _, _, h⟩ | ⟨_, _, h⟩
    · exact dial_ready h
    · exact listen_ready h
  have hm := run_ready ops hm0 hr
  rw [run_reads, run_reads, feedAll_eq a hm, feedAll_eq b hm, hab]

/-- C37. What an initiator delivers is what the stream says: the messages both of whose tags
are right, in order, up to the first that is not. If neither the host nor a failing write
ended the session, it delivers all of them, has sent what the protocol says, and the session
is over exactly if the stream is bad. -/
theorem C37_initiator (P : Prim) (hP : ∀ k iv ad x, (P.enc k iv ad x).1.length = x.length) (E : Env σ) {s e : KeyPair} {rs es : Bytes}
    (hs : P.pubOf s.priv = some s.pub) (he : Draws P E.rand e) (hes : P.ecdh rs e.priv = some es)
    {h : σ} {m0 m : M σ} {ops : List (Op σ)} (h0 : dial P E h s.priv rs = .ok m0) (hr : run P E ops m0 = .ok m) :
    messages m.trace <+: (initiatorHears P s e (iOne P e rs es).1 (arrived ops)).1 ∧
    outs m.trace <+: initiatorSays P s e (iOne P e rs es) (arrived ops) (writes m.trace) ∧
    (¬ Cut m.trace →
      messages m.trace = (initiatorHears P s e (iOne P e rs es).1 (arrived ops)).1 ∧
      outs m.trace = initiatorSays P s e (iOne P e rs es) (arrived ops) (writes m.trace) ∧
      (m.b.state = .none ↔ (initiatorHears P s e (iOne P e rs es).1 (arrived ops)).2 = false)) := by
  have hi := run_invI hs ops (dial_inv hP he hes h0) hr
  rw [List.nil_append] at hi
  have f := invI_facts hi
  exact ⟨f.heard, f.sent, f.whole⟩

/-- C37. The same of a responder. -/
theorem C37_responder (P : Prim) (hP : ∀ k iv ad x, (P.enc k iv ad x).1.length = x.length) (E : Env σ) {s e : KeyPair}
    (hs : P.pubOf s.priv = some s.pub) (he : Draws P E.rand e)
    {h : σ} {m0 m : M σ} {ops : List (Op σ)} (h0 : listen P E h s.priv = .ok m0) (hr : run P E ops m0 = .ok m) :
    messages m.trace <+: (responderHears P s e (arrived ops)).1 ∧
    outs m.trace <+: responderSays P s e (arrived ops) (writes m.trace) ∧
    (¬ Cut m.trace →
      messages m.trace = (responderHears P s e (arrived ops)).1 ∧
      outs m.trace = responderSays P s e (arrived ops) (writes m.trace) ∧
      (m.b.state = .none ↔ (responderHears P s e (arrived ops)).2 = false)) := by
  have hi := run_invR hP he ops (listen_inv (e := e) hs h0) hr
  rw [List.nil_append] at hi
  have f := invR_facts hi
  exact ⟨f.heard, f.sent, f.whole⟩

/-- C37. A stream once bad says nothing more, whatever follows; and what follows never takes
back a message. -/
theorem C37_bad (P : Prim) (l : Line) (i : Nat) (s t : Bytes) :
    (plain P l i s).1 <+: (plain P l i (s ++ t)).1 ∧
    ((plain P l i s).2 = false → plain P l i (s ++ t) = plain P l i s) :=
  plain_append P l i s t

/-! ### C38 -/

/-- Strings sealed one after the other with one cipher state: ciphertexts and tags. -/
def sealAll (P : Prim) : CS → List (Option Bytes × Bytes) → List (Bytes × Bytes)
  | _, [] => []
  | cs, p :: r =>
    let c := csEncrypt P cs p.1 p.2
    (c.2, c.1.tag) :: sealAll P c.1 r

/-- Strings opened one after the other: plaintexts and the tags they should have. -/
def openAll (P : Prim) : CS → List (Option Bytes × Bytes) → List (Bytes × Bytes)
  | _, [] => []
  | cs, p :: r =>
    let c := csDecrypt P cs p.1 p.2
    (c.2, c.1.tag) :: openAll P c.1 r

theorem sealAll_at {P : Prim} {l : Line} : ∀ (ps : List (Option Bytes × Bytes)) {cs : CS} {j : Nat}, At P l j cs → ∀ i,
    (sealAll P cs ps)[i]? = ps[i]?.map fun p => P.enc (keyAt P l (j + i)) (ivAt (j + i)) p.1 p.2 := by
  intro ps
  induction ps with
  | nil => intro cs j _ i; rfl
  | cons p ps ih =>
    intro cs j h i
    have hk : cs.key = keyAt P l j ∧ cs.iv = ivAt j := at_key h
    cases i with
    | zero =>
      have : (csEncrypt P cs p.1 p.2).1.tag = (P.enc cs.key cs.iv p.1 p.2).2 := csStep_tag _ _
      simp only [sealAll, List.getElem?_cons_zero, Option.map_some, Nat.add_zero, this, hk.1, hk.2]
      congr 1
      rw [← hk.1, ← hk.2]; rfl
    | succ i =>
      simp only [sealAll, List.getElem?_cons_succ]
      rw [ih (at_encrypt h p.1 p.2) i, show j + 1 + i = j + (i + 1) by omega]

theorem openAll_at {P : Prim} {l : Line} : ∀ (ps : List (Option Bytes × Bytes)) {cs : CS} {j : Nat}, At P l j cs → ∀ i,
    (openAll P cs ps)[i]? = ps[i]?.map fun p => P.dec (keyAt P l (j + i)) (ivAt (j + i)) p.1 p.2 := by
  intro ps
  induction ps with
  | nil => intro cs j _ i; rfl
  | cons p ps ih =>
    intro cs j h i
    have hk : cs.key = keyAt P l j ∧ cs.iv = ivAt j := at_key h
    cases i with
    | zero =>
      have : (csDecrypt P cs p.1 p.2).1.tag = (P.dec cs.key cs.iv p.1 p.2).2 := csStep_tag _ _
      simp only [openAll, List.getElem?_cons_zero, Option.map_some, Nat.add_zero, this, hk.1, hk.2]
      congr 1
      rw [← hk.1, ← hk.2]; rfl
    | succ i =>
      simp only [openAll, List.getElem?_cons_succ]
      rw [ih (at_decrypt h p.1 p.2) i, show j + 1 + i = j + (i + 1) by omega]

/-- C38. The cipher is called, for the `i`-th string that a cipher state seals, with the
`i`-th key and nonce of the schedule, whatever the strings. -/
theorem C38_sealed (P : Prim) (salt key : Bytes) (ps : List (Option Bytes × Bytes)) (i : Nat) :
    (sealAll P (csInitSaltkey csInit salt key) ps)[i]? =
      ps[i]?.map fun p => P.enc (keyAt P ⟨key, salt⟩ i) (ivAt i) p.1 p.2 := by
  have := sealAll_at ps (at_init P csInit_iv salt key) i
  rwa [Nat.zero_add] at this

/-- C38. The other end, which opens them, is in step: the `i`-th string is opened with the
same key and nonce. -/
theorem C38_opened (P : Prim) (salt key : Bytes) (ps : List (Option Bytes × Bytes)) (i : Nat) :
    (openAll P (csInitSaltkey csInit salt key) ps)[i]? =
      ps[i]?.map fun p => P.dec (keyAt P ⟨key, salt⟩ i) (ivAt i) p.1 p.2 := by
  have := openAll_at ps (at_init P csInit_iv salt key) i
  rwa [Nat.zero_add] at this

/-- C38. The pairs of key and nonce in the schedule are pairwise distinct, as long as the
keys of different rotations are. -/
theorem C38_distinct (P : Prim) (l : Line) (n : Nat)
    (hk : ∀ a b, a < b → b * 1000 < n → (epoch P l a).key ≠ (epoch P l b).key) :
    ((List.range n).map fun i => (keyAt P l i, ivAt i)).Nodup :=
  schedule_nodup P l n hk

/-- C38. A thousand strings to a key: the key changes exactly when a multiple of a thousand is
reached, and the nonce is the number of strings since. -/
theorem C38_rotation (P : Prim) (l : Line) (i : Nat) :
    keyAt P l i = (epoch P l (i / 1000)).key ∧ ivAt i = ivOf (i % 1000) ∧
    (∀ j, j / 1000 = i / 1000 → j ≠ i → ivAt j ≠ ivAt i) := by
  refine ⟨rfl, rfl, fun j hj hne he => hne ?_⟩
  have := ivOf_inj (by omega) (by omega) he
  omega

/-! ### C39 -/

/-- C39. Two honest ends over a channel that delivers unchanged and in order, in whatever
pieces and at whatever times, while their hosts do whatever they like: nothing undefined
happens; what either end delivers is, from the first on, what was written at the other;
neither end gives up unless its host or a failing write ends the session; past act two the
initiator, past act three the responder is established, which knows the initiator's key; and
when everything sent has arrived, both are established and everything written has been
delivered. -/
theorem C39_agree (P : Prim) (hL : Laws P) (EI : Env σ) (ER : Env τ) {s r ei er : KeyPair}
    (hs : P.pubOf s.priv = some s.pub) (hr : P.pubOf r.priv = some r.pub)
    (hei : Draws P EI.rand ei) (her : Draws P ER.rand er) (hi : σ) (hh : τ) (ops : List (NetOp σ τ)) :
    ∃ mi mr n, dial P EI hi s.priv r.pub = .ok mi ∧ listen P ER hh r.priv = .ok mr ∧
      netRun P EI ER ops ⟨mi, mr, 0, 0⟩ = .ok n ∧
      ((∀ x ∈ writes n.i.trace, x.length ≤ maxSize) → (∀ x ∈ writes n.r.trace, x.length ≤ maxSize) →
        messages n.i.trace <+: writes n.r.trace ∧ messages n.r.trace <+: writes n.i.trace ∧
        (¬ Cut n.i.trace → n.i.b.state ≠ .none ∧ (80 ≤ n.ci → n.i.b.state = .done)) ∧
        (¬ Cut n.r.trace → n.r.b.state ≠ .none ∧
          (145 ≤ n.cr → n.r.b.state = .done ∧ n.r.b.remoteStatic = s.pub)) ∧
        (¬ Cut n.i.trace → ¬ Cut n.r.trace → Quiet n →
          n.i.b.state = .done ∧ n.r.b.state = .done ∧ n.r.b.remoteStatic = s.pub ∧
          messages n.i.trace = writes n.r.trace ∧ messages n.r.trace = writes n.i.trace)) := by
  have gei : Genuine P ei := ⟨hei.2.1, hei.2.2.imp fun _ h => h.2⟩
  have ger : Genuine P er := ⟨her.2.1, her.2.2.imp fun _ h => h.2⟩
  obtain ⟨es, hes⟩ := Option.ne_none_iff_exists'.1 (hL.ecdh_def r.pub ei.priv ei.pub (hL.pub_ok _ _ hr) hei.2.1)
  obtain ⟨l0, n2, two, l2, g, three, l3, done⟩ := handshake hL hs hr gei ger hes
  have hA : Acts P s r ei er (iOne P ei r.pub es) n2 g := ⟨l0, two, l2, three, l3, done⟩
  obtain ⟨mi, hmi⟩ := dial_def (h := hi) (k := s.priv) hei (by rw [hes]; simp)
  obtain ⟨mr, hmr⟩ := listen_def (P := P) (E := ER) (h := hh) hr
  have hI := dial_inv (keeps hL) hei hes hmi
  have hR := listen_inv (e := er) hr hmr
  have inv0 : NetInv P s r ei er (iOne P ei r.pub es) (⟨mi, mr, 0, 0⟩ : Net σ τ) := ⟨hI, hR, Nat.zero_le _, Nat.zero_le _⟩
  obtain ⟨n, hn, inv⟩ := netRun_inv (EI := EI) (ER := ER) hL hs gei her hA ops inv0
  refine ⟨mi, mr, n, hmi, hmr, hn, fun hwi hwr => ?_⟩
  have st := inv.streams hA (xI := (outs n.r.trace).take n.ci) (xR := (outs n.i.trace).take n.cr) (dI := []) (dR := [])
    (by rw [List.append_nil]) (by rw [List.append_nil]) (List.take_prefix _ _) (List.take_prefix _ _)
  have fI := invI_facts inv.i
  have fR := invR_facts inv.r
  have lI : ((outs n.r.trace).take n.ci).length = n.ci := by rw [List.length_take]; have := inv.ci; omega
  have lR : ((outs n.i.trace).take n.cr).length = n.cr := by rw [List.length_take]; have := inv.cr; omega
  obtain ⟨ms, a1, a2, a3⟩ := st.ihears hL hwr
  obtain ⟨ms', b1, b2, b3⟩ := st.rhears hL hwi
  rw [a2] at fI
  rw [b2] at fR
  have cI : ¬ Cut n.i.trace → n.i.b.state ≠ .none := fun hc => by
    have := (fI.whole hc).2.2; simp at this; exact this
  have cR : ¬ Cut n.r.trace → n.r.b.state ≠ .none := fun hc => by
    have := (fR.whole hc).2.2; simp at this; exact this
  have dI : ¬ Cut n.i.trace → 80 ≤ n.ci → n.i.b.state = .done := fun hc h => invI_done inv.i (by omega) (cI hc)
  have dR : ¬ Cut n.r.trace → 145 ≤ n.cr → n.r.b.state = .done ∧ n.r.b.remoteStatic = s.pub := fun hc h => by
    obtain ⟨k1, n', g', k2, k3, k4⟩ := invR_done inv.r (by omega) (cR hc)
    refine ⟨k1, ?_⟩
    rw [st.r80 (by omega), two] at k2
    cases k2
    rw [(st.r145 (by omega)).1, done] at k3
    cases k3
    exact k4
  refine ⟨fI.heard.trans a1, fR.heard.trans b1, fun hc => ⟨cI hc, dI hc⟩, fun hc => ⟨cR hc, dR hc⟩, fun hc1 hc2 hq => ?_⟩
  have eI := (fI.whole hc1).2.1
  have eR := (fR.whole hc2).2.1
  obtain ⟨q1, q2⟩ := hq
  have h1 : 80 ≤ n.cr := by
    rw [q2, eI]; unfold initiatorSays; rw [List.length_append, l0]; omega
  have h2 : 80 ≤ n.ci := by
    rw [q1, eR, st.rsays (by omega), List.length_append, l2]; omega
  have h3 : 145 ≤ n.cr := by
    rw [q2, eI, st.isays (by omega), List.length_append, List.length_append, l0, l3]; omega
  refine ⟨dI hc1 h2, (dR hc2 h3).1, (dR hc2 h3).2, ?_, ?_⟩
  · rw [(fI.whole hc1).1]
    refine a3 (by omega) ?_
    rw [q1, List.take_of_length_le (Nat.le_refl _), eR, st.rsays2 (by omega), List.drop_append,
      List.drop_of_length_le (by omega), l2]
    rfl
  · rw [(fR.whole hc2).1]
    refine b3 (by omega) ?_
    have hsplit : ∀ a b c : Bytes, a.length = 80 → b.length = 65 → ((a ++ (b ++ c)).drop 80).drop 65 = c := by
      intro a b c ha hb
      have e1 : (a ++ (b ++ c)).drop 80 = b ++ c := by rw [← ha, List.drop_left]
      rw [e1, ← hb, List.drop_left]
    rw [q2, List.take_of_length_le (Nat.le_refl _), eI, st.isays (by omega)]
    exact hsplit _ _ _ l0 l3

/-- C39. The keys: the initiator's answer to the responder's answer to act one is accepted,
and both ends have the same two lines, one for each direction. -/
theorem C39_keys (P : Prim) (hL : Laws P) {s r ei er : KeyPair} (hs : P.pubOf s.priv = some s.pub)
    (hr : P.pubOf r.priv = some r.pub) (hei : Genuine P ei) (her : Genuine P er) {es : Bytes}
    (hes : P.ecdh r.pub ei.priv = some es) :
    ∃ n2 g, rTwo P r er (iOne P ei r.pub es).2 = some n2 ∧
      iThree P s ei (iOne P ei r.pub es).1 n2.2 = some g ∧ rDone P er n2.1 g.2 = some (g.1, s.pub) := by
  obtain ⟨_, n2, two, _, g, three, _, done⟩ := handshake hL hs hr hei her hes
  exact ⟨n2, g, two, three, done⟩

/-! ### C60 -/

/-- C60 (in part: asks that the bytes sent for a key decode to one). Whatever a node sends,
and whatever the host does, the transport that dialled it uses no unset memory and fails no
assertion, provided the first 64 bytes are the encoding of some key. -/
theorem C60_defined_partial (P : Prim) (hP : ∀ k iv ad x, (P.enc k iv ad x).1.length = x.length) (E : Env σ) {s e : KeyPair} {rs : Bytes}
    (hE : ∀ p k q, P.okKey p = true → P.pubOf k = some q → P.ecdh p k ≠ none) (hrs : P.okKey rs = true)
    (hs : P.pubOf s.priv = some s.pub) (he : Draws P E.rand e) (h : σ) (ops : List (Op σ))
    (hF : 80 ≤ (arrived ops).length → P.fromHash ((arrived ops).take 64) ≠ none) :
    ∃ m0 m, dial P E h s.priv rs = .ok m0 ∧ run P E ops m0 = .ok m := by
  obtain ⟨es, hes⟩ := Option.ne_none_iff_exists'.1 (hE rs e.priv e.pub hrs he.2.1)
  obtain ⟨m0, h0⟩ := dial_def (h := h) (k := s.priv) he (by rw [hes]; simp)
  have hok : OkI P s e (arrived ops) := fun h1 => by
    obtain ⟨re, hre⟩ := Option.ne_none_iff_exists'.1 (hF h1)
    exact ⟨re, hre, fun hk => ⟨hE _ _ _ hk he.2.1, hE _ _ _ hk hs⟩⟩
  obtain ⟨m, hm⟩ := runI_def (E := E) hs ops (dial_inv hP he hes h0) (by rw [List.nil_append]; exact hok)
  exact ⟨m0, m, h0, hm⟩

/-- C60 is false of the code where the decoder of keys has a gap: 64 bytes which it cannot
decode make the transport go on with a key that was never set. -/
theorem C60_false (P : Prim) (hP : ∀ k iv ad x, (P.enc k iv ad x).1.length = x.length) (E : Env σ) {s e : KeyPair} {rs es : Bytes}
    (he : Draws P E.rand e) (hes : P.ecdh rs e.priv = some es) {h : σ} {m0 : M σ}
    (h0 : dial P E h s.priv rs = .ok m0) (hst : m0.b.state ≠ .none) {d : Bytes} (hd : 80 ≤ d.length)
    (hF : P.fromHash (d.take 64) = none) : run P E [.read d] m0 = .ub := by
  rcases dial_inv (s := s) hP he hes h0 with ⟨hw, _⟩ | ⟨_, _, hx, _⟩ | hdead
  · unfold run step onRead
    dsimp only
    rw [if_neg hst, hw.stored]
    dsimp only
    rw [loop_two_undef hw hd hF]
    rfl
  · simp at hx
  · exact absurd hdead.1 hst

/-! ### A case -/

/-- Primitives that are easy to compute with and satisfy the laws. -/
def toy : Prim where
  sha x := [UInt8.ofNat x.length, x.headD 0]
  hkdf s ck := ((s ++ ck).take 8, (ck ++ s).take 8)
  enc k _ _ x := (x.map (· ^^^ k.headD 7), (x ++ List.replicate 16 (k.headD 7)).take 16)
  dec k _ _ c := (c.map (· ^^^ k.headD 7), (c.map (· ^^^ k.headD 7) ++ List.replicate 16 (k.headD 7)).take 16)
  pubOf k := if k.length = 32 then some (2 :: k) else none
  ecdh p k := if p.length = 33 ∧ k.length = 32 then some (List.zipWith (· ^^^ ·) (p.drop 1) k) else none
  toHash p _ := if p.length = 33 then some (p ++ List.replicate 31 0) else none
  fromHash u := if u.length = 64 ∧ u.drop 33 = List.replicate 31 0 then some (u.take 33) else none
  okKey p := p.length == 33

theorem xor_xor (a b : UInt8) : (a ^^^ b) ^^^ b = a := by
  rw [UInt8.xor_assoc, UInt8.xor_self, UInt8.xor_zero]

theorem toy_laws : Laws toy where
  dec_enc k iv ad x := by
    have : (x.map (· ^^^ k.headD 7)).map (· ^^^ k.headD 7) = x := by
      rw [List.map_map]
      conv => rhs; rw [← List.map_id x]
      refine List.map_congr_left fun a _ => ?_
      exact xor_xor a _
    simp only [toy, this]
  enc_len k iv ad x := by simp [toy]
  tag_len k iv ad x := by simp [toy]
  pub_len k p h := by
    simp only [toy] at h
    by_cases hk : k.length = 32
    · rw [if_pos hk] at h; cases h; simp [hk]
    · rw [if_neg hk] at h; cases h
  pub_ok k p h := by
    simp only [toy] at h
    by_cases hk : k.length = 32
    · rw [if_pos hk] at h; cases h; simp [toy, hk]
    · rw [if_neg hk] at h; cases h
  hash_len p r u h := by
    simp only [toy] at h
    by_cases hk : p.length = 33
    · rw [if_pos hk] at h; cases h; simp [hk]
    · rw [if_neg hk] at h; cases h
  hash_inv p r u h := by
    simp only [toy] at h
    by_cases hk : p.length = 33
    · rw [if_pos hk] at h; cases h
      simp only [toy]
      rw [if_pos ⟨by simp [hk], by rw [List.drop_append, List.drop_of_length_le (by omega), hk]; rfl⟩,
        List.take_append_of_le_length (by omega), List.take_of_length_le (by omega)]
    · rw [if_neg hk] at h; cases h
  ecdh_symm a b pa pb h1 h2 := by
    simp only [toy] at h1 h2 ⊢
    by_cases ha : a.length = 32
    · by_cases hb : b.length = 32
      · rw [if_pos ha] at h1; rw [if_pos hb] at h2
        cases h1; cases h2
        rw [if_pos (by simp [ha, hb]), if_pos (by simp [ha, hb])]
        simp only [List.drop_succ_cons, List.drop_zero]
        rw [List.zipWith_comm_of_comm (fun x y => UInt8.xor_comm x y)]
      · rw [if_neg hb] at h2; cases h2
    · rw [if_neg ha] at h1; cases h1
  ecdh_def p k q h1 h2 := by
    simp only [toy] at h1 h2 ⊢
    by_cases hk : k.length = 32
    · rw [if_pos ⟨by simpa using h1, hk⟩]; simp
    · rw [if_neg hk] at h2; cases h2

/-- A key pair of the toy. -/
def toyKey (x : UInt8) : KeyPair :=
  ⟨List.replicate 32 x, 2 :: List.replicate 32 x, 2 :: List.replicate 32 x ++ List.replicate 31 0⟩

theorem toyKey_pub (x : UInt8) : toy.pubOf (toyKey x).priv = some (toyKey x).pub := by simp [toy, toyKey]

/-- A host that answers every message by its reverse as long as that is not empty; it starts
with a message of its own if `first`. -/
def toyEnv (x : UInt8) (first : Bool) (answers : Bool) : Env Unit where
  connectCb _ := if first then .write () [1, 2, 3] (fun _ _ => .ret ()) else .ret ()
  readCb _ d := if answers then .write () d.reverse (fun _ _ => .ret ()) else .ret ()
  writeCb _ _ := ((), 0)
  rand := ⟨some (toyKey x).priv, some []⟩

theorem toy_draws (x : UInt8) (f a : Bool) : Draws toy (toyEnv x f a).rand (toyKey x) :=
  ⟨rfl, toyKey_pub x, [], rfl, by simp [toy, toyKey]⟩

/-- Deliveries in odd pieces, and a write outside the callbacks. -/
def toyOps : List (NetOp Unit Unit) :=
  [.toR 7, .toI 5, .toR 500, .toI 33, .toI 100, .toR 64, .toR 3, .toR 500,
   .hostI (fun _ => .write () [9, 9] (fun _ _ => .ret ())), .toR 500, .toI 50, .toI 500]

/-- The whole story, with the laws discharged. -/
theorem toy_story : ∃ mi mr n, dial toy (toyEnv 3 true false) () (toyKey 1).priv (toyKey 2).pub = .ok mi ∧
    listen toy (toyEnv 4 false true) () (toyKey 2).priv = .ok mr ∧
    netRun toy (toyEnv 3 true false) (toyEnv 4 false true) toyOps ⟨mi, mr, 0, 0⟩ = .ok n ∧
    writes n.i.trace = [[1, 2, 3], [9, 9]] ∧ messages n.r.trace = [[1, 2, 3], [9, 9]] ∧
    writes n.r.trace = [[3, 2, 1], [9, 9]] ∧ messages n.i.trace = [[3, 2, 1], [9, 9]] ∧
    n.i.b.state = .done ∧ n.r.b.state = .done ∧ n.r.b.remoteStatic = (toyKey 1).pub ∧ Quiet n ∧
    Ev.closed ∉ n.i.trace ∧ Ev.closed ∉ n.r.trace := by
  obtain ⟨mi, h1, _⟩ := okWith_spec (p := fun _ => true)
    (r := dial toy (toyEnv 3 true false) () (toyKey 1).priv (toyKey 2).pub) (by decide +kernel)
  obtain ⟨mr, h2, _⟩ := okWith_spec (p := fun _ => true)
    (r := listen toy (toyEnv 4 false true) () (toyKey 2).priv) (by decide +kernel)
  obtain ⟨n, h3, h4⟩ := okWith_spec
    (p := fun (n : Net Unit Unit) => decide (writes n.i.trace = [[1, 2, 3], [9, 9]] ∧ messages n.r.trace = [[1, 2, 3], [9, 9]] ∧
      writes n.r.trace = [[3, 2, 1], [9, 9]] ∧ messages n.i.trace = [[3, 2, 1], [9, 9]] ∧
      n.i.b.state = .done ∧ n.r.b.state = .done ∧ n.r.b.remoteStatic = (toyKey 1).pub ∧
      (n.ci = (outs n.r.trace).length ∧ n.cr = (outs n.i.trace).length) ∧
      Ev.closed ∉ n.i.trace ∧ Ev.closed ∉ n.r.trace))
    (r := (dial toy (toyEnv 3 true false) () (toyKey 1).priv (toyKey 2).pub).bind fun mi =>
      (listen toy (toyEnv 4 false true) () (toyKey 2).priv).bind fun mr =>
        netRun toy (toyEnv 3 true false) (toyEnv 4 false true) toyOps ⟨mi, mr, 0, 0⟩) (by decide +kernel)
  rw [h1, h2] at h3
  have h5 := of_decide_eq_true h4
  exact ⟨mi, mr, n, h1, h2, h3, h5⟩

/-- The laws can be met, and the case above is one of C39. -/
example := C39_agree toy toy_laws (toyEnv 3 true false) (toyEnv 4 false true) (toyKey_pub 1) (toyKey_pub 2)
  (toy_draws 3 true false) (toy_draws 4 false true) () () toyOps

/-- The bytes the toy's initiator reads when the responder answers and says `[7]`. -/
def toyReply : Bytes :=
  match listen toy (toyEnv 4 false true) () (toyKey 2).priv,
      dial toy (toyEnv 3 true false) () (toyKey 1).priv (toyKey 2).pub with
  | .ok mr, .ok mi =>
    match netRun toy (toyEnv 3 true false) (toyEnv 4 false true)
        [.toR 500, .toI 500, .toR 500, .hostR (fun _ => .write () [7] (fun _ _ => .ret ()))] ⟨mi, mr, 0, 0⟩ with
    | .ok n => outs n.r.trace
    | _ => []
  | _, _ => []

/-- A case of `C37_split` and `C37_initiator` in which two messages are delivered; and with one
bit of the first message changed, none is, and the session is over. -/
theorem toy_reads : ∃ m0 m m', dial toy (toyEnv 3 true false) () (toyKey 1).priv (toyKey 2).pub = .ok m0 ∧
    run toy (toyEnv 3 true false) [.read (toyReply.take 90), .read (toyReply.drop 90)] m0 = .ok m ∧
    messages m.trace = [[3, 2, 1], [7]] ∧ m.b.state = .done ∧
    run toy (toyEnv 3 true false) [.read (toyReply.set 101 0)] m0 = .ok m' ∧
    messages m'.trace = [] ∧ m'.b.state = .none ∧ Ev.closed ∉ m'.trace := by
  obtain ⟨m0, h1, _⟩ := okWith_spec (p := fun _ => true)
    (r := dial toy (toyEnv 3 true false) () (toyKey 1).priv (toyKey 2).pub) (by decide +kernel)
  obtain ⟨m, h2, h3⟩ := okWith_spec (p := fun (m : M Unit) => decide (messages m.trace = [[3, 2, 1], [7]] ∧ m.b.state = .done))
    (r := (dial toy (toyEnv 3 true false) () (toyKey 1).priv (toyKey 2).pub).bind
      (run toy (toyEnv 3 true false) [.read (toyReply.take 90), .read (toyReply.drop 90)])) (by decide +kernel)
  obtain ⟨m', h4, h5⟩ := okWith_spec (p := fun (m : M Unit) => decide (messages m.trace = [] ∧ m.b.state = .none ∧ Ev.closed ∉ m.trace))
    (r := (dial toy (toyEnv 3 true false) () (toyKey 1).priv (toyKey 2).pub).bind
      (run toy (toyEnv 3 true false) [.read (toyReply.set 101 0)])) (by decide +kernel)
  rw [h1] at h2 h4
  have h3 := of_decide_eq_true h3
  exact ⟨m0, m, m', h1, h2, h3.1, h3.2, h4, of_decide_eq_true h5⟩

example {m0 m : M Unit} (h0 : dial toy (toyEnv 3 true false) () (toyKey 1).priv (toyKey 2).pub = .ok m0)
    (hr : run toy (toyEnv 3 true false) [.read (toyReply.take 90), .read (toyReply.drop 90)] m0 = .ok m) :=
  C37_initiator toy toy_laws.enc_len (toyEnv 3 true false) (s := toyKey 1) (rs := (toyKey 2).pub)
    (es := List.zipWith (· ^^^ ·) (List.replicate 32 2) (List.replicate 32 3)) (toyKey_pub 1) (toy_draws 3 true false)
    (by decide +kernel) h0 hr

/-- The hypothesis of `C38_distinct` can be met for all lengths: rotations that make the key
longer never cycle. -/
def longer : Prim := { toy with hkdf := fun k salt => (salt, 0 :: k) }

theorem longer_epoch (l : Line) (n : Nat) : (epoch longer l n).key.length = l.key.length + n := by
  induction n with
  | zero => rfl
  | succ n ih =>
    show (epoch longer l n).key.length + 1 = _
    rw [ih]; omega

example (l : Line) (n : Nat) : ((List.range n).map fun i => (keyAt longer l i, ivAt i)).Nodup :=
  C38_distinct longer l n fun a b h _ he => by
    have := congrArg List.length he
    rw [longer_epoch, longer_epoch] at this
    omega

/-- Two strings a thousand apart are under different keys but the same nonce. -/
example : keyAt longer ⟨[5], [6]⟩ 1000 = [0, 5] ∧ keyAt longer ⟨[5], [6]⟩ 999 = [5] ∧ ivAt 1000 = ivAt 0 := by decide +kernel

/-- The toy's decoder has gaps: 80 bytes without the padding are a case of `C60_false`. -/
example : ∃ m0, dial toy (toyEnv 3 true false) () (toyKey 1).priv (toyKey 2).pub = .ok m0 ∧
    run toy (toyEnv 3 true false) [.read (List.replicate 80 1)] m0 = .ub := by
  obtain ⟨m0, h1, h2⟩ := okWith_spec (p := fun m => m.b.state != .none)
    (r := dial toy (toyEnv 3 true false) () (toyKey 1).priv (toyKey 2).pub) (by decide +kernel)
  refine ⟨m0, h1, C60_false toy toy_laws.enc_len _ (toy_draws 3 true false) (s := toyKey 1) (rs := (toyKey 2).pub)
    (es := List.zipWith (· ^^^ ·) (List.replicate 32 2) (List.replicate 32 3)) (by decide +kernel) h1 (by simpa using h2) (by decide)
    (by decide +kernel)⟩

end Verif.Props.Brontide
