import Verif.Lemmas.BrontideSession
/-
Helper lemmas: two honest ends and an unmodified channel.
-/
namespace Verif.Brontide
open Verif.Spec.Brontide
variable {σ : Type}

/-! ### Streams of packets -/

theorem sealed_length {P : Prim} (hL : Laws P) (l : Line) (i : Nat) (x : Bytes) : (sealed P l i x).length = x.length + 16 := by
  unfold sealed
  simp only [List.length_append, hL.enc_len, hL.tag_len]

theorem opened_sealed {P : Prim} (hL : Laws P) (l : Line) (i n : Nat) (x r : Bytes) (hn : x.length = n) :
    opened P l i ((sealed P l i x ++ r).take n) (((sealed P l i x ++ r).drop n).take 16) = some x := by
  have e : sealed P l i x = (P.enc (keyAt P l i) (ivAt i) none x).1 ++ (P.enc (keyAt P l i) (ivAt i) none x).2 := rfl
  have h1 := hL.enc_len (keyAt P l i) (ivAt i) none x
  have h2 := hL.tag_len (keyAt P l i) (ivAt i) none x
  have h3 := hL.dec_enc (keyAt P l i) (ivAt i) none x
  rw [e]
  generalize P.enc (keyAt P l i) (ivAt i) none x = c at h1 h2 h3
  have a1 : (c.1 ++ c.2 ++ r).take n = c.1 := by
    rw [List.append_assoc, List.take_append_of_le_length (by omega), List.take_of_length_le (by omega)]
  have a2 : ((c.1 ++ c.2 ++ r).drop n).take 16 = c.2 := by
    rw [List.append_assoc, List.drop_append, List.drop_of_length_le (by omega), List.nil_append]
    rw [show n - c.1.length = 0 by omega, List.drop_zero, List.take_append_of_le_length (by omega),
      List.take_of_length_le (by omega)]
  rw [a1, a2]
  unfold opened
  rw [h3]
  simp

theorem plain_prefix {P : Prim} (hL : Laws P) (l : Line) : ∀ (ms : List Bytes) (i : Nat) (p : Bytes),
    (∀ x ∈ ms, x.length ≤ maxSize) → p <+: packets P l i ms →
    ∃ ms', ms' <+: ms ∧ plain P l i p = (ms', true) ∧ (p = packets P l i ms → ms' = ms) := by
  intro ms
  induction ms with
  | nil =>
    intro i p _ hp
    have : p = [] := List.prefix_nil.1 hp
    subst this
    refine ⟨[], List.prefix_rfl, ?_, fun _ => rfl⟩
    unfold plain; rfl
  | cons x ms ih =>
    intro i p hs hp
    have hx : x.length ≤ maxSize := hs x (by simp)
    have lx := sealed_length hL l i (leBytes 4 x.length)
    have ly := sealed_length hL l (i + 1) x
    rw [leBytes_length] at lx
    have hlen : (packets P l i (x :: ms)).length = 20 + (x.length + 16) + (packets P l (i + 2) ms).length := by
      simp only [packets, packet, List.length_append]; omega
    by_cases h20 : p.length < 20
    · refine ⟨[], List.nil_prefix, ?_, fun e => ?_⟩
      · unfold plain; rw [dif_pos h20]
      · rw [e, hlen] at h20; omega
    obtain ⟨t, ht⟩ := hp
    have e1 : p = sealed P l i (leBytes 4 x.length) ++ p.drop 20 := by
      have := congrArg (List.take 20) ht
      rw [List.take_append_of_le_length (by omega)] at this
      simp only [packets, packet, List.append_assoc] at this
      rw [List.take_append_of_le_length (by omega), List.take_of_length_le (l := sealed P l i _) (by omega)] at this
      rw [← this, List.take_append_drop]
    have e2 : p.drop 20 ++ t = sealed P l (i + 1) x ++ packets P l (i + 2) ms := by
      have := congrArg (List.drop 20) ht
      rw [List.drop_append, show 20 - p.length = 0 by omega, List.drop_zero] at this
      simp only [packets, packet, List.append_assoc] at this
      rw [this, List.drop_append, List.drop_of_length_le (l := sealed P l i _) (by omega)]
      simp [lx]
    have hle : leNat (leBytes 4 x.length) = x.length := by
      rw [leNat_leBytes]; exact Nat.mod_eq_of_lt (by unfold maxSize at hx; omega)
    have hop : opened P l i (p.take 4) ((p.drop 4).take 16) = some (leBytes 4 x.length) := by
      have := opened_sealed hL l i 4 (leBytes 4 x.length) (p.drop 20) (leBytes_length _ _)
      rwa [← e1] at this
    unfold plain
    rw [dif_neg h20, hop]
    dsimp only
    rw [hle, if_neg (by omega)]
    by_cases hsz : (p.drop 20).length < x.length + 16
    · rw [if_pos hsz]
      refine ⟨[], List.nil_prefix, rfl, fun e => ?_⟩
      rw [e, List.length_drop, hlen] at hsz; omega
    rw [if_neg hsz]
    have e3 : p.drop 20 = sealed P l (i + 1) x ++ (p.drop 20).drop (x.length + 16) := by
      have := congrArg (List.take (x.length + 16)) e2
      rw [List.take_append_of_le_length (by omega), List.take_append_of_le_length (by omega),
        List.take_of_length_le (l := sealed P l (i + 1) x) (by omega)] at this
      rw [← this, List.take_append_drop]
    have hop2 : opened P l (i + 1) ((p.drop 20).take x.length) (((p.drop 20).drop x.length).take 16) = some x := by
      have := opened_sealed hL l (i + 1) x.length x ((p.drop 20).drop (x.length + 16)) rfl
      rwa [← e3] at this
    rw [hop2]
    dsimp only
    have e4 : (p.drop 20).drop (x.length + 16) ++ t = packets P l (i + 2) ms := by
      rw [e3, List.append_assoc] at e2
      exact List.append_cancel_left e2
    obtain ⟨ms', h1, h2, h3⟩ := ih (i + 2) _ (fun y hy => hs y (by simp [hy])) ⟨t, e4⟩
    refine ⟨x :: ms', ?_, by rw [h2], fun e => ?_⟩
    · exact (List.cons_prefix_cons).2 ⟨rfl, h1⟩
    · rw [h3]
      have : t = [] := by
        have hl := congrArg List.length ht
        rw [e, List.length_append] at hl
        exact List.eq_nil_of_length_eq_zero (by omega)
      rw [this, List.append_nil] at e4
      exact e4

/-! ### The three acts between honest ends -/

theorem dec_self {P : Prim} (hL : Laws P) (n : Noise) (i : Nat) (x : Bytes) :
    Noise.dec P n i (Noise.enc P n i x).1 (Noise.enc P n i x).2 = some x := by
  unfold Noise.dec Noise.enc
  rw [hL.dec_enc]
  simp

theorem keeps {P : Prim} (hL : Laws P) : KeepsLength P := hL.enc_len

theorem handshake {P : Prim} (hL : Laws P) {s r ei er : KeyPair} (hs : P.pubOf s.priv = some s.pub)
    (hr : P.pubOf r.priv = some r.pub) (hei : Genuine P ei) (her : Genuine P er) {es : Bytes}
    (hes : P.ecdh r.pub ei.priv = some es) :
    (iOne P ei r.pub es).2.length = 80 ∧
    ∃ n2, rTwo P r er (iOne P ei r.pub es).2 = some n2 ∧ n2.2.length = 80 ∧
    ∃ g, iThree P s ei (iOne P ei r.pub es).1 n2.2 = some g ∧ g.2.length = 65 ∧
      rDone P er n2.1 g.2 = some (g.1, s.pub) := by
  obtain ⟨hpi, ri, hui⟩ := hei
  obtain ⟨hpr, rr, hur⟩ := her
  have lui := hL.hash_len _ _ _ hui
  have lur := hL.hash_len _ _ _ hur
  have fui := hL.hash_inv _ _ _ hui
  have fur := hL.hash_inv _ _ _ hur
  -- the shared secrets
  have es' : P.ecdh ei.pub r.priv = some es := by rw [hL.ecdh_symm _ _ _ _ hpi hr]; exact hes
  obtain ⟨ee, hee⟩ := Option.ne_none_iff_exists'.1 (hL.ecdh_def er.pub ei.priv ei.pub (hL.pub_ok _ _ hpr) hpi)
  have ee' : P.ecdh ei.pub er.priv = some ee := by rw [hL.ecdh_symm _ _ _ _ hpi hpr]; exact hee
  obtain ⟨se, hse⟩ := Option.ne_none_iff_exists'.1 (hL.ecdh_def er.pub s.priv s.pub (hL.pub_ok _ _ hpr) hs)
  have se' : P.ecdh s.pub er.priv = some se := by rw [hL.ecdh_symm _ _ _ _ hs hpr]; exact hse
  -- act one
  unfold iOne
  dsimp only
  generalize hn1 : ephemeral P (start P r.pub) ei.pub es = n1
  have t1 : (Noise.enc P n1 0 []).2.length = 16 := hL.tag_len _ _ _ _
  have z1 := enc_nil (keeps hL) n1 0
  have d1 := dec_self hL n1 0 []
  rw [z1] at d1
  generalize (Noise.enc P n1 0 []).2 = c1 at t1 d1
  have k1 : (ei.uniform ++ c1).take 64 = ei.uniform := by
    rw [List.take_append_of_le_length (by omega), List.take_of_length_le (by omega)]
  have k2 : (ei.uniform ++ c1).drop 64 = c1 := by
    rw [List.drop_append, List.drop_of_length_le (by omega), lui]; rfl
  refine ⟨by simp only [List.length_append]; omega, ?_⟩
  -- act two
  unfold rTwo
  rw [k1, k2, fui]
  simp only [Option.bind_eq_bind, Option.bind_some]
  rw [es']
  simp only [Option.bind_some]
  rw [hn1, d1]
  simp only [Option.bind_some]
  rw [ee']
  simp only [Option.bind_some]
  generalize hn2 : ephemeral P (Noise.mix P n1 c1) er.pub ee = n2
  have t2 : (Noise.enc P n2 0 []).2.length = 16 := hL.tag_len _ _ _ _
  have z2 := enc_nil (keeps hL) n2 0
  have d2 := dec_self hL n2 0 []
  rw [z2] at d2
  generalize (Noise.enc P n2 0 []).2 = c2 at t2 d2
  refine ⟨_, rfl, by simp only [List.length_append]; omega, ?_⟩
  have k3 : (er.uniform ++ c2).take 64 = er.uniform := by
    rw [List.take_append_of_le_length (by omega), List.take_of_length_le (by omega)]
  have k4 : (er.uniform ++ c2).drop 64 = c2 := by
    rw [List.drop_append, List.drop_of_length_le (by omega), lur]; rfl
  -- act three
  unfold iThree
  dsimp only
  rw [k3, k4, fur]
  simp only [Option.bind_eq_bind, Option.bind_some]
  rw [if_pos (hL.pub_ok _ _ hpr), hee]
  simp only [Option.bind_some]
  rw [hn2, d2]
  simp only [Option.bind_some]
  rw [hse]
  simp only [Option.bind_some]
  generalize hn3 : Noise.mix P n2 c2 = n3
  have t3 : (Noise.enc P n3 1 s.pub).2.length = 16 := hL.tag_len _ _ _ _
  have l3 : (Noise.enc P n3 1 s.pub).1.length = 33 := (hL.enc_len _ _ _ _).trans (hL.pub_len _ _ hs)
  have d3 := dec_self hL n3 1 s.pub
  generalize Noise.enc P n3 1 s.pub = c3 at t3 l3 d3
  generalize hn4 : Noise.dh P (Noise.mix P n3 (c3.1 ++ c3.2)) se = n4
  have t4 : (Noise.enc P n4 0 []).2.length = 16 := hL.tag_len _ _ _ _
  have z4 := enc_nil (keeps hL) n4 0
  have d4 := dec_self hL n4 0 []
  rw [z4] at d4
  generalize (Noise.enc P n4 0 []).2 = c4 at t4 d4
  refine ⟨_, rfl, by simp only [List.length_append]; omega, ?_⟩
  dsimp only
  have q1 : (c3.1 ++ c3.2 ++ c4).take 33 = c3.1 := by
    rw [List.append_assoc, List.take_append_of_le_length (by omega), List.take_of_length_le (by omega)]
  have q0 : (c3.1 ++ c3.2 ++ c4).drop 33 = c3.2 ++ c4 := by
    rw [List.append_assoc, List.drop_append, List.drop_of_length_le (by omega), l3]; rfl
  have q2 : ((c3.1 ++ c3.2 ++ c4).drop 33).take 16 = c3.2 := by
    rw [q0, List.take_append_of_le_length (by omega), List.take_of_length_le (by omega)]
  have q3 : (c3.1 ++ c3.2 ++ c4).drop 49 = c4 := by
    rw [List.drop_append, List.drop_of_length_le (by simp only [List.length_append]; omega)]
    simp [l3, t3]
  unfold rDone
  rw [q1, q2, q3]
  dsimp only
  rw [d3]
  simp only [Option.bind_eq_bind, Option.bind_some]
  rw [se']
  simp only [Option.bind_some]
  rw [hn4, d4]
  simp only [Option.bind_some]

/-! ### When the acts are defined -/

theorem two_def {P : Prim} {E : Env σ} {m : M σ} {s e : KeyPair} {n : Noise} {msg re : Bytes}
    (hs : P.pubOf s.priv = some s.pub) (h : Two m.b s e n) (hl : msg.length = 80) (hre : P.fromHash (msg.take 64) = some re)
    (hd : P.okKey re = true → P.ecdh re e.priv ≠ none ∧ P.ecdh re s.priv ≠ none) :
    ∃ r, parse P E m msg = .ok r := by
  unfold parse
  rw [h.init, h.state]
  dsimp only
  unfold parseTwo
  rw [if_neg (by simp [hl, actTwoSize])]
  unfold recvActTwo
  rw [hre]
  simp only [need, Out.bind_ok]
  by_cases hk : P.okKey re = true
  case neg =>
    rw [if_neg hk]
    exact ⟨_, rfl⟩
  rw [if_pos hk]
  obtain ⟨ee, hee⟩ := Option.ne_none_iff_exists'.1 (hd hk).1
  obtain ⟨se, hse⟩ := Option.ne_none_iff_exists'.1 (hd hk).2
  rw [show P.ecdh (mixHash P { m.b with remoteEph := re } re).remoteEph (mixHash P { m.b with remoteEph := re } re).localEph = some ee by
    show P.ecdh re m.b.localEph = _; rw [h.eph]; exact hee]
  simp only [Out.bind_ok, Out.pure_eq]
  generalize hb : bDecrypt P (mixKey P (mixHash P { m.b with remoteEph := re } re) ee) [] (msg.drop 64) = d
  have e1 : d.1.localStatic = s.priv := by rw [← hb]; exact h.stat
  have e2 : d.1.remoteEph = re := by rw [← hb]; rfl
  by_cases hv : csVerify d.1.cs (msg.drop 64) = false
  · rw [if_pos hv]; exact ⟨_, rfl⟩
  rw [if_neg hv]
  unfold genActThree
  rw [e1, hs]
  simp only [need, Out.bind_ok]
  rw [show P.ecdh (bEncrypt P d.1 s.pub).1.remoteEph (bEncrypt P d.1 s.pub).1.localStatic = some se by
    show P.ecdh d.1.remoteEph d.1.localStatic = _; rw [e1, e2]; exact hse]
  simp only [Out.bind_ok, Out.pure_eq]
  generalize emit E _ _ = w
  by_cases h0 : w.2 ≠ 0
  · rw [if_pos h0]; exact ⟨_, rfl⟩
  · rw [if_neg h0]; exact ⟨_, rfl⟩

/-- A key that cannot be decoded is used all the same. -/
theorem two_undef {P : Prim} {E : Env σ} {m : M σ} {s e : KeyPair} {n : Noise} {msg : Bytes}
    (h : Two m.b s e n) (hre : P.fromHash (msg.take 64) = none) : parse P E m msg = .ub := by
  unfold parse
  rw [h.init, h.state]
  dsimp only
  unfold parseTwo
  by_cases hl : msg.length ≠ actTwoSize
  · rw [if_pos hl]
  rw [if_neg hl]
  unfold recvActTwo
  rw [hre]
  rfl

theorem genEph_def {P : Prim} {R : Rand} {b : B} {e : KeyPair} {remote : Bytes} (he : Draws P R e)
    (hd : P.ecdh remote e.priv ≠ none) : ∃ r, genEph P R b remote = .ok r := by
  obtain ⟨h1, h2, ent, h3, h4⟩ := he
  obtain ⟨s, hs⟩ := Option.ne_none_iff_exists'.1 hd
  unfold genEph
  rw [h1]
  simp only [need, Out.bind_ok]
  rw [h2]
  simp only [Out.bind_ok]
  rw [h3]
  simp only [Out.bind_ok]
  rw [h4]
  simp only [Out.bind_ok]
  rw [show P.ecdh remote (mixHash P { b with localEph := e.priv } e.pub).localEph = some s from hs]
  exact ⟨_, rfl⟩

theorem one_def {P : Prim} {E : Env σ} {m : M σ} {s e : KeyPair} {msg ie : Bytes}
    (he : Draws P E.rand e) (h : One P m.b s) (hl : msg.length = 80) (hie : P.fromHash (msg.take 64) = some ie)
    (hd1 : P.ecdh ie s.priv ≠ none) (hd2 : P.ecdh ie e.priv ≠ none) :
    ∃ r, parse P E m msg = .ok r := by
  unfold parse
  rw [h.init, h.state]
  dsimp only
  unfold parseOne
  rw [if_neg (by simp [hl, actOneSize])]
  unfold recvActOne
  rw [hie]
  simp only [need, Out.bind_ok]
  obtain ⟨es, hes⟩ := Option.ne_none_iff_exists'.1 hd1
  rw [show P.ecdh (mixHash P { m.b with remoteEph := ie } ie).remoteEph (mixHash P { m.b with remoteEph := ie } ie).localStatic = some es by
    show P.ecdh ie m.b.localStatic = _; rw [h.stat]; exact hes]
  simp only [Out.bind_ok, Out.pure_eq]
  generalize hb : bDecrypt P (mixKey P (mixHash P { m.b with remoteEph := ie } ie) es) [] (msg.drop 64) = d
  have e2 : d.1.remoteEph = ie := by rw [← hb]; rfl
  by_cases hv : csVerify d.1.cs (msg.drop 64) = false
  · rw [if_pos hv]; exact ⟨_, rfl⟩
  rw [if_neg hv]
  obtain ⟨g, hg⟩ := genEph_def (b := d.1) (remote := d.1.remoteEph) he (by rw [e2]; exact hd2)
  unfold genActTwo
  rw [hg]
  simp only [Out.bind_ok]
  generalize emit E _ _ = w
  by_cases h0 : w.2 ≠ 0
  · rw [if_pos h0]; exact ⟨_, rfl⟩
  · rw [if_neg h0]; exact ⟨_, rfl⟩

theorem three_def {P : Prim} {E : Env σ} {m : M σ} {e : KeyPair} {n : Noise} {msg : Bytes}
    (h : Three m.b e n) (hl : msg.length = 65)
    (hd : ∀ x, Noise.dec P n 1 (msg.take 33) ((msg.drop 33).take 16) = some x → P.ecdh x e.priv ≠ none) :
    ∃ r, parse P E m msg = .ok r := by
  unfold parse
  rw [h.init, h.state]
  dsimp only
  unfold parseThree
  rw [if_neg (by simp [hl, actThreeSize])]
  unfold recvActThree
  dsimp only
  have a1 := sym_dec (P := P) h.sym (by omega) (msg.take 33) ((msg.drop 33).take 16)
  obtain ⟨cs, ck, tp, dg, eb⟩ := a1.2.2
  generalize bDecrypt P m.b (msg.take 33) ((msg.drop 33).take 16) = d at a1 eb
  by_cases hv : csVerify d.1.cs ((msg.drop 33).take 16) = true
  case neg => rw [if_neg hv]; exact ⟨_, rfl⟩
  rw [if_pos hv]
  rw [if_pos hv] at a1
  obtain ⟨se, hse⟩ := Option.ne_none_iff_exists'.1 (hd _ a1.2.1)
  have : P.ecdh d.2 d.1.localEph = some se := by rw [eb]; dsimp only; rw [h.eph]; exact hse
  rw [this]
  simp only [need, Out.bind_ok, Out.pure_eq]
  generalize bDecrypt P _ [] _ = w
  by_cases h0 : csVerify w.1.cs (msg.drop 49) = true
  · rw [if_pos h0]; exact ⟨_, rfl⟩
  · rw [if_neg h0]; exact ⟨_, rfl⟩

theorem done_def {P : Prim} {E : Env σ} {lr : Line} {m1 : M σ} {fuel : Nat} {f : Host σ} {rest : Bytes}
    (h1 : m1.b.state = .done) (h2 : m1.b.hasSize = false) (h3 : At P lr 0 m1.b.recv) (hf : rest.length < fuel) :
    ∃ r, (if (runHost P E f m1).b.state = .none then (.ok (runHost P E f m1, 0) : Out Unit (M σ × Nat))
      else readLoop P E fuel { runHost P E f m1 with b := { (runHost P E f m1).b with buf := some [], need := headerSize } } [] rest) = .ok r := by
  have k := runHost_kept P E f m1
  generalize runHost P E f m1 = m2 at k
  obtain ⟨sd, st, eb⟩ := k.b
  by_cases hz : m2.b.state = .none
  · rw [if_pos hz]; exact ⟨_, rfl⟩
  rw [if_neg hz]
  have hd : m2.b.state = .done := by
    rcases k.state with h | h
    · rw [h, h1]
    · exact absurd h hz
  have hest : Est P lr 0 ({ m2 with b := { m2.b with buf := some [], need := headerSize } } : M σ) [] :=
    ⟨hd, by rw [eb]; exact h3, (by decide : 0 < headerSize), by dsimp only; rw [eb]; dsimp only; rw [h2]; rfl⟩
  obtain ⟨m', rc, h, _⟩ := readLoop_est (E := E) fuel _ [] rest 0 hf hest
  exact ⟨_, h⟩

theorem loop_two_def {P : Prim} {E : Env σ} {m : M σ} {s e : KeyPair} {n : Noise} {x data : Bytes}
    (hs : P.pubOf s.priv = some s.pub) (h : Waits2 m.b s e n x)
    (hd : 80 ≤ (x ++ data).length → ∃ re, P.fromHash ((x ++ data).take 64) = some re ∧
      (P.okKey re = true → P.ecdh re e.priv ≠ none ∧ P.ecdh re s.priv ≠ none)) :
    ∃ r, readLoop P E (data.length + 1) m x data = .ok r := by
  unfold readLoop
  rw [h.need]
  by_cases hn : 80 ≤ x.length + data.length
  case neg => rw [if_neg hn]; exact ⟨_, rfl⟩
  rw [if_pos hn, if_neg (by have := h.short; omega)]
  dsimp only
  obtain ⟨re, hre, hk⟩ := hd (by rw [List.length_append]; exact hn)
  have hl80 : (x ++ data.take (80 - x.length)).length = 80 := by
    have := h.short; simp only [List.length_append, List.length_take]; omega
  have hre' : P.fromHash ((x ++ data.take (80 - x.length)).take 64) = some re := by
    have : (x ++ data.take (80 - x.length)).take 64 = (x ++ data).take 64 := by
      have e : x ++ data = (x ++ data.take (80 - x.length)) ++ data.drop (80 - x.length) := by
        rw [List.append_assoc, List.take_append_drop]
      rw [e, List.take_append_of_le_length (l₂ := data.drop _) (by omega)]
    rw [this]; exact hre
  have hdrop : (data.drop (80 - x.length)).length < data.length := by
    have := h.short; rw [List.length_drop]; omega
  generalize x ++ data.take (80 - x.length) = msg at hl80 hre'
  generalize data.drop (80 - x.length) = rest at hdrop
  have h0 : Two ({ m with b := { m.b with buf := some msg } } : M σ).b s e n :=
    ⟨h.state, h.init, sym_edit h.sym rfl rfl rfl, h.eph, h.stat, h.send, h.recv, h.size, h.need⟩
  obtain ⟨⟨m', p⟩, hp⟩ := two_def (E := E) hs h0 hl80 hre' hk
  rw [hp]
  dsimp only [Out.bind]
  rcases two_spec hs h0 hp with ⟨c, rfl, _⟩ | ⟨g, c, rfl, _⟩ | ⟨g, m1, hst, rfl, hi, hm', htr, hd, hhs, hrc, hsd, _⟩
  · exact ⟨_, rfl⟩
  · exact ⟨_, rfl⟩
  · have h20 : headerSize ≠ 0 := by decide
    dsimp only
    rw [if_neg h20, hm']
    exact done_def hd hhs hrc hdrop

theorem loop_three_def {P : Prim} {E : Env σ} {m : M σ} {e : KeyPair} {n : Noise} {x data : Bytes} {fuel : Nat}
    (h : Waits3 m.b e n x)
    (hd : 65 ≤ (x ++ data).length → ∀ y, Noise.dec P n 1 (((x ++ data).take 65).take 33) ((((x ++ data).take 65).drop 33).take 16) = some y →
      P.ecdh y e.priv ≠ none) (hf : data.length < fuel) :
    ∃ r, readLoop P E fuel m x data = .ok r := by
  cases fuel with
  | zero => omega
  | succ fuel =>
  unfold readLoop
  rw [h.need]
  by_cases hn : 65 ≤ x.length + data.length
  case neg => rw [if_neg hn]; exact ⟨_, rfl⟩
  rw [if_pos hn, if_neg (by have := h.short; omega)]
  dsimp only
  have hd := hd (by rw [List.length_append]; exact hn)
  have hl : (x ++ data.take (65 - x.length)).length = 65 := by
    have := h.short; simp only [List.length_append, List.length_take]; omega
  have hm : (x ++ data).take 65 = x ++ data.take (65 - x.length) := by
    rw [List.take_append, List.take_of_length_le (l := x) (by have := h.short; omega)]
  rw [hm] at hd
  have hdrop : (data.drop (65 - x.length)).length < fuel := by
    have := h.short; rw [List.length_drop]; omega
  generalize x ++ data.take (65 - x.length) = msg at hl hd
  generalize data.drop (65 - x.length) = rest at hdrop
  have h0 : Three ({ m with b := { m.b with buf := some msg } } : M σ).b e n :=
    ⟨h.state, h.init, sym_edit h.sym rfl rfl rfl, h.eph, h.send, h.recv, h.size⟩
  obtain ⟨⟨m', p⟩, hp⟩ := three_def (E := E) h0 hl hd
  rw [hp]
  dsimp only [Out.bind]
  rcases three_spec h0 hp with ⟨c, rfl, _⟩ | ⟨g, m1, hst, rfl, hi, hm', htr, hd, hhs, hrc, hsd, _⟩
  · exact ⟨_, rfl⟩
  · have h20 : headerSize ≠ 0 := by decide
    dsimp only
    rw [if_neg h20, hm']
    exact done_def hd hhs hrc hdrop

/-- What a stream must be for the responder to be defined on it. -/
def OkR (P : Prim) (s e : KeyPair) (x : Bytes) : Prop :=
  (80 ≤ x.length → ∃ ie, P.fromHash (x.take 64) = some ie ∧ P.ecdh ie s.priv ≠ none ∧ P.ecdh ie e.priv ≠ none) ∧
  (145 ≤ x.length → ∀ n, rTwo P s e (x.take 80) = some n → ∀ y,
    Noise.dec P n.1 1 (((x.drop 80).take 65).take 33) ((((x.drop 80).take 65).drop 33).take 16) = some y → P.ecdh y e.priv ≠ none)

/-- … and the initiator. -/
def OkI (P : Prim) (s e : KeyPair) (x : Bytes) : Prop :=
  80 ≤ x.length → ∃ re, P.fromHash (x.take 64) = some re ∧
    (P.okKey re = true → P.ecdh re e.priv ≠ none ∧ P.ecdh re s.priv ≠ none)

theorem loop_one_def {P : Prim} {E : Env σ} {m : M σ} {s e : KeyPair} {x data : Bytes}
    (hl : KeepsLength P) (he : Draws P E.rand e) (h : Waits1 P m.b s x) (hd : OkR P s e (x ++ data)) :
    ∃ r, readLoop P E (data.length + 1) m x data = .ok r := by
  unfold readLoop
  rw [h.need]
  by_cases hn : 80 ≤ x.length + data.length
  case neg => rw [if_neg hn]; exact ⟨_, rfl⟩
  rw [if_pos hn, if_neg (by have := h.short; omega)]
  dsimp only
  obtain ⟨ie, hie, hk1, hk2⟩ := hd.1 (by rw [List.length_append]; exact hn)
  have hd2 := hd.2
  have hl80 : (x ++ data.take (80 - x.length)).length = 80 := by
    have := h.short; simp only [List.length_append, List.length_take]; omega
  have ex : x ++ data = (x ++ data.take (80 - x.length)) ++ data.drop (80 - x.length) := by
    rw [List.append_assoc, List.take_append_drop]
  rw [ex] at hie hd2
  have hdrop : (data.drop (80 - x.length)).length < data.length := by
    have := h.short; rw [List.length_drop]; omega
  generalize x ++ data.take (80 - x.length) = msg at hl80 hie hd2
  generalize data.drop (80 - x.length) = rest at hdrop hie hd2
  rw [List.take_append_of_le_length (by omega)] at hie
  rw [List.take_append_of_le_length (by omega), List.take_of_length_le (by omega), List.drop_append,
    List.drop_of_length_le (by omega), hl80, Nat.sub_self, List.drop_zero, List.nil_append, List.length_append] at hd2
  have h0 : One P ({ m with b := { m.b with buf := some msg } } : M σ).b s :=
    ⟨h.state, h.init, sym_edit h.sym rfl rfl rfl, h.stat, h.send, h.recv, h.size, h.need⟩
  obtain ⟨⟨m', p⟩, hp⟩ := one_def (E := E) he h0 hl80 hie hk1 hk2
  rw [hp]
  dsimp only [Out.bind]
  rcases one_spec hl he h0 hp with ⟨c, rfl, _⟩ | ⟨g, c, rfl, _⟩ | ⟨g, rfl, hi, htr, h3⟩
  · exact ⟨_, rfl⟩
  · exact ⟨_, rfl⟩
  · have h20 : actThreeSize ≠ 0 := by decide
    dsimp only
    rw [if_neg h20, if_neg (by rw [h3.state]; simp)]
    have hw : Waits3 ({ m' with b := { m'.b with buf := some [], need := actThreeSize } } : M σ).b e g.1 [] :=
      ⟨⟨h3.state, h3.init, sym_edit h3.sym rfl rfl rfl, h3.eph, h3.send, h3.recv, h3.size⟩, rfl, rfl, by decide⟩
    refine loop_three_def hw (fun h65 y hy => hd2 (by rw [hl80]; simp only [List.nil_append] at h65; omega) g hi y ?_) hdrop
    simpa using hy

theorem stepI_def {P : Prim} {E : Env σ} {s e : KeyPair} {n : Noise × Bytes} {x : Bytes} {m : M σ} {o : Op σ}
    (hs : P.pubOf s.priv = some s.pub) (h : InvI P s e n x m) (hd : OkI P s e (x ++ arrived [o])) :
    ∃ m', step P E m o = .ok m' := by
  cases o with
  | act f => exact ⟨_, rfl⟩
  | read d =>
    simp only [arrived, List.append_nil] at hd
    suffices h : ∃ r, onRead P E m d = .ok r by
      obtain ⟨r, hr⟩ := h
      exact ⟨r.1, by unfold step; dsimp only; rw [hr]; rfl⟩
    unfold onRead
    rcases h with ⟨hw, _⟩ | ⟨g, hg, hx, hlive⟩ | hdead
    · rw [if_neg (by rw [hw.state]; simp), hw.stored]
      exact loop_two_def hs hw hd
    · obtain ⟨i, buf, hb, he, _⟩ := hlive.hear
      rw [if_neg (by rw [he.done]; simp), hb]
      obtain ⟨m', rc, h, _⟩ := readLoop_est (E := E) (d.length + 1) m buf d i (by omega) he
      exact ⟨_, h⟩
    · rw [if_pos hdead.1]; exact ⟨_, rfl⟩

theorem stepR_def {P : Prim} {E : Env σ} {s e : KeyPair} {x : Bytes} {m : M σ} {o : Op σ}
    (hl : KeepsLength P) (he : Draws P E.rand e) (h : InvR P s e x m) (hd : OkR P s e (x ++ arrived [o])) :
    ∃ m', step P E m o = .ok m' := by
  cases o with
  | act f => exact ⟨_, rfl⟩
  | read d =>
    simp only [arrived, List.append_nil] at hd
    suffices h : ∃ r, onRead P E m d = .ok r by
      obtain ⟨r, hr⟩ := h
      exact ⟨r.1, by unfold step; dsimp only; rw [hr]; rfl⟩
    unfold onRead
    rcases h with ⟨hw, _⟩ | ⟨a, n, x', rfl, ha, hn, hw, _⟩ | ⟨a, n, g, x', rfl, ha, hn, hg, h65, hlive, hrs⟩ | hdead
    · rw [if_neg (by rw [hw.state]; simp), hw.stored]
      exact loop_one_def hl he hw hd
    · rw [if_neg (by rw [hw.state]; simp), hw.stored]
      have hd2 := hd.2
      rw [List.append_assoc, List.take_append_of_le_length (by omega), List.take_of_length_le (by omega), List.drop_append,
        List.drop_of_length_le (by omega), ha, Nat.sub_self, List.drop_zero, List.nil_append, List.length_append] at hd2
      exact loop_three_def hw (fun h65 y hy => hd2 (by omega) n hn y hy) (by omega)
    · obtain ⟨i, buf, hb, he, _⟩ := hlive.hear
      rw [if_neg (by rw [he.done]; simp), hb]
      obtain ⟨m', rc, h, _⟩ := readLoop_est (E := E) (d.length + 1) m buf d i (by omega) he
      exact ⟨_, h⟩
    · rw [if_pos hdead.1]; exact ⟨_, rfl⟩

end Verif.Brontide
