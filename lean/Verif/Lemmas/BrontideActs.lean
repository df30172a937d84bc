import Verif.Lemmas.BrontideSplit
/-
Helper lemmas: the three acts of the handshake against the equations of the protocol.
-/
namespace Verif.Brontide
open Verif.Spec.Brontide
variable {σ : Type}

/-- The object's symmetric state is `n`, `i` strings having been sealed under the key. -/
structure Sym (b : B) (n : Noise) (i : Nat) : Prop where
  h : b.digest = n.h
  ck : b.ck = n.ck
  key : b.cs.key = n.k
  iv : b.cs.iv = ivOf i
  nonce : b.cs.nonce = i

/-- Only the symmetric state changed. -/
def Same (b b' : B) : Prop := ∃ cs ck temp dg, b' = { b with cs := cs, ck := ck, temp := temp, digest := dg }

theorem Same.trans {a b c : B} (h : Same a b) (k : Same b c) : Same a c := by
  obtain ⟨_, _, _, _, rfl⟩ := h
  obtain ⟨_, _, _, _, rfl⟩ := k
  exact ⟨_, _, _, _, rfl⟩

/-- Encryption keeps the length. -/
def KeepsLength (P : Prim) : Prop := ∀ k iv ad x, (P.enc k iv ad x).1.length = x.length

theorem sym_edit {b : B} {n : Noise} {i : Nat} (h : Sym b n i) {b' : B} (h1 : b'.digest = b.digest)
    (h2 : b'.ck = b.ck) (h3 : b'.cs = b.cs) : Sym b' n i :=
  ⟨h1.trans h.h, h2.trans h.ck, h3 ▸ h.key, h3 ▸ h.iv, h3 ▸ h.nonce⟩

theorem sym_mix {P : Prim} {b : B} {n : Noise} {i : Nat} (h : Sym b n i) (x : Bytes) :
    Sym (mixHash P b x) (Noise.mix P n x) i ∧ Same b (mixHash P b x) := by
  refine ⟨⟨?_, h.ck, h.key, h.iv, h.nonce⟩, ⟨_, _, _, _, rfl⟩⟩
  unfold mixHash mixHashOf Noise.mix
  simp [h.h]

theorem sym_dh {P : Prim} {b : B} {n : Noise} {i : Nat} (h : Sym b n i) (s : Bytes) :
    Sym (mixKey P b s) (Noise.dh P n s) 0 ∧ Same b (mixKey P b s) := by
  have e : csInitKey b.cs (P.hkdf s b.ck).2 =
      { b.cs with key := (P.hkdf s b.ck).2, nonce := 0, iv := ivOf 0 } := by
    unfold csInitKey; rw [csUpdate_iv (n := i) (by exact h.iv)]
  refine ⟨⟨h.h, ?_, ?_, ?_, ?_⟩, ⟨_, _, _, _, rfl⟩⟩
  · unfold mixKey Noise.dh; dsimp only; rw [h.ck]
  · unfold mixKey Noise.dh; dsimp only; rw [e, h.ck]
  · unfold mixKey; dsimp only; rw [e]
  · unfold mixKey; dsimp only; rw [e]

/-- A step of the handshake's cipher, far from a rotation. -/
theorem step_sym {P : Prim} {cs : CS} {i : Nat} (hi : cs.iv = ivOf i) (hn : cs.nonce = i) (h : i < 900) :
    csStep P cs = { cs with nonce := i + 1, iv := ivOf (i + 1) } := by
  unfold csStep
  dsimp only
  rw [csUpdate_iv (n := i) (by exact hi)]
  dsimp only
  rw [hn, Nat.mod_eq_of_lt (by omega), if_neg (by unfold rotation; omega)]

theorem sym_enc {P : Prim} {b : B} {n : Noise} {i : Nat} (h : Sym b n i) (hi : i < 900) (x : Bytes) :
    Sym (bEncrypt P b x).1 (Noise.mix P n ((Noise.enc P n i x).1 ++ (Noise.enc P n i x).2)) (i + 1) ∧
    (bEncrypt P b x).2 = (Noise.enc P n i x).1 ∧ (bEncrypt P b x).1.cs.tag = (Noise.enc P n i x).2 ∧
    Same b (bEncrypt P b x).1 := by
  have e : csEncrypt P b.cs (some b.digest) x =
      ({ b.cs with tag := (Noise.enc P n i x).2, nonce := i + 1, iv := ivOf (i + 1) }, (Noise.enc P n i x).1) := by
    unfold csEncrypt Noise.enc
    dsimp only
    rw [step_sym (i := i) (by exact h.iv) (by exact h.nonce) hi, h.key, h.iv, h.h]
  unfold bEncrypt
  rw [e]
  dsimp only
  refine ⟨⟨?_, h.ck, h.key, rfl, rfl⟩, rfl, rfl, ⟨_, _, _, _, rfl⟩⟩
  unfold mixHashOf Noise.mix
  dsimp only
  rw [h.h, List.append_assoc]; rfl

theorem sym_dec {P : Prim} {b : B} {n : Noise} {i : Nat} (h : Sym b n i) (hi : i < 900) (c t : Bytes) :
    Sym (bDecrypt P b c t).1 (Noise.mix P n (c ++ t)) (i + 1) ∧
    Noise.dec P n i c t = (if csVerify (bDecrypt P b c t).1.cs t then some (bDecrypt P b c t).2 else none) ∧
    Same b (bDecrypt P b c t).1 := by
  have e : csDecrypt P b.cs (some b.digest) c =
      ({ b.cs with tag := (P.dec n.k (ivOf i) (some n.h) c).2, nonce := i + 1, iv := ivOf (i + 1) },
        (P.dec n.k (ivOf i) (some n.h) c).1) := by
    unfold csDecrypt
    dsimp only
    rw [step_sym (i := i) (by exact h.iv) (by exact h.nonce) hi, h.key, h.iv, h.h]
  unfold bDecrypt
  rw [e]
  dsimp only
  refine ⟨⟨?_, h.ck, h.key, rfl, rfl⟩, ?_, ⟨_, _, _, _, rfl⟩⟩
  · unfold mixHashOf Noise.mix
    dsimp only
    rw [h.h, List.append_assoc]; rfl
  · unfold Noise.dec csVerify
    dsimp only
    simp only [beq_iff_eq]

theorem need_eq_ok {α : Type} {x : Option α} {a : α} : need x = .ok a ↔ x = some a := by
  cases x <;> simp [need]

theorem enc_nil {P : Prim} (hl : KeepsLength P) (n : Noise) (i : Nat) : (Noise.enc P n i []).1 = [] :=
  List.eq_nil_of_length_eq_zero (hl _ _ _ _)

/-- A fresh ephemeral key, its secret and the empty sealed string. -/
theorem genEph_spec {P : Prim} (hl : KeepsLength P) {R : Rand} {b : B} {n : Noise} {i : Nat} {e : KeyPair} {ent s remote : Bytes}
    (h : Sym b n i) (h1 : R.priv = some e.priv) (h2 : P.pubOf e.priv = some e.pub) (h3 : R.entropy = some ent)
    (h4 : P.toHash e.pub ent = some e.uniform) (h5 : P.ecdh remote e.priv = some s) :
    ∃ b', genEph P R b remote = .ok (b', e.uniform ++ (Noise.enc P (ephemeral P n e.pub s) 0 []).2) ∧
      Sym b' (Noise.mix P (ephemeral P n e.pub s) (Noise.enc P (ephemeral P n e.pub s) 0 []).2) 1 ∧
      Same { b with localEph := e.priv } b' := by
  have a0 : Sym ({ b with localEph := e.priv } : B) n i := sym_edit h rfl rfl rfl
  have a1 := sym_mix (P := P) a0 e.pub
  have a2 := sym_dh (P := P) a1.1 s
  have a3 := sym_enc (P := P) a2.1 (by omega) []
  have hnil := enc_nil hl (ephemeral P n e.pub s) 0
  refine ⟨_, ?_, ?_, (a1.2.trans a2.2).trans a3.2.2.2⟩
  · unfold genEph
    rw [h1]
    simp only [need, Out.bind_ok]
    rw [h2]
    simp only [Out.bind_ok]
    rw [h3]
    simp only [Out.bind_ok]
    rw [h4]
    simp only [Out.bind_ok]
    have : (mixHash P ({ b with localEph := e.priv } : B) e.pub).localEph = e.priv := rfl
    rw [this, h5]
    simp only [Out.bind_ok, Out.pure_eq]
    rw [a3.2.2.1]; rfl
  · have := a3.1
    unfold ephemeral at hnil ⊢
    rw [hnil] at this
    exact this

/-- The lines the ciphers start on. -/
theorem split_spec {P : Prim} {b : B} {n : Noise} {i j k : Nat} (h : Sym b n i) (hs : b.send.iv = ivOf j) (hr : b.recv.iv = ivOf k) :
    (∃ s r, split P b = { b with send := s, recv := r }) ∧
    (b.initiator = true → At P (Noise.lines P n).1 0 (split P b).send ∧ At P (Noise.lines P n).2 0 (split P b).recv) ∧
    (b.initiator = false → At P (Noise.lines P n).2 0 (split P b).send ∧ At P (Noise.lines P n).1 0 (split P b).recv) := by
  unfold split Noise.lines
  dsimp only
  rw [← h.ck]
  cases hi : b.initiator
  · simp only [Bool.false_eq_true, if_false]
    exact ⟨⟨_, _, rfl⟩, fun h => by simp at h, fun _ => ⟨at_init P hs _ _, at_init P hr _ _⟩⟩
  · simp only [if_true]
    exact ⟨⟨_, _, rfl⟩, fun _ => ⟨at_init P hs _ _, at_init P hr _ _⟩, fun h => by simp at h⟩

/-- The initiator's phase after act one. -/
structure Two (b : B) (s e : KeyPair) (n : Noise) : Prop where
  state : b.state = .two
  init : b.initiator = true
  sym : Sym b n 1
  eph : b.localEph = e.priv
  stat : b.localStatic = s.priv
  send : b.send.iv = ivOf 0
  recv : b.recv.iv = ivOf 0
  size : b.hasSize = false
  need : b.need = 80

/-- Act two at the initiator, and its answer. -/
theorem two_spec {P : Prim} {E : Env σ} {m m' : M σ} {s e : KeyPair} {n : Noise} {msg : Bytes} {p : Parsed}
    (hs : P.pubOf s.priv = some s.pub) (h : Two m.b s e n)
    (hp : parse P E m msg = .ok (m', p)) :
    (∃ c, p = .fail c ∧ m'.trace = m.trace ∧ iThree P s e n msg = none) ∨
    (∃ r c, p = .fail c ∧ iThree P s e n msg = some r ∧ m'.trace = m.trace ++ [.out r.2 c] ∧ c ≠ 0) ∨
    (∃ r m1 hst, p = .next headerSize ∧ iThree P s e n msg = some r ∧ m' = runHost P E hst m1 ∧
      m1.trace = m.trace ++ [.out r.2 0, .connected] ∧ m1.b.state = .done ∧ m1.b.hasSize = false ∧
      At P r.1.2 0 m1.b.recv ∧ At P r.1.1 0 m1.b.send ∧ ∃ re, P.fromHash (msg.take 64) = some re ∧ m1.b.remoteEph = re) := by
  unfold parse at hp
  rw [h.init, h.state] at hp
  simp only at hp
  unfold parseTwo at hp
  by_cases hlen : msg.length ≠ actTwoSize
  · rw [if_pos hlen] at hp; cases hp
  rw [if_neg hlen] at hp
  obtain ⟨⟨b1, flag⟩, hr, hp⟩ := Out.bind_eq_ok.1 hp
  unfold recvActTwo at hr
  obtain ⟨re, hre, hr⟩ := Out.bind_eq_ok.1 hr
  rw [need_eq_ok] at hre
  dsimp only at hr
  by_cases hk : P.okKey re = true
  case neg =>
    rw [if_neg hk] at hr
    cases Out.ok.inj hr
    dsimp only at hp
    rw [if_pos rfl] at hp
    cases Out.ok.inj hp
    refine Or.inl ⟨_, rfl, rfl, ?_⟩
    unfold iThree
    rw [hre]
    simp only [Option.bind_eq_bind, Option.bind_some]
    rw [if_neg hk]
  rw [if_pos hk] at hr
  obtain ⟨ee, hee, hr⟩ := Out.bind_eq_ok.1 hr
  rw [need_eq_ok] at hee
  have hee' : P.ecdh re e.priv = some ee := by rw [← h.eph]; exact hee
  have a0 : Sym ({ m.b with remoteEph := re } : B) n 1 := sym_edit h.sym rfl rfl rfl
  have a1 := sym_mix (P := P) a0 re
  have a2 := sym_dh (P := P) a1.1 ee
  have a3 := sym_dec (P := P) a2.1 (by omega) [] (msg.drop 64)
  have same3 := (a1.2.trans a2.2).trans a3.2.2
  generalize hb2 : (bDecrypt P (mixKey P (mixHash P { m.b with remoteEph := re } re) ee) [] (msg.drop 64)) = d at a3 same3 hr
  cases Out.ok.inj hr
  dsimp only at hp
  have hI : iThree P s e n msg = (do
      let _ ← Noise.dec P (ephemeral P n re ee) 0 [] (msg.drop 64)
      let n := Noise.mix P (ephemeral P n re ee) (msg.drop 64)
      let c := Noise.enc P n 1 s.pub
      let n := Noise.mix P n (c.1 ++ c.2)
      let se ← P.ecdh re s.priv
      let n := Noise.dh P n se
      some (Noise.lines P n, c.1 ++ c.2 ++ (Noise.enc P n 0 []).2)) := by
    unfold iThree
    rw [hre]
    simp only [Option.bind_eq_bind, Option.bind_some]
    rw [if_pos hk, hee']
    simp only [Option.bind_some]
  have hdec : Noise.dec P (ephemeral P n re ee) 0 [] (msg.drop 64) =
      if csVerify d.1.cs (msg.drop 64) then some d.2 else none := a3.2.1
  by_cases hv : csVerify d.1.cs (msg.drop 64) = true
  case neg =>
    rw [if_pos (by simpa using hv)] at hp
    cases Out.ok.inj hp
    refine Or.inl ⟨_, rfl, rfl, ?_⟩
    rw [hI, hdec, if_neg hv]; rfl
  rw [if_neg (by simp [hv])] at hp
  obtain ⟨⟨b2, act⟩, hg, hp⟩ := Out.bind_eq_ok.1 hp
  obtain ⟨cs', ck', tp', dg', hd⟩ := same3
  have hst : d.1.localStatic = s.priv := by rw [hd]; exact h.stat
  have hrm : d.1.remoteEph = re := by rw [hd]
  unfold genActThree at hg
  rw [hst, hs] at hg
  simp only [Brontide.need, Out.bind_ok] at hg
  obtain ⟨se, hse, hg⟩ := Out.bind_eq_ok.1 hg
  have s3 : Sym d.1 (Noise.mix P (ephemeral P n re ee) (msg.drop 64)) 1 := a3.1
  have a4 := sym_enc (P := P) s3 (by omega) s.pub
  obtain ⟨c4, k4, t4, g4, e4⟩ := a4.2.2.2
  have hse' : P.ecdh re s.priv = some se := by
    have e1 : (bEncrypt P d.1 s.pub).1.remoteEph = re := by rw [e4]; exact hrm
    have e2 : (bEncrypt P d.1 s.pub).1.localStatic = s.priv := by rw [e4]; exact hst
    rw [e1, e2] at hse
    exact need_eq_ok.1 hse
  have a5 := sym_dh (P := P) a4.1 se
  have a6 := sym_enc (P := P) a5.1 (by omega) []
  obtain ⟨c6, k6, t6, g6, e6⟩ := (a4.2.2.2.trans a5.2).trans a6.2.2.2
  generalize hb6 : (bEncrypt P (mixKey P (bEncrypt P d.1 s.pub).1 se) []).1 = b6 at a6 e6 hg
  have hfin : b6.send.iv = ivOf 0 ∧ b6.recv.iv = ivOf 0 ∧ b6.initiator = true ∧ b6.hasSize = false ∧ b6.remoteEph = re := by
    rw [e6, hd]; exact ⟨h.send, h.recv, h.init, h.size, rfl⟩
  have hsp := split_spec (P := P) a6.1 hfin.1 hfin.2.1
  have hlines : iThree P s e n msg = some (Noise.lines P (Noise.dh P (Noise.mix P (Noise.mix P (ephemeral P n re ee) (msg.drop 64))
      ((Noise.enc P (Noise.mix P (ephemeral P n re ee) (msg.drop 64)) 1 s.pub).1 ++
        (Noise.enc P (Noise.mix P (ephemeral P n re ee) (msg.drop 64)) 1 s.pub).2)) se), act) := by
    rw [hI, hdec, if_pos hv]
    simp only [Option.bind_eq_bind, Option.bind_some, hse']
    have := (Out.ok.inj hg)
    rw [Prod.mk.injEq] at this
    rw [← this.2, a4.2.1, a4.2.2.1, a6.2.2.1]
  have hb2e : b2 = split P b6 := by
    have := (Out.ok.inj hg)
    rw [Prod.mk.injEq] at this
    exact this.1.symm
  dsimp only at hp
  generalize hw : emit E { m with b := b2 } act = w at hp
  have hw' : w.1.b = b2 ∧ w.1.trace = m.trace ++ [.out act w.2] := by rw [← hw]; exact ⟨rfl, rfl⟩
  by_cases h0 : w.2 = 0
  case neg =>
    rw [if_pos h0] at hp
    cases Out.ok.inj hp
    exact Or.inr (Or.inl ⟨_, w.2, rfl, hlines, hw'.2, h0⟩)
  rw [if_neg (by simp [h0])] at hp
  cases Out.ok.inj hp
  have hl2 := hsp.2.1 hfin.2.2.1
  obtain ⟨sx, rx, hsplit⟩ := hsp.1
  refine Or.inr (Or.inr ⟨_, ({ w.1 with b := { w.1.b with state := .done }, trace := w.1.trace ++ [.connected] } : M σ), _,
    rfl, hlines, rfl, ?_, rfl, ?_, ?_, ?_, re, hre, ?_⟩)
  · dsimp only; rw [hw'.2, h0]; simp
  · dsimp only; rw [hw'.1, hb2e, hsplit]; exact hfin.2.2.2.1
  · dsimp only; rw [hw'.1, hb2e]; exact hl2.2
  · dsimp only; rw [hw'.1, hb2e]; exact hl2.1
  · dsimp only; rw [hw'.1, hb2e, hsplit]; exact hfin.2.2.2.2

/-- The responder's phase before act one. -/
structure One (P : Prim) (b : B) (s : KeyPair) : Prop where
  state : b.state = .one
  init : b.initiator = false
  sym : Sym b (start P s.pub) 0
  stat : b.localStatic = s.priv
  send : b.send.iv = ivOf 0
  recv : b.recv.iv = ivOf 0
  size : b.hasSize = false
  need : b.need = 80

/-- The responder's phase before act three. -/
structure Three (b : B) (e : KeyPair) (n : Noise) : Prop where
  state : b.state = .three
  init : b.initiator = false
  sym : Sym b n 1
  eph : b.localEph = e.priv
  send : b.send.iv = ivOf 0
  recv : b.recv.iv = ivOf 0
  size : b.hasSize = false

/-- Act one at the responder, and its answer. -/
theorem one_spec {P : Prim} {E : Env σ} {m m' : M σ} {s e : KeyPair} {msg : Bytes} {p : Parsed}
    (hl : KeepsLength P) (he : Draws P E.rand e) (h : One P m.b s)
    (hp : parse P E m msg = .ok (m', p)) :
    (∃ c, p = .fail c ∧ m'.trace = m.trace ∧ rTwo P s e msg = none) ∨
    (∃ r c, p = .fail c ∧ rTwo P s e msg = some r ∧ m'.trace = m.trace ++ [.out r.2 c] ∧ c ≠ 0) ∨
    (∃ r, p = .next actThreeSize ∧ rTwo P s e msg = some r ∧ m'.trace = m.trace ++ [.out r.2 0] ∧ Three m'.b e r.1) := by
  unfold parse at hp
  rw [h.init, h.state] at hp
  simp only at hp
  unfold parseOne at hp
  by_cases hlen : msg.length ≠ actOneSize
  · rw [if_pos hlen] at hp; cases hp
  rw [if_neg hlen] at hp
  obtain ⟨⟨b1, flag⟩, hr, hp⟩ := Out.bind_eq_ok.1 hp
  unfold recvActOne at hr
  obtain ⟨ie, hre, hr⟩ := Out.bind_eq_ok.1 hr
  rw [need_eq_ok] at hre
  dsimp only at hr
  obtain ⟨es, hes, hr⟩ := Out.bind_eq_ok.1 hr
  rw [need_eq_ok] at hes
  have hes' : P.ecdh ie s.priv = some es := by rw [← h.stat]; exact hes
  have a0 : Sym ({ m.b with remoteEph := ie } : B) (start P s.pub) 0 := sym_edit h.sym rfl rfl rfl
  have a1 := sym_mix (P := P) a0 ie
  have a2 := sym_dh (P := P) a1.1 es
  have a3 := sym_dec (P := P) a2.1 (by omega) [] (msg.drop 64)
  have same3 := (a1.2.trans a2.2).trans a3.2.2
  generalize hb2 : (bDecrypt P (mixKey P (mixHash P { m.b with remoteEph := ie } ie) es) [] (msg.drop 64)) = d at a3 same3 hr
  cases Out.ok.inj hr
  dsimp only at hp
  have hI : rTwo P s e msg = (do
      let _ ← Noise.dec P (ephemeral P (start P s.pub) ie es) 0 [] (msg.drop 64)
      let n := Noise.mix P (ephemeral P (start P s.pub) ie es) (msg.drop 64)
      let ee ← P.ecdh ie e.priv
      let n := ephemeral P n e.pub ee
      let c := Noise.enc P n 0 []
      some (Noise.mix P n c.2, e.uniform ++ c.2)) := by
    unfold rTwo
    rw [hre]
    simp only [Option.bind_eq_bind, Option.bind_some]
    rw [hes']
    simp only [Option.bind_some]
  have hdec : Noise.dec P (ephemeral P (start P s.pub) ie es) 0 [] (msg.drop 64) =
      if csVerify d.1.cs (msg.drop 64) then some d.2 else none := a3.2.1
  by_cases hv : csVerify d.1.cs (msg.drop 64) = true
  case neg =>
    rw [if_pos (by simpa using hv)] at hp
    cases Out.ok.inj hp
    refine Or.inl ⟨_, rfl, rfl, ?_⟩
    rw [hI, hdec, if_neg hv]; rfl
  rw [if_neg (by simp [hv])] at hp
  obtain ⟨⟨b2, act⟩, hg, hp⟩ := Out.bind_eq_ok.1 hp
  obtain ⟨cs', ck', tp', dg', hd⟩ := same3
  have hrm : d.1.remoteEph = ie := by rw [hd]
  obtain ⟨hp1, hp2, ent, hp3, hp4⟩ := he
  have s3 : Sym d.1 (Noise.mix P (ephemeral P (start P s.pub) ie es) (msg.drop 64)) 1 := a3.1
  have hee : ∃ ee, P.ecdh ie e.priv = some ee := by
    unfold genActTwo genEph at hg
    rw [hp1] at hg
    simp only [Brontide.need, Out.bind_ok] at hg
    rw [hp2] at hg
    simp only [Out.bind_ok] at hg
    rw [hp3] at hg
    simp only [Out.bind_ok] at hg
    rw [hp4] at hg
    simp only [Out.bind_ok] at hg
    obtain ⟨x, hx, _⟩ := Out.bind_eq_ok.1 hg
    rw [hrm] at hx
    exact ⟨x, need_eq_ok.1 hx⟩
  obtain ⟨ee, hee⟩ := hee
  obtain ⟨b3, hb3, sy3, sm3⟩ := genEph_spec hl (remote := ie) s3 hp1 hp2 hp3 hp4 hee
  unfold genActTwo at hg
  rw [hrm, hb3] at hg
  cases Out.ok.inj hg
  have hlines : rTwo P s e msg = some
      (Noise.mix P (ephemeral P (Noise.mix P (ephemeral P (start P s.pub) ie es) (msg.drop 64)) e.pub ee)
        (Noise.enc P (ephemeral P (Noise.mix P (ephemeral P (start P s.pub) ie es) (msg.drop 64)) e.pub ee) 0 []).2,
       e.uniform ++ (Noise.enc P (ephemeral P (Noise.mix P (ephemeral P (start P s.pub) ie es) (msg.drop 64)) e.pub ee) 0 []).2) := by
    rw [hI, hdec, if_pos hv]
    simp only [Option.bind_eq_bind, Option.bind_some, hee]
  dsimp only at hp
  generalize hact : e.uniform ++ (Noise.enc P (ephemeral P (Noise.mix P (ephemeral P (start P s.pub) ie es) (msg.drop 64)) e.pub ee) 0 []).2 = act at hp hlines
  generalize hw : emit E { m with b := b2 } act = w at hp
  have hw' : w.1.b = b2 ∧ w.1.trace = m.trace ++ [.out act w.2] := by rw [← hw]; exact ⟨rfl, rfl⟩
  by_cases h0 : w.2 = 0
  case neg =>
    rw [if_pos h0] at hp
    cases Out.ok.inj hp
    exact Or.inr (Or.inl ⟨_, w.2, rfl, hlines, hw'.2, h0⟩)
  rw [if_neg (by simp [h0])] at hp
  cases Out.ok.inj hp
  obtain ⟨c6, k6, t6, g6, e6⟩ := sm3
  refine Or.inr (Or.inr ⟨_, rfl, hlines, by dsimp only; rw [hw'.2, h0], ?_⟩)
  refine ⟨rfl, ?_, ?_, ?_, ?_, ?_, ?_⟩
  · dsimp only; rw [hw'.1, e6, hd]; exact h.init
  · dsimp only
    refine sym_edit sy3 ?_ ?_ ?_ <;> dsimp only <;> rw [hw'.1]
  · dsimp only; rw [hw'.1, e6]
  · dsimp only; rw [hw'.1, e6, hd]; exact h.send
  · dsimp only; rw [hw'.1, e6, hd]; exact h.recv
  · dsimp only; rw [hw'.1, e6, hd]; exact h.size

/-- Act three at the responder. -/
theorem three_spec {P : Prim} {E : Env σ} {m m' : M σ} {e : KeyPair} {n : Noise} {msg : Bytes} {p : Parsed}
    (h : Three m.b e n) (hp : parse P E m msg = .ok (m', p)) :
    (∃ c, p = .fail c ∧ m'.trace = m.trace ∧ rDone P e n msg = none) ∨
    (∃ r m1 hst, p = .next headerSize ∧ rDone P e n msg = some r ∧ m' = runHost P E hst m1 ∧
      m1.trace = m.trace ++ [.connected] ∧ m1.b.state = .done ∧ m1.b.hasSize = false ∧
      At P r.1.1 0 m1.b.recv ∧ At P r.1.2 0 m1.b.send ∧ m1.b.remoteStatic = r.2) := by
  unfold parse at hp
  rw [h.init, h.state] at hp
  simp only at hp
  unfold parseThree at hp
  by_cases hlen : msg.length ≠ actThreeSize
  · rw [if_pos hlen] at hp; cases hp
  rw [if_neg hlen] at hp
  obtain ⟨⟨b1, flag⟩, hr, hp⟩ := Out.bind_eq_ok.1 hp
  unfold recvActThree at hr
  dsimp only at hr
  have a1 := sym_dec (P := P) h.sym (by omega) (msg.take 33) ((msg.drop 33).take 16)
  have same1 := a1.2.2
  generalize hb2 : bDecrypt P m.b (msg.take 33) ((msg.drop 33).take 16) = d at a1 same1 hr
  by_cases hv : csVerify d.1.cs ((msg.drop 33).take 16) = true
  case neg =>
    rw [if_neg hv] at hr
    cases Out.ok.inj hr
    dsimp only at hp
    rw [if_pos rfl] at hp
    cases Out.ok.inj hp
    refine Or.inl ⟨_, rfl, rfl, ?_⟩
    unfold rDone
    dsimp only
    rw [a1.2.1, if_neg hv]; rfl
  rw [if_pos hv] at hr
  obtain ⟨se, hse, hr⟩ := Out.bind_eq_ok.1 hr
  rw [need_eq_ok] at hse
  obtain ⟨cs', ck', tp', dg', hd⟩ := same1
  have hse' : P.ecdh d.2 e.priv = some se := by
    have : d.1.localEph = e.priv := by rw [hd]; exact h.eph
    rw [← this]; exact hse
  have a2 : Sym ({ d.1 with remoteStatic := d.2 } : B) _ 2 := sym_edit a1.1 rfl rfl rfl
  have a3 := sym_dh (P := P) a2 se
  have a4 := sym_dec (P := P) a3.1 (by omega) [] (msg.drop 49)
  obtain ⟨c6, k6, t6, g6, e6⟩ := a3.2.trans a4.2.2
  generalize hb4 : bDecrypt P (mixKey P { d.1 with remoteStatic := d.2 } se) [] (msg.drop 49) = d4 at a4 e6 hr
  have hI : rDone P e n msg = (do
      let n := Noise.dh P (Noise.mix P n (msg.take 33 ++ (msg.drop 33).take 16)) se
      let _ ← Noise.dec P n 0 [] (msg.drop 49)
      some (Noise.lines P n, d.2)) := by
    unfold rDone
    dsimp only
    rw [a1.2.1, if_pos hv]
    simp only [Option.bind_eq_bind, Option.bind_some]
    rw [hse']
    simp only [Option.bind_some]
  by_cases hv2 : csVerify d4.1.cs (msg.drop 49) = true
  case neg =>
    rw [if_neg hv2] at hr
    cases Out.ok.inj hr
    dsimp only at hp
    rw [if_pos rfl] at hp
    cases Out.ok.inj hp
    refine Or.inl ⟨_, rfl, rfl, ?_⟩
    rw [hI]
    simp only
    rw [a4.2.1, if_neg hv2]; rfl
  rw [if_pos hv2] at hr
  cases Out.ok.inj hr
  dsimp only at hp
  rw [if_neg (by simp)] at hp
  cases Out.ok.inj hp
  have hfin : d4.1.send.iv = ivOf 0 ∧ d4.1.recv.iv = ivOf 0 ∧ d4.1.initiator = false ∧ d4.1.hasSize = false ∧ d4.1.remoteStatic = d.2 := by
    rw [e6, hd]; exact ⟨h.send, h.recv, h.init, h.size, rfl⟩
  have hsp := split_spec (P := P) a4.1 hfin.1 hfin.2.1
  have hl2 := hsp.2.2 hfin.2.2.1
  obtain ⟨sx, rx, hsplit⟩ := hsp.1
  have hlines : rDone P e n msg = some
      (Noise.lines P (Noise.dh P (Noise.mix P n (msg.take 33 ++ (msg.drop 33).take 16)) se), d.2) := by
    rw [hI]
    simp only
    rw [a4.2.1, if_pos hv2]
    rfl
  refine Or.inr ⟨_, ({ m with b := { split P d4.1 with state := .done }, trace := m.trace ++ [.connected] } : M σ), _,
    rfl, hlines, rfl, rfl, rfl, ?_, hl2.2, hl2.1, ?_⟩
  · dsimp only; rw [hsplit]; exact hfin.2.2.2.1
  · dsimp only; rw [hsplit]; exact hfin.2.2.2.2

end Verif.Brontide
