import Verif.Spec.Brontide
/-
Helper lemmas about the encrypted transport: cipher states along a line, the effect of the
host's calls, and the reading loop against the meaning of the stream.
-/
namespace Verif.Brontide
open Verif.Spec.Brontide

/-! ### Cipher states along a line -/

/-- The cipher state that is about to handle the `i`-th string of a line. -/
def At (P : Prim) (l : Line) (i : Nat) (cs : CS) : Prop :=
  cs.key = (epoch P l (i / 1000)).key ∧ cs.salt = (epoch P l (i / 1000)).salt ∧
  cs.nonce = i % 1000 ∧ cs.iv = ivAt i

theorem ivOf_take (n : Nat) : (ivOf n).take 4 = List.replicate 4 0 := by
  simp [ivOf, List.take_append]

theorem ivOf_drop (n : Nat) : (ivOf n).drop 8 = List.replicate 4 0 := by
  simp [ivOf, List.drop_append]

theorem csUpdate_iv {cs : CS} {n : Nat} (h : cs.iv = ivOf n) :
    csUpdate cs = { cs with iv := ivOf cs.nonce } := by
  unfold csUpdate
  rw [h, ivOf_take, ivOf_drop]
  rfl

theorem csInit_iv : csInit.iv = ivOf 0 := by decide

theorem at_init (P : Prim) {cs : CS} {n : Nat} (h : cs.iv = ivOf n) (salt key : Bytes) :
    At P ⟨key, salt⟩ 0 (csInitSaltkey cs salt key) := by
  unfold csInitSaltkey csInitKey
  rw [csUpdate_iv (n := n) (by exact h)]
  exact ⟨rfl, rfl, rfl, rfl⟩

theorem at_step {P : Prim} {l : Line} {i : Nat} {cs : CS} (h : At P l i cs) :
    At P l (i + 1) (csStep P cs) := by
  obtain ⟨h1, h2, h3, h4⟩ := h
  have hlt : (cs.nonce + 1) % 2 ^ 32 = i % 1000 + 1 := by
    rw [h3, Nat.mod_eq_of_lt]; have := Nat.mod_lt i (by decide : 1000 > 0); omega
  unfold csStep
  dsimp only
  rw [csUpdate_iv (n := i % 1000) (by exact h4)]
  dsimp only
  rw [hlt]
  by_cases hr : i % 1000 + 1 = rotation
  · rw [if_pos hr]
    unfold rotation at hr
    unfold csRotate csInitKey
    dsimp only
    rw [csUpdate_iv (n := i % 1000 + 1) rfl]
    have e1 : (i + 1) / 1000 = i / 1000 + 1 := by omega
    have e2 : (i + 1) % 1000 = 0 := by omega
    refine ⟨?_, ?_, ?_, ?_⟩
    · rw [e1]; dsimp only [epoch]; rw [h1, h2]
    · rw [e1]; dsimp only [epoch]; rw [h1, h2]
    · exact e2.symm
    · unfold ivAt; rw [e2]
  · rw [if_neg hr]
    unfold rotation at hr
    have e1 : (i + 1) / 1000 = i / 1000 := by omega
    have e2 : (i + 1) % 1000 = i % 1000 + 1 := by omega
    refine ⟨?_, ?_, ?_, ?_⟩
    · rw [e1]; exact h1
    · rw [e1]; exact h2
    · exact e2.symm
    · unfold ivAt; rw [e2]

theorem at_tag {P : Prim} {l : Line} {i : Nat} {cs : CS} (h : At P l i cs) (t : Bytes) :
    At P l i { cs with tag := t } := h

theorem at_encrypt {P : Prim} {l : Line} {i : Nat} {cs : CS} (h : At P l i cs) (ad : Option Bytes) (x : Bytes) :
    At P l (i + 1) (csEncrypt P cs ad x).1 := at_step (at_tag h _)

theorem at_decrypt {P : Prim} {l : Line} {i : Nat} {cs : CS} (h : At P l i cs) (ad : Option Bytes) (x : Bytes) :
    At P l (i + 1) (csDecrypt P cs ad x).1 := at_step (at_tag h _)

theorem csStep_tag (P : Prim) (cs : CS) : (csStep P cs).tag = cs.tag := by
  unfold csStep
  dsimp only
  by_cases h : (csUpdate { cs with nonce := (cs.nonce + 1) % 2 ^ 32 }).nonce = rotation
  · rw [if_pos h]; rfl
  · rw [if_neg h]; rfl

/-- Encrypting yields the sealed string of the line. -/
theorem encrypt_sealed {P : Prim} {l : Line} {i : Nat} {cs : CS} (h : At P l i cs) (x : Bytes) :
    (csEncrypt P cs none x).2 ++ (csEncrypt P cs none x).1.tag = sealed P l i x := by
  unfold csEncrypt sealed keyAt
  dsimp only
  rw [csStep_tag, h.1, h.2.2.2]

/-- Decrypting and verifying opens it. -/
theorem decrypt_opened {P : Prim} {l : Line} {i : Nat} {cs : CS} (h : At P l i cs) (c t : Bytes) :
    opened P l i c t = if csVerify (csDecrypt P cs none c).1 t then some (csDecrypt P cs none c).2 else none := by
  unfold csDecrypt opened keyAt csVerify
  dsimp only
  rw [csStep_tag, h.1, h.2.2.2]
  simp only [beq_iff_eq]

/-! ### The meaning of a stream, piece by piece -/

/-- A stream in which the length `n` of a message is known already. -/
def body (P : Prim) (l : Line) (i n : Nat) (s : Bytes) : List Bytes × Bool :=
  if s.length < n + 16 then ([], true)
  else
    match opened P l i (s.take n) ((s.drop n).take 16) with
    | none => ([], false)
    | some m => (m :: (plain P l (i + 1) (s.drop (n + 16))).1, (plain P l (i + 1) (s.drop (n + 16))).2)

theorem plain_eq (P : Prim) (l : Line) (i : Nat) (s : Bytes) :
    plain P l i s =
      if s.length < 20 then ([], true)
      else
        match opened P l i (s.take 4) ((s.drop 4).take 16) with
        | none => ([], false)
        | some x => if leNat x > maxSize then ([], false) else body P l (i + 1) (leNat x) (s.drop 20) := by
  rw [plain]
  by_cases h : s.length < 20
  · rw [dif_pos h, if_pos h]
  · rw [dif_neg h, if_neg h]
    cases opened P l i (s.take 4) ((s.drop 4).take 16) with
    | none => rfl
    | some x =>
      dsimp only
      by_cases h2 : leNat x > maxSize
      · rw [if_pos h2, if_pos h2]
      · rw [if_neg h2, if_neg h2]; rfl

/-! ### Events -/

theorem messages_append (a b : List Ev) : messages (a ++ b) = messages a ++ messages b := by
  induction a with
  | nil => rfl
  | cons e r ih => cases e <;> simp [messages, ih]

theorem writes_append (a b : List Ev) : writes (a ++ b) = writes a ++ writes b := by
  induction a with
  | nil => rfl
  | cons e r ih => cases e <;> simp [writes, ih]

theorem outs_append (a b : List Ev) : outs (a ++ b) = outs a ++ outs b := by
  induction a with
  | nil => rfl
  | cons e r ih => cases e <;> simp [outs, ih]

theorem cut_append {a : List Ev} (h : Cut a) (b : List Ev) : Cut (a ++ b) := by
  rcases h with h | ⟨d, r, h, hr⟩
  · exact Or.inl (List.mem_append_left _ h)
  · exact Or.inr ⟨d, r, List.mem_append_left _ h, hr⟩

theorem packets_append (P : Prim) (l : Line) (a b : List Bytes) (i : Nat) :
    packets P l i (a ++ b) = packets P l i a ++ packets P l (i + 2 * a.length) b := by
  induction a generalizing i with
  | nil => rfl
  | cons x r ih =>
    simp only [List.cons_append, packets, ih, List.length_cons, List.append_assoc]
    congr 3; omega

/-! ### What the host's calls leave alone -/

variable {σ : Type}

/-- From `m` to `m'` only the sending side, the host and the trace changed, and the session
may have been ended from this side. -/
structure Kept (m m' : M σ) : Prop where
  b : ∃ s st, m'.b = { m.b with send := s, state := st }
  state : m'.b.state = m.b.state ∨ m'.b.state = .none
  trace : ∃ t, m'.trace = m.trace ++ t ∧ messages t = [] ∧
    (m'.b.state ≠ m.b.state → Cut t) ∧ (m.b.state ≠ .done → writes t = [] ∧ outs t = [])

theorem Kept.refl (m : M σ) : Kept m m :=
  ⟨⟨m.b.send, m.b.state, rfl⟩, Or.inl rfl, [], by simp, rfl, fun h => absurd rfl h, fun _ => ⟨rfl, rfl⟩⟩

theorem Kept.trans {a b c : M σ} (h : Kept a b) (k : Kept b c) : Kept a c := by
  obtain ⟨⟨s1, t1, e1⟩, st1, tr1, f1, g1, c1, d1⟩ := h
  obtain ⟨⟨s2, t2, e2⟩, st2, tr2, f2, g2, c2, d2⟩ := k
  refine ⟨⟨s2, t2, by rw [e2, e1]⟩, ?_, tr1 ++ tr2, by rw [f2, f1, List.append_assoc], ?_, ?_, ?_⟩
  · rcases st2 with h | h
    · rw [h]; exact st1
    · exact Or.inr h
  · rw [messages_append, g1, g2]; rfl
  · intro hne
    by_cases hb : b.b.state = a.b.state
    · rw [hb] at c2
      rcases c2 hne with h | ⟨d, r, h, hr⟩
      · exact Or.inl (List.mem_append_right _ h)
      · exact Or.inr ⟨d, r, List.mem_append_right _ h, hr⟩
    · exact cut_append (c1 hb) _
  · intro hd
    have hb : b.b.state ≠ .done := by
      rcases st1 with h | h <;> rw [h]
      · exact hd
      · simp
    rw [writes_append, outs_append, (d1 hd).1, (d1 hd).2, (d2 hb).1, (d2 hb).2]
    exact ⟨rfl, rfl⟩

/-- The cases of `hsk_brontide_write`: it does nothing, or one of the four writes is the
last, or all succeed. -/
theorem bWrite_cases (P : Prim) (E : Env σ) (m : M σ) (data : Bytes) :
    (m.b.state ≠ .done ∧ bWrite P E m data = (m, 0)) ∨
    (m.b.state = .done ∧ ∃ s h t r, (bWrite P E m data).1 = ⟨{ m.b with send := s, state := .none }, h, m.trace ++ t⟩ ∧
      messages t = [] ∧ Cut t ∧ writes t = [data] ∧ r = (bWrite P E m data).2 ∧ r ≠ 0 ∧
      outs t <+: (csEncrypt P m.b.send none (leBytes 4 data.length)).2 ++
        (csEncrypt P m.b.send none (leBytes 4 data.length)).1.tag ++
        ((csEncrypt P (csEncrypt P m.b.send none (leBytes 4 data.length)).1 none data).2 ++
        (csEncrypt P (csEncrypt P m.b.send none (leBytes 4 data.length)).1 none data).1.tag)) ∨
    (m.b.state = .done ∧ ∃ h t, bWrite P E m data =
        (⟨{ m.b with send := (csEncrypt P (csEncrypt P m.b.send none (leBytes 4 data.length)).1 none data).1 }, h, m.trace ++ t⟩, 0) ∧
      messages t = [] ∧ writes t = [data] ∧
      outs t = (csEncrypt P m.b.send none (leBytes 4 data.length)).2 ++
        (csEncrypt P m.b.send none (leBytes 4 data.length)).1.tag ++
        ((csEncrypt P (csEncrypt P m.b.send none (leBytes 4 data.length)).1 none data).2 ++
        (csEncrypt P (csEncrypt P m.b.send none (leBytes 4 data.length)).1 none data).1.tag)) := by
  by_cases hd : m.b.state = .done
  case neg => exact Or.inl ⟨hd, by unfold bWrite; rw [if_pos hd]⟩
  refine Or.inr ?_
  unfold bWrite
  rw [if_neg (by simp [hd])]
  dsimp only
  generalize csEncrypt P m.b.send none (leBytes 4 data.length) = r1
  generalize hr2 : csEncrypt P r1.1 none data = r2
  unfold emit
  dsimp only
  generalize E.writeCb m.host r1.2 = w1
  by_cases h1 : w1.2 = 0
  case neg =>
    rw [if_pos h1]
    refine Or.inl ⟨hd, r1.1, w1.1, [.written data, .out r1.2 w1.2], w1.2, ?_, rfl, ?_, rfl, rfl, h1, ?_⟩
    · simp [destroy]
    · exact Or.inr ⟨r1.2, w1.2, by simp, h1⟩
    · simp [outs, h1]
  rw [if_neg (by simp [h1])]
  generalize E.writeCb w1.1 r1.1.tag = w2
  by_cases h2 : w2.2 = 0
  case neg =>
    rw [if_pos h2]
    refine Or.inl ⟨hd, r1.1, w2.1, [.written data, .out r1.2 w1.2, .out r1.1.tag w2.2], w2.2, ?_, rfl, ?_, rfl, rfl, h2, ?_⟩
    · simp [destroy]
    · exact Or.inr ⟨r1.1.tag, w2.2, by simp, h2⟩
    · simp [outs, h1, h2]
  rw [if_neg (by simp [h2])]
  rw [hr2]
  generalize E.writeCb w2.1 r2.2 = w3
  by_cases h3 : w3.2 = 0
  case neg =>
    rw [if_pos h3]
    refine Or.inl ⟨hd, r2.1, w3.1, [.written data, .out r1.2 w1.2, .out r1.1.tag w2.2, .out r2.2 w3.2], w3.2, ?_, rfl, ?_, rfl, rfl, h3, ?_⟩
    · simp [destroy]
    · exact Or.inr ⟨r2.2, w3.2, by simp, h3⟩
    · simp [outs, h1, h2, h3]
  rw [if_neg (by simp [h3])]
  generalize E.writeCb w3.1 r2.1.tag = w4
  by_cases h4 : w4.2 = 0
  case neg =>
    rw [if_pos h4]
    refine Or.inl ⟨hd, r2.1, w4.1, [.written data, .out r1.2 w1.2, .out r1.1.tag w2.2, .out r2.2 w3.2, .out r2.1.tag w4.2], w4.2, ?_, rfl, ?_, rfl, rfl, h4, ?_⟩
    · simp [destroy]
    · exact Or.inr ⟨r2.1.tag, w4.2, by simp, h4⟩
    · simp [outs, h1, h2, h3, h4]
  rw [if_neg (by simp [h4])]
  refine Or.inr ⟨hd, w4.1, [.written data, .out r1.2 w1.2, .out r1.1.tag w2.2, .out r2.2 w3.2, .out r2.1.tag w4.2], ?_, rfl, rfl, ?_⟩
  · simp
  · simp [outs, h1, h2, h3, h4]

theorem bWrite_kept (P : Prim) (E : Env σ) (m : M σ) (data : Bytes) : Kept m (bWrite P E m data).1 := by
  rcases bWrite_cases P E m data with ⟨_, h⟩ | ⟨hd, s, h, t, r, e, hm, hc, hw, _, _, ho⟩ | ⟨hd, h, t, e, hm, hw, ho⟩
  · rw [h]; exact Kept.refl m
  · rw [e]
    exact ⟨⟨s, .none, rfl⟩, Or.inr rfl, t, rfl, hm, fun _ => hc, fun k => absurd hd k⟩
  · rw [e]
    exact ⟨⟨_, m.b.state, rfl⟩, Or.inl rfl, t, rfl, hm, fun k => absurd rfl k, fun k => absurd hd k⟩

theorem kept_host {m m' : M σ} (s : σ) (h : Kept { m with host := s } m') : Kept m m' := ⟨h.1, h.2, h.3⟩

theorem kept_destroy (m : M σ) (s : σ) :
    Kept m { m with host := s, b := destroy m.b, trace := m.trace ++ [.closed] } :=
  ⟨⟨m.b.send, .none, rfl⟩, Or.inr rfl, [.closed], rfl, rfl, fun _ => Or.inl (by simp), fun _ => ⟨rfl, rfl⟩⟩

theorem runHost_kept (P : Prim) (E : Env σ) (h : Host σ) : ∀ m : M σ, Kept m (runHost P E h m) := by
  induction h with
  | ret s => intro m; unfold runHost; exact kept_host s (Kept.refl _)
  | write s data k ih =>
    intro m
    unfold runHost
    dsimp only
    exact (kept_host s (bWrite_kept P E _ data)).trans (ih _ _ _)
  | destroy s k ih =>
    intro m
    unfold runHost
    exact (kept_destroy m s).trans (ih _ _)

/-! ### Reading in an established session -/

/-- An established session about to handle the `i`-th string of the line it reads, `buf`
being stored. -/
structure Est (P : Prim) (l : Line) (i : Nat) (m : M σ) (buf : Bytes) : Prop where
  done : m.b.state = .done
  recv : At P l i m.b.recv
  room : buf.length < m.b.need
  size : if m.b.hasSize then 16 ≤ m.b.need else m.b.need = 20

/-- What the bytes stored and the bytes to come say in an established session. -/
def said (P : Prim) (l : Line) (i : Nat) (b : B) (s : Bytes) : List Bytes × Bool :=
  if b.hasSize then body P l i (b.need - 16) s else plain P l i s

/-- What became of a session that read `data`. -/
def Goes (P : Prim) (l : Line) (i : Nat) (m : M σ) (stored : Bytes) (m' : M σ) : Prop :=
  ∃ t, m'.trace = m.trace ++ t ∧
    ((∃ i' buf', m'.b.buf = some buf' ∧ Est P l i' m' buf' ∧
        ∀ s, said P l i m.b (stored ++ s) =
          (messages t ++ (said P l i' m'.b (buf' ++ s)).1, (said P l i' m'.b (buf' ++ s)).2)) ∨
     (m'.b.state = .none ∧ ∀ s, said P l i m.b (stored ++ s) = (messages t, false)) ∨
     (m'.b.state = .none ∧ Cut t ∧ ∀ s, messages t <+: (said P l i m.b (stored ++ s)).1))

/-- The piece handed to the parser, and what follows it. -/
theorem piece {buf data : Bytes} {n : Nat} (h1 : buf.length < n) (h2 : n ≤ buf.length + data.length) (s : Bytes) :
    (buf ++ data.take (n - buf.length)).length = n ∧
    buf ++ data ++ s = (buf ++ data.take (n - buf.length)) ++ (data.drop (n - buf.length) ++ s) := by
  constructor
  · simp only [List.length_append, List.length_take]; omega
  · rw [List.append_assoc, List.append_assoc, ← List.append_assoc (List.take _ _), List.take_append_drop]

theorem parse_done {P : Prim} {E : Env σ} {m : M σ} (h : m.b.state = .done) (data : Bytes) :
    parse P E m data = if m.b.hasSize then parseBody P E m data else parseHeader P m data := by
  unfold parse
  rw [h]
  cases m.b.initiator <;> rfl

theorem header_spec {P : Prim} {E : Env σ} {l : Line} {i : Nat} {m : M σ} {msg : Bytes}
    (hd : m.b.state = .done) (hr : At P l i m.b.recv) (hs : m.b.hasSize = false) (hl : msg.length = 20) :
    (∃ m' c, parse P E m msg = .ok (m', .fail c) ∧ m'.trace = m.trace ∧
      ∀ s, plain P l i (msg ++ s) = ([], false)) ∨
    (∃ m' n, parse P E m msg = .ok (m', .next (n + 16)) ∧ m'.trace = m.trace ∧ m'.b.state = .done ∧
      m'.b.hasSize = true ∧ At P l (i + 1) m'.b.recv ∧
      ∀ s, plain P l i (msg ++ s) = body P l (i + 1) n s) := by
  rw [parse_done hd, hs]
  have e1 : ∀ s, ¬ (msg ++ s).length < 20 := by intro s; simp only [List.length_append]; omega
  have e2 : ∀ s, (msg ++ s).take 4 = msg.take 4 := fun s => List.take_append_of_le_length (by omega)
  have e3 : ∀ s, ((msg ++ s).drop 4).take 16 = msg.drop 4 := by
    intro s
    rw [List.drop_append_of_le_length (by omega), List.take_append_of_le_length (by simp; omega),
      List.take_of_length_le (by simp; omega)]
  have e4 : ∀ s, (msg ++ s).drop 20 = s := by
    intro s; rw [List.drop_append, List.drop_of_length_le (by omega), hl]; rfl
  have hp : ∀ s, plain P l i (msg ++ s) =
      match opened P l i (msg.take 4) (msg.drop 4) with
      | none => ([], false)
      | some x => if leNat x > maxSize then ([], false) else body P l (i + 1) (leNat x) s := by
    intro s; rw [plain_eq, if_neg (e1 s), e2, e3, e4]
  rw [decrypt_opened hr] at hp
  have hstep := at_decrypt hr none (msg.take 4)
  simp only [Bool.false_eq_true, if_false]
  unfold parseHeader
  rw [if_neg (by unfold headerSize; omega)]
  dsimp only
  generalize csDecrypt P m.b.recv none (msg.take 4) = r at hp hstep ⊢
  by_cases hv : csVerify r.1 (msg.drop 4) = true
  case neg =>
    rw [if_pos (by simpa using hv)]
    refine Or.inl ⟨_, _, rfl, rfl, fun s => ?_⟩
    rw [hp s, if_neg hv]
  rw [if_neg (by simp [hv])]
  rw [if_pos hv] at hp
  by_cases hb : 2 ^ 31 ≤ leNat r.2 ∨ maxMessage < leNat r.2
  · rw [if_pos hb]
    refine Or.inl ⟨_, _, rfl, rfl, fun s => ?_⟩
    rw [hp s]; dsimp only; rw [if_pos]; unfold maxMessage at hb; unfold maxSize; omega
  · rw [if_neg hb]
    refine Or.inr ⟨_, leNat r.2, rfl, rfl, hd, rfl, hstep, fun s => ?_⟩
    rw [hp s]; dsimp only; rw [if_neg]; unfold maxMessage at hb; unfold maxSize; omega

theorem body_spec {P : Prim} {E : Env σ} {l : Line} {i : Nat} {m : M σ} {msg : Bytes}
    (hd : m.b.state = .done) (hr : At P l i m.b.recv) (hs : m.b.hasSize = true) (hl : 16 ≤ msg.length) :
    (∃ m' c, parse P E m msg = .ok (m', .fail c) ∧ m'.trace = m.trace ∧
      ∀ s, body P l i (msg.length - 16) (msg ++ s) = ([], false)) ∨
    (∃ m1 m' x, parse P E m msg = .ok (m', .next headerSize) ∧ Kept m1 m' ∧ m1.trace = m.trace ++ [.message x] ∧
      m1.b.state = .done ∧ m1.b.hasSize = false ∧ At P l (i + 1) m1.b.recv ∧
      ∀ s, body P l i (msg.length - 16) (msg ++ s) =
        (x :: (plain P l (i + 1) s).1, (plain P l (i + 1) s).2)) := by
  rw [parse_done hd, if_pos hs]
  have e1 : ∀ s, ¬ (msg ++ s).length < (msg.length - 16) + 16 := by intro s; simp only [List.length_append]; omega
  have e2 : ∀ s, (msg ++ s).take (msg.length - 16) = msg.take (msg.length - 16) :=
    fun s => List.take_append_of_le_length (by omega)
  have e3 : ∀ s, ((msg ++ s).drop (msg.length - 16)).take 16 = msg.drop (msg.length - 16) := by
    intro s
    rw [List.drop_append_of_le_length (by omega), List.take_append_of_le_length (by simp; omega),
      List.take_of_length_le (by simp; omega)]
  have e4 : ∀ s, (msg ++ s).drop ((msg.length - 16) + 16) = s := by
    intro s; rw [Nat.sub_add_cancel hl]; simp
  have hp : ∀ s, body P l i (msg.length - 16) (msg ++ s) =
      match opened P l i (msg.take (msg.length - 16)) (msg.drop (msg.length - 16)) with
      | none => ([], false)
      | some x => (x :: (plain P l (i + 1) s).1, (plain P l (i + 1) s).2) := by
    intro s; unfold body; rw [if_neg (e1 s), e2, e3, e4]
  rw [decrypt_opened hr] at hp
  have hstep := at_decrypt hr none (msg.take (msg.length - 16))
  unfold parseBody
  rw [if_neg (by omega)]
  dsimp only
  generalize csDecrypt P m.b.recv none (msg.take (msg.length - 16)) = r at hp hstep ⊢
  by_cases hv : csVerify r.1 (msg.drop (msg.length - 16)) = true
  case neg =>
    rw [if_pos (by simpa using hv)]
    refine Or.inl ⟨_, _, rfl, rfl, fun s => ?_⟩
    rw [hp s, if_neg hv]
  rw [if_neg (by simp [hv])]
  rw [if_pos hv] at hp
  refine Or.inr ⟨_, _, r.2, rfl, runHost_kept P E _ _, rfl, hd, rfl, hstep, fun s => ?_⟩
  rw [hp s]

/-- The reading loop in an established session does what the stream says. -/
theorem readLoop_est {P : Prim} {E : Env σ} {l : Line} : ∀ (fuel : Nat) (m : M σ) (buf data : Bytes) (i : Nat),
    data.length < fuel → Est P l i m buf →
    ∃ m' rc, readLoop P E fuel m buf data = .ok (m', rc) ∧ Goes P l i m (buf ++ data) m' := by
  intro fuel
  induction fuel with
  | zero => intro m buf data i h; omega
  | succ fuel ih =>
    intro m buf data i hf he
    unfold readLoop
    by_cases hn : m.b.need ≤ buf.length + data.length
    case neg =>
      rw [if_neg hn]
      refine ⟨_, _, rfl, [], by simp, Or.inl ⟨i, buf ++ data, rfl, ⟨he.done, he.recv, ?_, he.size⟩, fun s => ?_⟩⟩
      · simp only [List.length_append]; omega
      · simp only [messages, List.nil_append]; rfl
    rw [if_pos hn, if_neg (by have := he.room; omega)]
    dsimp only
    have hpc := fun s => (piece he.room hn s).2
    have hlen := (piece he.room hn []).1
    have hdrop : (data.drop (m.b.need - buf.length)).length < fuel := by
      have := he.room; rw [List.length_drop]; omega
    generalize data.drop (m.b.need - buf.length) = rest at hpc hdrop ⊢
    generalize buf ++ data.take (m.b.need - buf.length) = msg at hpc hlen ⊢
    generalize hm0 : ({ m with b := { m.b with buf := some msg } } : M σ) = m0
    have h0 : m0.b.state = .done := by rw [← hm0]; exact he.done
    have h1 : At P l i m0.b.recv := by rw [← hm0]; exact he.recv
    have h2 : m0.trace = m.trace := by rw [← hm0]
    have h3 : m0.b.hasSize = m.b.hasSize := by rw [← hm0]
    by_cases hs : m.b.hasSize = true
    · -- a message
      have hsz : 16 ≤ m.b.need := by have := he.size; rw [if_pos hs] at this; exact this
      rcases body_spec (E := E) h0 h1 (h3.trans hs) (by omega : 16 ≤ msg.length) with
        ⟨m', c, hp, ht, hsay⟩ | ⟨m1, m', x, hp, hk, ht, hst, hhs, hrc, hsay⟩
      · rw [hp]
        refine ⟨_, _, rfl, [], by simp [ht, h2], Or.inr (Or.inl ⟨rfl, fun s => ?_⟩)⟩
        rw [hpc, said, if_pos hs, ← hlen]
        exact hsay _
      · rw [hp]
        show ∃ m'' rc, (if m'.b.state = .none then (Out.ok (m', 0) : Out Unit (M σ × Nat)) else
          if headerSize = 0 then .ub else
          readLoop P E fuel { m' with b := { m'.b with buf := some [], need := headerSize } } [] rest) = .ok (m'', rc) ∧ _
        obtain ⟨⟨sd, st, eb⟩, hstate, t, et, em, ec, _⟩ := hk
        have htr : m'.trace = m.trace ++ (.message x :: t) := by rw [et, ht, h2, List.append_assoc]; rfl
        by_cases hz : m'.b.state = .none
        · rw [if_pos hz]
          refine ⟨_, _, rfl, _, htr, Or.inr (Or.inr ⟨hz, ?_, fun s => ?_⟩)⟩
          · have := ec (by rw [hz, hst]; simp)
            rcases this with h | ⟨d, r, h, hr⟩
            · exact Or.inl (List.mem_cons_of_mem _ h)
            · exact Or.inr ⟨d, r, List.mem_cons_of_mem _ h, hr⟩
          · rw [hpc, said, if_pos hs, ← hlen, hsay]
            simp [messages, em]
        · rw [if_neg hz, if_neg (by decide)]
          have hdone : m'.b.state = .done := by
            rcases hstate with h | h
            · rw [h, hst]
            · exact absurd h hz
          obtain ⟨m'', rc, hrl, t2, et2, hg⟩ := ih { m' with b := { m'.b with buf := some [], need := headerSize } } [] rest (i + 1) hdrop
            ⟨hdone, by rw [eb]; exact hrc, (by decide : 0 < headerSize), by
              dsimp only
              rw [eb]; dsimp only; rw [hhs]; rfl⟩
          have hss : ∀ s, said P l (i + 1) { m'.b with buf := some [], need := headerSize } s = plain P l (i + 1) s := by
            intro s; unfold said; rw [eb]; dsimp only; rw [hhs]; rfl
          refine ⟨m'', rc, hrl, .message x :: t ++ t2, ?_, ?_⟩
          · rw [et2]; dsimp only; rw [htr, List.append_assoc]
          · have emt : messages (.message x :: t ++ t2) = x :: messages t2 := by
              rw [messages_append]; simp [messages, em]
            have hms : ∀ s, said P l i m.b (buf ++ data ++ s) =
                (x :: (plain P l (i + 1) (rest ++ s)).1, (plain P l (i + 1) (rest ++ s)).2) := by
              intro s; rw [hpc, said, if_pos hs, ← hlen, hsay]
            rw [emt]
            rcases hg with ⟨i', buf', hb', he', hsay'⟩ | ⟨hz', hsay'⟩ | ⟨hz', hc', hsay'⟩
            · refine Or.inl ⟨i', buf', hb', he', fun s => ?_⟩
              have := hsay' s; rw [hss] at this
              rw [hms, show rest ++ s = ([] ++ rest ++ s) from rfl, this]; rfl
            · refine Or.inr (Or.inl ⟨hz', fun s => ?_⟩)
              have := hsay' s; rw [hss] at this
              rw [hms, show rest ++ s = ([] ++ rest ++ s) from rfl, this]
            · refine Or.inr (Or.inr ⟨hz', ?_, fun s => ?_⟩)
              · rcases hc' with h | ⟨d, r, h, hr⟩
                · exact Or.inl (List.mem_append_right _ h)
                · exact Or.inr ⟨d, r, List.mem_append_right _ h, hr⟩
              · have := hsay' s; rw [hss] at this
                rw [hms, List.cons_prefix_cons]
                exact ⟨rfl, this⟩
    · -- a header
      have hs' : m.b.hasSize = false := by simpa using hs
      have hsz : m.b.need = 20 := by have := he.size; rw [if_neg hs] at this; exact this
      rcases header_spec (E := E) h0 h1 (h3.trans hs') (by omega : msg.length = 20) with
        ⟨m', c, hp, ht, hsay⟩ | ⟨m', n, hp, ht, hst, hhs, hrc, hsay⟩
      · rw [hp]
        refine ⟨_, _, rfl, [], by simp [ht, h2], Or.inr (Or.inl ⟨rfl, fun s => ?_⟩)⟩
        rw [hpc, said, if_neg hs]
        exact hsay _
      · rw [hp]
        show ∃ m'' rc, (if m'.b.state = .none then (Out.ok (m', 0) : Out Unit (M σ × Nat)) else
          if n + 16 = 0 then .ub else
          readLoop P E fuel { m' with b := { m'.b with buf := some [], need := n + 16 } } [] rest) = .ok (m'', rc) ∧ _
        rw [if_neg (by rw [hst]; simp), if_neg (by omega)]
        obtain ⟨m'', rc, hrl, t2, et2, hg⟩ := ih { m' with b := { m'.b with buf := some [], need := n + 16 } } [] rest (i + 1) hdrop
          ⟨hst, hrc, by simp, by dsimp only; rw [hhs]; simp⟩
        have hss : ∀ s, said P l (i + 1) { m'.b with buf := some [], need := n + 16 } s = body P l (i + 1) n s := by
          intro s; unfold said; dsimp only; rw [hhs]; rfl
        have hms : ∀ s, said P l i m.b (buf ++ data ++ s) = body P l (i + 1) n ([] ++ rest ++ s) := by
          intro s; rw [hpc, said, if_neg hs, hsay]; rfl
        refine ⟨m'', rc, hrl, t2, ?_, ?_⟩
        · rw [et2]; dsimp only; rw [ht, h2]
        · simp only [hss] at hg
          simp only [hms]
          exact hg

/-! ### Sending -/

/-- What was sent of what was handed in. -/
structure Sends (P : Prim) (l : Line) (pre : Bytes) (m : M σ) : Prop where
  at_ : m.b.state = .done → At P l (2 * (writes m.trace).length) m.b.send
  le : outs m.trace <+: pre ++ packets P l 0 (writes m.trace)
  eq : outs m.trace = pre ++ packets P l 0 (writes m.trace) ∨ (m.b.state = .none ∧ Cut m.trace)

theorem packet_eq {P : Prim} {l : Line} {i : Nat} {cs : CS} (h : At P l i cs) (data : Bytes) :
    (csEncrypt P cs none (leBytes 4 data.length)).2 ++ (csEncrypt P cs none (leBytes 4 data.length)).1.tag ++
      ((csEncrypt P (csEncrypt P cs none (leBytes 4 data.length)).1 none data).2 ++
        (csEncrypt P (csEncrypt P cs none (leBytes 4 data.length)).1 none data).1.tag) =
    packet P l i data := by
  rw [encrypt_sealed h, encrypt_sealed (at_encrypt h none _)]; rfl

theorem packets_snoc (P : Prim) (l : Line) (ms : List Bytes) (x : Bytes) :
    packets P l 0 (ms ++ [x]) = packets P l 0 ms ++ packet P l (2 * ms.length) x := by
  rw [packets_append]; simp [packets]

theorem bWrite_sends {P : Prim} {E : Env σ} {l : Line} {pre : Bytes} {m : M σ} (h : Sends P l pre m) (data : Bytes) :
    Sends P l pre (bWrite P E m data).1 := by
  rcases bWrite_cases P E m data with ⟨_, e⟩ | ⟨hd, s, hh, t, r, e, hm, hc, hw, _, _, ho⟩ | ⟨hd, hh, t, e, hm, hw, ho⟩
  · rw [e]; exact h
  · rw [e]
    rw [packet_eq (h.at_ hd)] at ho
    have he : outs m.trace = pre ++ packets P l 0 (writes m.trace) := by
      rcases h.eq with h | h
      · exact h
      · rw [hd] at h; simp at h
    refine ⟨(fun k => by cases k), ?_, Or.inr ⟨rfl, ?_⟩⟩
    · dsimp only
      rw [outs_append, writes_append, hw, packets_snoc, he, ← List.append_assoc]
      exact List.prefix_append_right_inj _ |>.2 ho
    · rcases hc with h | ⟨d, r, h, hr⟩
      · exact Or.inl (List.mem_append_right _ h)
      · exact Or.inr ⟨d, r, List.mem_append_right _ h, hr⟩
  · rw [e]
    rw [packet_eq (h.at_ hd)] at ho
    have he : outs m.trace = pre ++ packets P l 0 (writes m.trace) := by
      rcases h.eq with h | h
      · exact h
      · rw [hd] at h; simp at h
    have hall : outs (m.trace ++ t) = pre ++ packets P l 0 (writes (m.trace ++ t)) := by
      rw [outs_append, writes_append, hw, packets_snoc, he, ho, List.append_assoc]
    refine ⟨fun _ => ?_, ?_, Or.inl hall⟩
    · dsimp only
      rw [writes_append, hw]
      have := at_encrypt (at_encrypt (h.at_ hd) none (leBytes 4 data.length)) none data
      simpa [Nat.mul_add] using this
    · dsimp only; rw [hall]; exact List.prefix_rfl

theorem sends_same {P : Prim} {l : Line} {pre : Bytes} {m m' : M σ} (h : Sends P l pre m)
    (hs : m'.b.state = m.b.state) (hc : m'.b.send = m.b.send) (ho : outs m'.trace = outs m.trace)
    (hw : writes m'.trace = writes m.trace) (hcut : Cut m.trace → Cut m'.trace) : Sends P l pre m' := by
  refine ⟨?_, ?_, ?_⟩
  · rw [hs, hc, hw]; exact h.at_
  · rw [ho, hw]; exact h.le
  · rw [ho, hw, hs]; exact h.eq.imp id (fun k => ⟨k.1, hcut k.2⟩)

theorem sends_destroy {P : Prim} {l : Line} {pre : Bytes} {m : M σ} (h : Sends P l pre m) (hs : σ) :
    Sends P l pre { m with host := hs, b := destroy m.b, trace := m.trace ++ [.closed] } := by
  refine ⟨(fun k => by cases k), ?_, Or.inr ⟨rfl, Or.inl (by simp)⟩⟩
  dsimp only
  rw [outs_append, writes_append]; simpa [outs, writes] using h.le

theorem runHost_sends {P : Prim} {E : Env σ} {l : Line} {pre : Bytes} (h : Host σ) : ∀ {m : M σ}, Sends P l pre m →
    Sends P l pre (runHost P E h m) := by
  induction h with
  | ret s => intro m hm; unfold runHost; exact sends_same hm rfl rfl rfl rfl id
  | write s data k ih =>
    intro m hm
    unfold runHost
    dsimp only
    have h0 : Sends P l pre ({ m with host := s } : M σ) := sends_same hm rfl rfl rfl rfl id
    exact ih _ _ (bWrite_sends h0 data)
  | destroy s k ih =>
    intro m hm
    unfold runHost
    exact ih _ (sends_destroy hm s)

theorem sends_header {P : Prim} {l : Line} {pre : Bytes} {m : M σ} (h : Sends P l pre m) {msg : Bytes}
    {r : M σ × Parsed} (hr : parseHeader P m msg = .ok r) : Sends P l pre r.1 ∧ r.1.b.state = m.b.state := by
  unfold parseHeader at hr
  by_cases h1 : msg.length ≠ headerSize
  · rw [if_pos h1] at hr; cases hr
  rw [if_neg h1] at hr
  dsimp only at hr
  generalize csDecrypt P m.b.recv none (msg.take 4) = d at hr
  by_cases h2 : csVerify d.1 (msg.drop 4) = false
  · rw [if_pos h2] at hr; cases Out.ok.inj hr; exact ⟨sends_same h rfl rfl rfl rfl id, rfl⟩
  rw [if_neg h2] at hr
  by_cases h3 : 2 ^ 31 ≤ leNat d.2 ∨ maxMessage < leNat d.2
  · rw [if_pos h3] at hr; cases Out.ok.inj hr; exact ⟨sends_same h rfl rfl rfl rfl id, rfl⟩
  · rw [if_neg h3] at hr; cases Out.ok.inj hr; exact ⟨sends_same h rfl rfl rfl rfl id, rfl⟩

theorem sends_deliver {P : Prim} {E : Env σ} {l : Line} {pre : Bytes} {m : M σ} (h : Sends P l pre m) (x : Bytes) :
    Sends P l pre (deliver P E m x) := by
  unfold deliver
  refine runHost_sends _ (sends_same h rfl rfl ?_ ?_ (fun k => cut_append k _))
  · dsimp only; rw [outs_append]; simp [outs]
  · dsimp only; rw [writes_append]; simp [writes]

theorem sends_connected {P : Prim} {E : Env σ} {l : Line} {pre : Bytes} {m : M σ} (h : Sends P l pre m) :
    Sends P l pre (connected P E m) := by
  unfold connected
  refine runHost_sends _ (sends_same h rfl rfl ?_ ?_ (fun k => cut_append k _))
  · dsimp only; rw [outs_append]; simp [outs]
  · dsimp only; rw [writes_append]; simp [writes]

theorem sends_body {P : Prim} {E : Env σ} {l : Line} {pre : Bytes} {m : M σ} (h : Sends P l pre m) {msg : Bytes}
    {r : M σ × Parsed} (hr : parseBody P E m msg = .ok r) :
    Sends P l pre r.1 ∧ (r.1.b.state = m.b.state ∨ r.1.b.state = .none) := by
  unfold parseBody at hr
  by_cases h1 : msg.length < 16
  · rw [if_pos h1] at hr; cases hr
  rw [if_neg h1] at hr
  dsimp only at hr
  generalize csDecrypt P m.b.recv none (msg.take (msg.length - 16)) = d at hr
  by_cases h2 : csVerify d.1 (msg.drop (msg.length - 16)) = false
  · rw [if_pos h2] at hr; cases Out.ok.inj hr; exact ⟨sends_same h rfl rfl rfl rfl id, Or.inl rfl⟩
  rw [if_neg h2] at hr; cases Out.ok.inj hr
  refine ⟨sends_deliver ?_ _, (runHost_kept P E _ _).state⟩
  exact sends_same h rfl rfl rfl rfl id

/-- Ended by what was read: everything handed in before was sent. -/
theorem sends_fail {P : Prim} {l : Line} {pre : Bytes} {m : M σ} (h : Sends P l pre m) :
    Sends P l pre { m with b := destroy m.b } := by
  refine ⟨(fun k => by cases k), h.le, h.eq.imp id (fun k => ⟨rfl, k.2⟩)⟩

theorem readLoop_sends {P : Prim} {E : Env σ} {l : Line} {pre : Bytes} : ∀ (fuel : Nat) (m : M σ) (buf data : Bytes)
    (r : M σ × Nat), m.b.state = .done → Sends P l pre m → readLoop P E fuel m buf data = .ok r → Sends P l pre r.1 := by
  intro fuel
  induction fuel with
  | zero => intro m buf data r _ _ h; cases h
  | succ fuel ih =>
    intro m buf data r hd hs hr
    unfold readLoop at hr
    by_cases hn : m.b.need ≤ buf.length + data.length
    case neg =>
      rw [if_neg hn] at hr; cases Out.ok.inj hr
      exact sends_same hs rfl rfl rfl rfl id
    rw [if_pos hn] at hr
    by_cases hn2 : m.b.need ≤ buf.length
    · rw [if_pos hn2] at hr; cases hr
    rw [if_neg hn2] at hr
    dsimp only at hr
    generalize buf ++ data.take (m.b.need - buf.length) = msg at hr
    obtain ⟨⟨m1, p⟩, hp, hr⟩ := Out.bind_eq_ok.1 hr
    have hs0 : Sends P l pre ({ m with b := { m.b with buf := some msg } } : M σ) := sends_same hs rfl rfl rfl rfl id
    generalize hm0 : ({ m with b := { m.b with buf := some msg } } : M σ) = m0 at hp hs0
    have hd0 : m0.b.state = .done := by rw [← hm0]; exact hd
    rw [parse_done hd0] at hp
    have key : Sends P l pre m1 ∧ (m1.b.state = .done ∨ m1.b.state = .none) := by
      by_cases hz : m0.b.hasSize = true
      · rw [if_pos hz] at hp
        have := sends_body hs0 hp; rw [hd0] at this; exact this
      · rw [if_neg hz] at hp
        have := sends_header hs0 hp; rw [hd0] at this; exact ⟨this.1, Or.inl this.2⟩
    cases p with
    | fail c => cases Out.ok.inj hr; exact sends_fail key.1
    | next n =>
      dsimp only at hr
      by_cases hz : m1.b.state = .none
      · rw [if_pos hz] at hr; cases Out.ok.inj hr; exact key.1
      rw [if_neg hz] at hr
      by_cases hn0 : n = 0
      · rw [if_pos hn0] at hr; cases hr
      rw [if_neg hn0] at hr
      have hd1 : m1.b.state = .done := key.2.resolve_right hz
      refine ih _ _ _ r ?_ ?_ hr
      · exact hd1
      · exact sends_same key.1 rfl rfl rfl rfl id

end Verif.Brontide
