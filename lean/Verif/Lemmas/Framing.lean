import Verif.Model.Framing
import Verif.Spec.Framing
import Verif.Lemmas.Bio
namespace Verif.Framing
open Verif.Bio
open Verif.Msg (Msg)
open Verif.Spec.Framing

theorem cut_short {magic : Nat} {s : Bytes} (h : s.length < 9) : cut magic s = ([], .inside s) := by
  rw [cut, dif_pos h]

theorem cut_bad {magic : Nat} {s : Bytes} (h : ¬ s.length < 9) (hb : magicOf s ≠ magic ∨ Spec.Framing.sizeOf s > 8000000) :
    cut magic s = ([], .bad) := by
  rw [cut, dif_neg h, if_pos hb]

theorem cut_part {magic : Nat} {s : Bytes} (h : ¬ s.length < 9) (hb : ¬ (magicOf s ≠ magic ∨ Spec.Framing.sizeOf s > 8000000))
    (hp : s.length < 9 + Spec.Framing.sizeOf s) : cut magic s = ([], .inside s) := by
  rw [cut, dif_neg h, if_neg hb, if_pos hp]

theorem cut_full {magic : Nat} {s : Bytes} (h : ¬ s.length < 9) (hb : ¬ (magicOf s ≠ magic ∨ Spec.Framing.sizeOf s > 8000000))
    (hp : ¬ s.length < 9 + Spec.Framing.sizeOf s) :
    cut magic s = ((cmdOf s, (s.drop 9).take (Spec.Framing.sizeOf s)) :: (cut magic (s.drop (9 + Spec.Framing.sizeOf s))).1,
      (cut magic (s.drop (9 + Spec.Framing.sizeOf s))).2) := by
  rw [cut, dif_neg h, if_neg hb, if_neg hp]

theorem magicOf_append {s : Bytes} (b : Bytes) (h : ¬ s.length < 9) : magicOf (s ++ b) = magicOf s := by
  unfold magicOf; rw [List.take_append_of_le_length (by omega)]

theorem cmdOf_append {s : Bytes} (b : Bytes) (h : ¬ s.length < 9) : cmdOf (s ++ b) = cmdOf s := by
  unfold cmdOf
  rw [List.drop_append_of_le_length (by omega), List.take_append_of_le_length (by rw [List.length_drop]; omega)]

theorem sizeOf_append {s : Bytes} (b : Bytes) (h : ¬ s.length < 9) : Spec.Framing.sizeOf (s ++ b) = Spec.Framing.sizeOf s := by
  unfold Spec.Framing.sizeOf
  rw [List.drop_append_of_le_length (by omega), List.take_append_of_le_length (by rw [List.length_drop]; omega)]

/-- More bytes do not change what has been cut. -/
theorem cut_append (magic : Nat) (s b : Bytes) :
    cut magic (s ++ b) = match (cut magic s).2 with
      | .bad => cut magic s
      | .inside rest => ((cut magic s).1 ++ (cut magic (rest ++ b)).1, (cut magic (rest ++ b)).2) := by
  induction hn : s.length using Nat.strongRecOn generalizing s with
  | ind n ih =>
    by_cases h : s.length < 9
    · rw [cut_short h]; simp
    · have h' : ¬ (s ++ b).length < 9 := by simp only [List.length_append]; omega
      by_cases hb : magicOf s ≠ magic ∨ Spec.Framing.sizeOf s > 8000000
      · rw [cut_bad h hb]
        dsimp only
        rw [cut_bad h' (by rw [magicOf_append b h, sizeOf_append b h]; exact hb)]
      · have hb' : ¬ (magicOf (s ++ b) ≠ magic ∨ Spec.Framing.sizeOf (s ++ b) > 8000000) := by
          rw [magicOf_append b h, sizeOf_append b h]; exact hb
        by_cases hp : s.length < 9 + Spec.Framing.sizeOf s
        · rw [cut_part h hb hp]; simp
        · have hp' : ¬ (s ++ b).length < 9 + Spec.Framing.sizeOf (s ++ b) := by
            rw [sizeOf_append b h]; simp only [List.length_append]; omega
          have := ih (s.drop (9 + Spec.Framing.sizeOf s)).length (by rw [List.length_drop]; omega) _ rfl
          rw [cut_full h' hb' hp', cut_full h hb hp, cmdOf_append b h, sizeOf_append b h,
            List.drop_append_of_le_length (by omega), List.drop_append_of_le_length (by omega),
            List.take_append_of_le_length (by rw [List.length_drop]; omega), this]
          dsimp only
          cases hc : (cut magic (s.drop (9 + Spec.Framing.sizeOf s))).2 <;> simp [hc]

theorem deliver_cons {σ : Type} (handle : σ → Msg → Out Unit (Bool × σ)) (cmd : Nat) (payload : Bytes) (rest : List (Nat × Bytes)) (s : σ) :
    deliver handle ((cmd, payload) :: rest) s = if cmd ∈ [0, 1, 2, 3, 4, 5, 10, 11, 12, 26, 27] then
      match Msg.decode cmd payload with
      | .ok m => (handle s m).bind fun r => if r.1 then deliver handle rest r.2 else .ok (false, r.2)
      | .err _ => .ok (false, s)
      | .ub => .ub
    else deliver handle rest s := rfl

theorem deliver_append {σ : Type} (handle : σ → Msg → Out Unit (Bool × σ)) (a b : List (Nat × Bytes)) (s : σ) :
    deliver handle (a ++ b) s = (deliver handle a s).bind fun r => if r.1 then deliver handle b r.2 else .ok (false, r.2) := by
  induction a generalizing s with
  | nil => rfl
  | cons x a ih =>
    obtain ⟨cmd, payload⟩ := x
    rw [List.cons_append, deliver_cons, deliver_cons]
    by_cases h : cmd ∈ [0, 1, 2, 3, 4, 5, 10, 11, 12, 26, 27]
    · rw [if_pos h, if_pos h]
      cases Msg.decode cmd payload with
      | ub => rfl
      | err e => rfl
      | ok m =>
        dsimp only
        cases handle s m with
        | ub => rfl
        | err e => rfl
        | ok r =>
          obtain ⟨ok, s'⟩ := r
          cases ok with
          | true => exact ih s'
          | false => rfl
    · rw [if_neg h, if_neg h, ih]

theorem body_eq {σ : Type} (handle : σ → Msg → Out Unit (Bool × σ)) (cmd : Nat) (msg : Bytes) (s : σ) :
    body handle cmd msg s = deliver handle [(cmd, msg)] s := by
  unfold body deliver
  have hk : (known cmd = true) ↔ cmd ∈ [0, 1, 2, 3, 4, 5, 10, 11, 12, 26, 27] := by simp [known]
  by_cases h : cmd ∈ [0, 1, 2, 3, 4, 5, 10, 11, 12, 26, 27]
  · rw [if_pos h, if_pos (hk.2 h)]
    cases Msg.decode cmd msg with
    | ub => rfl
    | err e => rfl
    | ok m =>
      dsimp only
      cases handle s m with
      | ub => rfl
      | err e => rfl
      | ok r => obtain ⟨ok, s'⟩ := r; cases ok <;> rfl
  · rw [if_neg h, if_neg (fun hc => h (hk.1 hc))]; rfl

theorem readU32_of_le {s : Bytes} (h : 4 ≤ s.length) : readU32 s = .ok (leNat (s.take 4), s.drop 4) := by
  unfold readU32 memSlice
  rw [if_neg (by omega), if_pos (by omega)]; rfl

theorem readU8_of_le {s : Bytes} (h : 1 ≤ s.length) : readU8 s = .ok (leNat (s.take 1), s.drop 1) := by
  cases s with
  | nil => simp at h
  | cons b t => simp [readU8, memGet, leNat]

/-- What the header parser says of nine bytes. -/
theorem parseHdr_eq (magic : Nat) {msg : Bytes} (h : msg.length = 9) :
    parseHdr magic msg = if magicOf msg ≠ magic ∨ Spec.Framing.sizeOf msg > 8000000 then .err ()
      else .ok { hdr := true, buf := [], need := Spec.Framing.sizeOf msg, cmd := cmdOf msg } := by
  unfold parseHdr
  rw [readU32_of_le (by omega), Out.bind_ok]
  dsimp only
  by_cases hm : leNat (msg.take 4) ≠ magic
  · rw [if_pos hm, if_pos (show magicOf msg ≠ magic ∨ Spec.Framing.sizeOf msg > 8000000 from Or.inl hm)]
  · rw [if_neg hm, readU8_of_le (by rw [List.length_drop]; omega), Out.bind_ok]
    dsimp only
    rw [readU32_of_le (by simp only [List.length_drop]; omega), Out.bind_ok]
    dsimp only
    rw [List.drop_drop]
    by_cases hs : leNat ((msg.drop 5).take 4) > maxMessage
    · rw [if_pos hs, if_pos (show magicOf msg ≠ magic ∨ Spec.Framing.sizeOf msg > 8000000 from Or.inr hs)]
    · rw [if_neg hs, if_neg (show ¬ (magicOf msg ≠ magic ∨ Spec.Framing.sizeOf msg > 8000000) by
        intro hc; rcases hc with hc | hc
        · exact hm hc
        · exact hs hc)]
      rfl

/-- The frame holds the bytes `pre` of an unfinished message. -/
def Rep (magic : Nat) (f : Frame) (pre : Bytes) : Prop :=
  (f.hdr = false ∧ f.buf = pre ∧ f.need = 9 ∧ pre.length < 9) ∨
  (f.hdr = true ∧ 9 ≤ pre.length ∧ magicOf pre = magic ∧ Spec.Framing.sizeOf pre = f.need ∧ cmdOf pre = f.cmd ∧
    f.need ≤ 8000000 ∧ f.buf = pre.drop 9 ∧ f.buf.length ≤ f.need)

theorem rep_fresh (magic : Nat) : Rep magic fresh [] := Or.inl ⟨rfl, rfl, rfl, by simp⟩

/-- Forget the frame. -/
def view {σ : Type} (r : Out Unit (Bool × Frame × σ)) : Out Unit (Bool × σ) := r.bind fun x => .ok (x.1, x.2.2)

theorem meaning_false {σ : Type} {magic : Nat} {handle : σ → Msg → Out Unit (Bool × σ)} {stream : Bytes} {s s' : σ}
    (h : deliver handle (cut magic stream).1 s = .ok (false, s')) : meaning magic handle stream s = .ok (false, s') := by
  unfold meaning; rw [h]; rfl

theorem cut_of_rep {magic : Nat} {f : Frame} {pre : Bytes} (hr : Rep magic f pre) (hlt : f.buf.length < f.need) :
    cut magic pre = ([], .inside pre) := by
  rcases hr with ⟨h1, h2, h3, h4⟩ | ⟨h1, h2, h3, h4, h5, h6, h7, h8⟩
  · exact cut_short h4
  · refine cut_part (by omega) (by rw [h3, h4]; omega) ?_
    rw [h4]; rw [h7, List.length_drop] at hlt; omega

theorem loop_spec {σ : Type} (magic : Nat) (handle : σ → Msg → Out Unit (Bool × σ)) (n : Nat) :
    ∀ (data : Bytes) (f : Frame) (s : σ) (pre : Bytes), Rep magic f pre →
      2 * data.length + (if f.hdr then 1 else 0) < n →
      view (loop magic handle n data f s) = meaning magic handle (pre ++ data) s ∧
      ∀ f' s', loop magic handle n data f s = .ok (true, f', s') →
        ∃ rest, (cut magic (pre ++ data)).2 = .inside rest ∧ Rep magic f' rest ∧ f'.buf.length < f'.need := by
  induction n with
  | zero => intro data f s pre _ h; omega
  | succ n ih =>
    intro data f s pre hr hn
    unfold loop
    by_cases hge : f.buf.length + data.length ≥ f.need
    · rw [if_pos hge]
      rcases hr with ⟨h1, h2, h3, h4⟩ | ⟨h1, h2, h3, h4, h5, h6, h7, h8⟩
      · -- a header is complete
        rw [if_neg (by rw [h2, h3]; omega)]
        have hmsg : (pre ++ data.take (9 - pre.length)).length = 9 := by
          rw [h2, h3] at hge
          rw [List.length_append, List.length_take]; omega
        have hsplit : pre ++ data = (pre ++ data.take (9 - pre.length)) ++ data.drop (9 - pre.length) := by
          rw [List.append_assoc, List.take_append_drop]
        have h9 : ¬ (pre ++ data.take (9 - pre.length)).length < 9 := by omega
        rw [h2, h3]
        unfold parse
        rw [h1, if_neg (by decide), parseHdr_eq magic hmsg]
        by_cases hb : magicOf (pre ++ data.take (9 - pre.length)) ≠ magic ∨
            Spec.Framing.sizeOf (pre ++ data.take (9 - pre.length)) > 8000000
        · rw [if_pos hb]
          have hcut : cut magic (pre ++ data) = ([], .bad) := by
            rw [hsplit, cut_append, cut_bad h9 hb]
          refine ⟨?_, ?_⟩
          · unfold meaning; rw [hcut]; rfl
          · intro f' s' hc
            simp [Out.bind] at hc
        · rw [if_neg hb]
          have hrep : Rep magic
              (Frame.mk true [] (Spec.Framing.sizeOf (pre ++ data.take (9 - pre.length))) (cmdOf (pre ++ data.take (9 - pre.length)))) (pre ++ data.take (9 - pre.length)) := by
            refine Or.inr ⟨rfl, by omega, ?_, rfl, rfl, ?_, ?_, by simp⟩
            · exact Classical.byContradiction fun h => hb (Or.inl h)
            · exact Nat.le_of_not_lt fun h => hb (Or.inr h)
            · rw [List.drop_eq_nil_of_le (by omega)]
          have hlen : 2 * (data.drop (9 - pre.length)).length + 1 < n := by
            rw [List.length_drop]
            rw [h1] at hn
            simp only [Bool.false_eq_true, if_false] at hn
            rw [h2, h3] at hge
            omega
          have := ih (data.drop (9 - pre.length)) _ s _ hrep (by simpa using hlen)
          rw [← hsplit] at this
          exact this
      · -- a payload is complete
        rw [if_neg (by omega)]
        have hpl : f.buf.length = pre.length - 9 := by rw [h7, List.length_drop]
        have hpb : ¬ (pre ++ data).length < 9 := by rw [List.length_append]; omega
        have hp9 : ¬ pre.length < 9 := by omega
        have hcut := cut_full (magic := magic) (s := pre ++ data) hpb
          (by rw [magicOf_append data hp9, sizeOf_append data hp9, h3, h4]; omega)
          (by rw [sizeOf_append data hp9, h4, List.length_append]; omega)
        rw [cmdOf_append data hp9, sizeOf_append data hp9, h4, h5] at hcut
        have hpay : ((pre ++ data).drop 9).take f.need = f.buf ++ data.take (f.need - f.buf.length) := by
          rw [List.drop_append_of_le_length (by omega), ← h7, List.take_append, List.take_of_length_le (by omega)]
        have hrest : (pre ++ data).drop (9 + f.need) = data.drop (f.need - f.buf.length) := by
          rw [List.drop_append, List.drop_eq_nil_of_le (by omega), List.nil_append]
          congr 1; omega
        rw [hpay, hrest] at hcut
        unfold parse
        rw [h1, if_pos rfl, body_eq]
        have hd := deliver_append handle [(f.cmd, f.buf ++ data.take (f.need - f.buf.length))]
          (cut magic (data.drop (f.need - f.buf.length))).1 s
        rw [List.cons_append, List.nil_append] at hd
        have hm : meaning magic handle (pre ++ data) s =
            (deliver handle [(f.cmd, f.buf ++ data.take (f.need - f.buf.length))] s).bind fun r =>
              if r.1 then meaning magic handle (data.drop (f.need - f.buf.length)) r.2 else .ok (false, r.2) := by
          unfold meaning
          rw [hcut]
          dsimp only
          rw [hd]
          cases deliver handle [(f.cmd, f.buf ++ data.take (f.need - f.buf.length))] s with
          | ub => rfl
          | err e => rfl
          | ok r => obtain ⟨b, s'⟩ := r; cases b <;> rfl
        rw [hm]
        cases hx : deliver handle [(f.cmd, f.buf ++ data.take (f.need - f.buf.length))] s with
        | ub => exact ⟨rfl, fun f' s' hc => by cases hc⟩
        | err e => exact ⟨rfl, fun f' s' hc => by cases hc⟩
        | ok r =>
          obtain ⟨b, s'⟩ := r
          cases b with
          | false =>
            refine ⟨rfl, fun f' s'' hc => ?_⟩
            simp [Out.bind] at hc
          | true =>
            have hlen : 2 * (data.drop (f.need - f.buf.length)).length < n := by
              rw [List.length_drop]
              rw [h1] at hn
              simp only [if_true] at hn
              omega
            have := ih (data.drop (f.need - f.buf.length)) fresh s' [] (rep_fresh magic) (by simpa [fresh] using hlen)
            rw [List.nil_append] at this
            refine ⟨this.1, fun f' s'' hc => ?_⟩
            rw [hcut]
            exact this.2 f' s'' hc
    · rw [if_neg hge]
      have hpre : Rep magic { f with buf := f.buf ++ data } (pre ++ data) := by
        rcases hr with ⟨h1, h2, h3, h4⟩ | ⟨h1, h2, h3, h4, h5, h6, h7, h8⟩
        · refine Or.inl ⟨h1, by rw [h2], h3, ?_⟩
          rw [h2, h3] at hge
          rw [List.length_append]; omega
        · have hp9 : ¬ pre.length < 9 := by omega
          refine Or.inr ⟨h1, by rw [List.length_append]; omega, by rw [magicOf_append data hp9, h3], by rw [sizeOf_append data hp9, h4],
            by rw [cmdOf_append data hp9, h5], h6, by rw [List.drop_append_of_le_length (by omega), ← h7], ?_⟩
          simp only [List.length_append]; omega
      have hlt : (f.buf ++ data).length < f.need := by rw [List.length_append]; omega
      have hcut := cut_of_rep hpre hlt
      refine ⟨?_, ?_⟩
      · unfold meaning; rw [hcut]; rfl
      · intro f' s' hc
        have := Out.ok.inj hc
        simp only [Prod.mk.injEq, true_and] at this
        rw [← this.1, hcut]
        exact ⟨_, rfl, hpre, hlt⟩

theorem feed_spec {σ : Type} (magic : Nat) (handle : σ → Msg → Out Unit (Bool × σ)) {data : Bytes} {f : Frame} {s : σ} {pre : Bytes}
    (hr : Rep magic f pre) :
    view (feed magic handle data f s) = meaning magic handle (pre ++ data) s ∧
      ∀ f' s', feed magic handle data f s = .ok (true, f', s') →
        ∃ rest, (cut magic (pre ++ data)).2 = .inside rest ∧ Rep magic f' rest ∧ f'.buf.length < f'.need :=
  loop_spec magic handle _ data f s pre hr (by split <;> omega)

/-- Meaning of a stream in two parts. -/
theorem meaning_append {σ : Type} (magic : Nat) (handle : σ → Msg → Out Unit (Bool × σ)) (a b : Bytes) (s : σ) :
    meaning magic handle (a ++ b) s = (meaning magic handle a s).bind fun r =>
      if r.1 then match (cut magic a).2 with
        | .bad => .ok r
        | .inside rest => meaning magic handle (rest ++ b) r.2
      else .ok (false, r.2) := by
  unfold meaning
  rw [cut_append]
  cases hc : (cut magic a).2 with
  | bad =>
    dsimp only
    rw [hc]
    cases deliver handle (cut magic a).1 s with
    | ub => rfl
    | err e => rfl
    | ok r => obtain ⟨b, s'⟩ := r; cases b <;> rfl
  | inside rest =>
    dsimp only
    rw [deliver_append]
    cases deliver handle (cut magic a).1 s with
    | ub => rfl
    | err e => rfl
    | ok r =>
      obtain ⟨b, s'⟩ := r
      cases b <;> rfl

theorem rep_unique {magic : Nat} {f g : Frame} {pre : Bytes} (hf : Rep magic f pre) (hg : Rep magic g pre)
    (hfc : f.hdr = false → f.cmd = 0) (hgc : g.hdr = false → g.cmd = 0) : f = g := by
  obtain ⟨fh, fb, fn, fc⟩ := f
  obtain ⟨gh, gb, gn, gc⟩ := g
  simp only [Rep] at hf hg hfc hgc
  rcases hf with ⟨h1, h2, h3, h4⟩ | ⟨h1, h2, h3, h4, h5, h6, h7, h8⟩
  · rcases hg with ⟨k1, k2, k3, k4⟩ | ⟨k1, k2, k3, k4, k5, k6, k7, k8⟩
    · rw [h1, h2, h3, k1, k2, k3, hfc h1, hgc k1]
    · omega
  · rcases hg with ⟨k1, k2, k3, k4⟩ | ⟨k1, k2, k3, k4, k5, k6, k7, k8⟩
    · omega
    · rw [h1, k1, ← h4, ← k4, ← h5, ← k5, h7, k7]

/-- While no header has been read the command is zero. -/
def Idle (f : Frame) : Prop := f.hdr = false → f.cmd = 0

theorem parseHdr_hdr {magic : Nat} {msg : Bytes} {g : Frame} (h : parseHdr magic msg = .ok g) : g.hdr = true := by
  unfold parseHdr at h
  obtain ⟨⟨m, s⟩, _, h⟩ := Out.bind_eq_ok.1 h
  dsimp only at h
  by_cases hm : m ≠ magic
  · rw [if_pos hm] at h; cases h
  · rw [if_neg hm] at h
    obtain ⟨⟨c, s'⟩, _, h⟩ := Out.bind_eq_ok.1 h
    obtain ⟨⟨z, s''⟩, _, h⟩ := Out.bind_eq_ok.1 h
    dsimp only at h
    by_cases hz : z > maxMessage
    · rw [if_pos hz] at h; cases h
    · rw [if_neg hz] at h
      have := Out.ok.inj h
      rw [← this]

theorem loop_idle {σ : Type} (magic : Nat) (handle : σ → Msg → Out Unit (Bool × σ)) (n : Nat) :
    ∀ (data : Bytes) (f : Frame) (s : σ), Idle f → ∀ b f' s', loop magic handle n data f s = .ok (b, f', s') → Idle f' := by
  induction n with
  | zero => intro data f s _ b f' s' h; cases h
  | succ n ih =>
    intro data f s hf b f' s' h
    unfold loop at h
    by_cases hge : f.buf.length + data.length ≥ f.need
    · rw [if_pos hge] at h
      by_cases hgt : f.buf.length > f.need
      · rw [if_pos hgt] at h; cases h
      · rw [if_neg hgt] at h
        obtain ⟨r, hr, h⟩ := Out.bind_eq_ok.1 h
        have hidle : Idle r.2.1 := by
          unfold parse at hr
          by_cases hh : f.hdr = true
          · rw [if_pos hh] at hr
            obtain ⟨x, _, hx⟩ := Out.bind_eq_ok.1 hr
            have := Out.ok.inj hx
            rw [← this]
            intro _; rfl
          · rw [if_neg hh] at hr
            cases hp : parseHdr magic (f.buf ++ data.take (f.need - f.buf.length)) with
            | ub => rw [hp] at hr; cases hr
            | err e => rw [hp] at hr; have := Out.ok.inj hr; rw [← this]; exact hf
            | ok g =>
              rw [hp] at hr
              have := Out.ok.inj hr
              rw [← this]
              intro hc
              rw [parseHdr_hdr hp] at hc; cases hc
        by_cases hb : r.1 = true
        · rw [if_pos hb] at h
          exact ih _ _ _ hidle _ _ _ h
        · rw [if_neg hb] at h
          have := Out.ok.inj h
          rw [this] at hidle
          exact hidle
    · rw [if_neg hge] at h
      have := Out.ok.inj h
      simp only [Prod.mk.injEq] at this
      rw [← this.2.1]
      exact hf

theorem readAll_spec {σ : Type} (magic : Nat) (handle : σ → Msg → Out Unit (Bool × σ)) (chunks : List Bytes) :
    ∀ (f : Frame) (s : σ) (pre : Bytes), Rep magic f pre → f.buf.length < f.need → Idle f →
      view (readAll magic handle chunks f s) = meaning magic handle (pre ++ chunks.flatten) s ∧
      ∀ f' s', readAll magic handle chunks f s = .ok (true, f', s') →
        ∃ rest, (cut magic (pre ++ chunks.flatten)).2 = .inside rest ∧ Rep magic f' rest ∧ f'.buf.length < f'.need ∧ Idle f' := by
  induction chunks with
  | nil =>
    intro f s pre hr hlt hi
    rw [List.flatten_nil, List.append_nil]
    have hc := cut_of_rep hr hlt
    refine ⟨?_, fun f' s' h => ?_⟩
    · unfold meaning; rw [hc]; rfl
    · have := Out.ok.inj h
      simp only [Prod.mk.injEq, true_and] at this
      rw [hc, ← this.1]
      exact ⟨_, rfl, hr, hlt, hi⟩
  | cons d ds ih =>
    intro f s pre hr hlt hi
    rw [List.flatten_cons, ← List.append_assoc, meaning_append]
    unfold readAll
    have h := feed_spec magic handle (data := d) (s := s) hr
    cases hx : feed magic handle d f s with
    | ub =>
      rw [← h.1, hx]
      exact ⟨rfl, fun f' s' hc => by cases hc⟩
    | err e =>
      rw [← h.1, hx]
      exact ⟨rfl, fun f' s' hc => by cases hc⟩
    | ok r =>
      obtain ⟨b, f1, s1⟩ := r
      have hv : meaning magic handle (pre ++ d) s = .ok (b, s1) := by rw [← h.1, hx]; rfl
      rw [hv]
      cases b with
      | false =>
        refine ⟨rfl, fun f' s' hc => ?_⟩
        simp [Out.bind] at hc
      | true =>
        obtain ⟨rest, hcut, hrep, hlt'⟩ := h.2 f1 s1 hx
        have hi' : Idle f1 := loop_idle magic handle _ d f s hi _ _ _ hx
        have := ih f1 s1 rest hrep hlt' hi'
        rw [cut_append magic (pre ++ d) ds.flatten, hcut]
        exact this

end Verif.Framing
