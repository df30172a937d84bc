import Verif.Model.Store
import Verif.Lemmas.ChainConv
/-
Helper lemmas for the checkpoint file.
-/
namespace Verif.Store
open Verif.Chain Verif.Header Verif.Bio Verif.Spec Verif.Spec.Chain

variable {P : Params} {H : Hdr → Bytes} {trusted : Block → Prop} {roots : List Bytes}
  {base : Nat → Option Entry} {s : State}

/-- `es` (oldest first, from `height`) continues `prev`. -/
inductive Chained (H : Hdr → Bytes) : Prev → Nat → List Entry → Prop
  | nil {p : Prev} {h : Nat} : Chained H p h []
  | cons {p : Prev} {h : Nat} {e : Entry} {es : List Entry} : e.height = h → e.hash = H e.hdr → WF e.hdr →
      e.work.length = 32 → (∀ x ∈ p.hash, x = e.hdr.prevBlock) → calcWork e.hdr.bits (some p.work) = .ok e.work →
      Chained H ⟨some e.hash, e.work⟩ (h + 1) es → Chained H p h (e :: es)

theorem Chained.weaken {p : Prev} {h : Nat} {es : List Entry} (hc : Chained H p h es) :
    Chained H ⟨none, p.work⟩ h es := by
  cases hc with
  | nil => exact .nil
  | cons a b c d e f g => exact .cons a b c d (by simp) f g

theorem encodeHeaders_eq (es : List Entry) (h : Nat) (hi : ∀ i e, es[i]? = some e → getByHeight s (h + i) = some e) :
    encodeHeaders s es.length h = .ok (es.flatMap fun e => write e.hdr) := by
  induction es generalizing h with
  | nil => rfl
  | cons e es ih =>
    simp only [List.length_cons, encodeHeaders]
    rw [show getByHeight s h = some e from hi 0 e (by simp)]
    simp only
    rw [ih (h + 1) (fun i x hx => by have := hi (i + 1) x (by simpa using hx); rw [← this]; congr 1; omega)]
    rfl

theorem injectLoop_eq (now : Int) (es : List Entry) {p : Prev} {h : Nat} (hc : Chained H p h es) (s : State) (r : Bytes) :
    injectLoop P H now es.length h p s ((es.flatMap fun e => write e.hdr) ++ r) = .ok (es.foldl (save P now) s) := by
  induction es generalizing p h s with
  | nil => rfl
  | cons e es ih =>
    cases hc with
    | cons c1 c2 c3 c4 c5 c6 c7 =>
      simp only [List.length_cons, injectLoop, List.flatMap_cons, List.append_assoc]
      rw [read_eq_ok.2 ⟨rfl, c3⟩]
      simp only [Out.bind]
      rw [if_neg (by
        cases hp : p.hash with
        | none => simp
        | some x => simp [c5 x (by simp [hp])])]
      rw [c6]
      simp only
      have : ({ hdr := e.hdr, hash := H e.hdr, height := h, work := e.work } : Entry) = e := by
        cases e; simp_all
      rw [← c2] at this ⊢
      rw [this]
      exact ih c7 _

/-- The main chain from `lo` on, as an index. -/
structure Indexed (H : Hdr → Bytes) (s : State) (lo : Nat) : Prop where
  all : ∀ n, lo ≤ n → n ≤ s.height → ∃ e, getByHeight s n = some e ∧ e.height = n ∧ e.hash = H e.hdr ∧
    e.work.length = 32 ∧ AMap.get s.hashes e.hash = some e
  step : ∀ n e p, lo ≤ n → getByHeight s (n + 1) = some e → getByHeight s n = some p → n + 1 ≤ s.height →
    e.hdr.prevBlock = p.hash ∧ calcWork e.hdr.bits (some p.work) = .ok e.work

theorem validChain_mid {R : Rules} {A l : List Block} {b : Block} (h : ValidChain R trusted (A ++ b :: l)) :
    ValidChain R trusted (b :: l) := by
  induction A with
  | nil => exact h
  | cons a A ih =>
    apply ih
    generalize hq : (a :: A) ++ b :: l = q at h
    cases h with
    | root _ => cases A <;> simp at hq
    | start _ _ h3 =>
      simp only [List.cons_append, List.cons.injEq] at hq
      rw [hq.2]; exact h3
    | next _ h3 =>
      simp only [List.cons_append, List.cons.injEq] at hq
      rw [hq.2]; exact h3

theorem Inv.indexed (hP : ParamsOK P) (hi : Inv P H trusted roots base s) {lo : Nat}
    (hT : ∀ b, trusted b → b.height ≤ lo) : Indexed H s lo := by
  obtain ⟨l, r, l1, l2, l3⟩ := hi.index
  obtain ⟨r', r1, r2, r3⟩ := hi.last hi.tip l1
  rw [l2] at r1; cases r1
  have hr : r.height ≤ lo := hT _ r2
  obtain ⟨l', l1', lv⟩ := hi.path _ _ hi.tip
  cases l1.unique l1'
  obtain ⟨t, rfl⟩ := l1.head
  have hst := hi.steps hi.tip l1
  have hmem := hi.path_mem hi.tip l1
  have hlen : (s.tip :: t).length = s.tip.height - r.height + 1 := by
    have hl : (s.tip :: t)[(s.tip :: t).length - 1]? = some r := by rw [← List.getLast?_eq_getElem?]; exact l2
    have := hst.index _ hl
    simp only [List.length_cons] at this ⊢
    omega
  have hget : ∀ n, lo ≤ n → n ≤ s.height → ∃ e, (s.tip :: t)[s.height - n]? = some e ∧ getByHeight s n = some e ∧ e.height = n := by
    intro n h1 h2
    have hh := hi.height
    have hlt : s.height - n < (s.tip :: t).length := by omega
    have hx := hst.index _ (List.getElem?_eq_getElem hlt)
    refine ⟨_, List.getElem?_eq_getElem hlt, ?_, by omega⟩
    unfold getByHeight
    rw [l3, if_pos (by omega), List.find?_eq_some_iff_getElem]
    refine ⟨by simp only [decide_eq_true_eq]; omega, s.height - n, hlt, rfl, ?_⟩
    intro j hj
    have := hst.index j (List.getElem?_eq_getElem (by omega))
    simp only [decide_eq_true_eq, Bool.not_eq_eq_eq_not, Bool.not_true, decide_eq_false_iff_not]
    omega
  constructor
  · intro n h1 h2
    obtain ⟨e, e1, e2, e3⟩ := hget n h1 h2
    have hm := hmem e (List.mem_of_getElem? e1)
    obtain ⟨k1, k2, k3, _⟩ := hi.key _ _ hm
    exact ⟨e, e2, e3, k2.symm, k3, hm⟩
  · intro n e p h1 he hp h2
    obtain ⟨e', e1, e2, e3⟩ := hget (n + 1) (by omega) h2
    obtain ⟨p', p1, p2, p3⟩ := hget n h1 (by omega)
    rw [he] at e2; cases e2
    rw [hp] at p2; cases p2
    -- e and p are consecutive in the path
    have hlt : s.height - (n + 1) < (s.tip :: t).length := by
      rw [List.getElem?_eq_some_iff] at e1; exact e1.1
    have hlt2 : s.height - (n + 1) + 1 < (s.tip :: t).length := by
      rw [List.getElem?_eq_some_iff] at p1; have := p1.1; omega
    have hsplit : s.tip :: t = (s.tip :: t).take (s.height - (n + 1)) ++ e :: p :: (s.tip :: t).drop (s.height - (n + 1) + 2) := by
      conv => lhs; rw [← List.take_append_drop (s.height - (n + 1)) (s.tip :: t)]
      rw [List.drop_eq_getElem_cons hlt, List.drop_eq_getElem_cons hlt2]
      have q1 : (s.tip :: t)[s.height - (n + 1)] = e := by
        rw [List.getElem?_eq_getElem hlt] at e1; exact Option.some.inj e1
      have q2 : (s.tip :: t)[s.height - (n + 1) + 1] = p := by
        rw [show s.height - n = s.height - (n + 1) + 1 by omega, List.getElem?_eq_getElem hlt2] at p1; exact Option.some.inj p1
      rw [q1, q2]
    rw [hsplit, List.map_append, List.map_cons, List.map_cons] at lv
    obtain ⟨v1, v2⟩ := validChain_split lv
    refine ⟨v1.1, ?_⟩
    rcases v2 with v2 | v2
    · have := hT _ v2
      simp only [blk] at this
      omega
    · obtain ⟨tt, t1, _, t3⟩ := v2.pow
      have hx := powToTarget_spec (bits := e.hdr.bits) (demanded_exponent hP v2.bits)
      rw [show Difficulty.expand e.hdr.bits = some tt from t1] at hx
      cases ht : powToTarget e.hdr.bits with
      | none => rw [ht] at hx; cases hx
      | some tb =>
        rw [ht] at hx
        have hk := (hi.key _ _ (hmem p (List.mem_of_getElem? p1)))
        have hke := (hi.key _ _ (hmem e (List.mem_of_getElem? e1)))
        obtain ⟨w, w1, w2, w3⟩ := calcWork_some ht hk.2.2.1
        rw [w1]
        congr 1
        apply beNat_inj (by rw [w2, hke.2.2.1])
        rw [w3, show beNat tb = tt from Option.some.inj hx]
        exact t3.symm

theorem Indexed.chained {lo : Nat} (hx : Indexed H s lo) (hwf : ∀ k e, AMap.get s.hashes k = some e → WF e.hdr)
    (n h : Nat) {p : Entry} (hlo : lo ≤ h) (hp : getByHeight s h = some p) (hn : h + n ≤ s.height) :
    ∃ es, es.length = n ∧ (∀ i, i < n → getByHeight s (h + 1 + i) = es[i]?) ∧ Chained H ⟨some p.hash, p.work⟩ (h + 1) es := by
  induction n generalizing h p with
  | zero => exact ⟨[], rfl, by simp, .nil⟩
  | succ n ih =>
    obtain ⟨e, e1, e2, e3, e4, e5⟩ := hx.all (h + 1) (by omega) (by omega)
    obtain ⟨es, a1, a2, a3⟩ := ih (h + 1) (by omega) e1 (by omega)
    obtain ⟨s1, s2⟩ := hx.step h e p hlo e1 hp (by omega)
    refine ⟨e :: es, by simp [a1], ?_, .cons e2 e3 (hwf _ _ e5) e4 (by simp [s1]) s2 a3⟩
    intro i hi
    cases i with
    | zero => simpa using e1
    | succ i =>
      rw [List.getElem?_cons_succ, ← a2 i (by omega)]
      congr 1; omega

/-! What a fold of saves leaves behind. -/

theorem foldl_save (now : Int) (es : List Entry) (s : State) :
    (es.foldl (save P now) s).hashes = es.foldl (fun m e => AMap.set m e.hash e) s.hashes ∧
    (es.foldl (save P now) s).heights = es.foldl (fun m e => AMap.set m e.height e) s.heights ∧
    (es.foldl (save P now) s).orphans = s.orphans ∧ (es.foldl (save P now) s).prevs = s.prevs ∧
    (es.foldl (save P now) s).initHeight = s.initHeight ∧
    (es.foldl (save P now) s).tip = es.getLast?.getD s.tip ∧
    (es.foldl (save P now) s).height = (es.getLast?.map (·.height)).getD s.height := by
  induction es generalizing s with
  | nil => simp
  | cons e es ih =>
    obtain ⟨i1, i2, i3, i4, i5, i6, i7⟩ := ih (save P now s e)
    have hs : (save P now s e).hashes = AMap.set s.hashes e.hash e ∧ (save P now s e).heights = AMap.set s.heights e.height e ∧
        (save P now s e).orphans = s.orphans ∧ (save P now s e).prevs = s.prevs ∧ (save P now s e).initHeight = s.initHeight ∧
        (save P now s e).tip = e ∧ (save P now s e).height = e.height := by
      unfold save maybeSync
      simp only
      split
      · simp
      · split
        · simp
        · split <;> simp
    obtain ⟨h1, h2, h3, h4, h5, h6, h7⟩ := hs
    simp only [List.foldl_cons]
    rw [i1, i2, i3, i4, i5, i6, i7, h1, h2, h3, h4, h5, h6, h7]
    refine ⟨rfl, rfl, rfl, rfl, rfl, ?_, ?_⟩
    · cases es with
      | nil => simp
      | cons a b => simp [List.getLast?_cons_cons, List.getLast?_eq_some_getLast]
    · cases es with
      | nil => simp
      | cons a b => simp [List.getLast?_cons_cons, List.getLast?_eq_some_getLast]

theorem get_foldl_key {κ : Type} [DecidableEq κ] (f : Entry → κ) (es : List Entry) (m : AMap κ Entry) (k : κ)
    (hinj : ∀ a ∈ es, ∀ b ∈ es, f a = f b → a = b) :
    AMap.get (es.foldl (fun m e => AMap.set m (f e) e) m) k = (es.find? (fun e => f e = k)).or (AMap.get m k) := by
  induction es generalizing m with
  | nil => simp
  | cons e es ih =>
    simp only [List.foldl_cons]
    rw [ih _ (fun a ha b hb => hinj a (by simp [ha]) b (by simp [hb])), AMap.get_set, List.find?_cons]
    by_cases he : f e = k
    · simp only [he, decide_true, if_true, Option.some_or]
      cases hf : es.find? (fun e => f e = k) with
      | none => rfl
      | some x =>
        have hx := List.find?_some hf
        have hm := List.mem_of_find?_eq_some hf
        simp only [decide_eq_true_eq] at hx
        rw [hinj x (by simp [hm]) e (by simp) (by rw [hx, he])]
        rfl
    · simp [he]

theorem Chained.heights {p : Prev} {h : Nat} {es : List Entry} (hc : Chained H p h es) :
    ∀ i e, es[i]? = some e → e.height = h + i := by
  induction es generalizing p h with
  | nil => simp
  | cons x es ih =>
    cases hc with
    | cons c1 c2 c3 c4 c5 c6 c7 =>
      intro i e hi
      cases i with
      | zero => simp at hi; subst hi; omega
      | succ i => have := ih c7 i e (by simpa using hi); omega

theorem Chained.inj {p : Prev} {h : Nat} {es : List Entry} (hc : Chained H p h es) :
    ∀ a ∈ es, ∀ b ∈ es, a.height = b.height → a = b := by
  intro a ha b hb hab
  obtain ⟨i, hi⟩ := List.mem_iff_getElem?.1 ha
  obtain ⟨j, hj⟩ := List.mem_iff_getElem?.1 hb
  have h1 := hc.heights i a hi
  have h2 := hc.heights j b hj
  have : i = j := by omega
  subst this
  rw [hi] at hj; exact Option.some.inj hj

/-! Where stored headers come from. -/

structure From (A : Hdr → Prop) (n : Nat) (s : State) : Prop where
  hashes : ∀ k e, AMap.get s.hashes k = some e → A e.hdr
  orphans : ∀ k o, AMap.get s.orphans k = some o → A o.hdr
  prevs : ∀ k o, AMap.get s.prevs k = some o → A o.hdr
  init : s.initHeight = n

variable {A : Hdr → Prop} {n0 : Nat}

theorem save_fields (now : Int) (s : State) (e : Entry) :
    (save P now s e).hashes = AMap.set s.hashes e.hash e ∧ (save P now s e).orphans = s.orphans ∧
    (save P now s e).prevs = s.prevs ∧ (save P now s e).initHeight = s.initHeight := by
  unfold save maybeSync
  simp only
  split
  · simp
  · split
    · simp
    · split <;> simp

theorem From.set {s s' : State} {e : Entry} (hf : From A n0 s) (hA : A e.hdr)
    (h1 : s'.hashes = AMap.set s.hashes e.hash e) (h2 : s'.orphans = s.orphans) (h3 : s'.prevs = s.prevs)
    (h4 : s'.initHeight = s.initHeight) : From A n0 s' := by
  refine ⟨?_, by rw [h2]; exact hf.orphans, by rw [h3]; exact hf.prevs, by rw [h4]; exact hf.init⟩
  intro k x hx
  rw [h1, AMap.get_set] at hx
  split at hx
  · cases hx; exact hA
  · exact hf.hashes k x hx

theorem From.place {s s' : State} {now : Int} {e : Entry} (hf : From A n0 s) (hA : A e.hdr)
    (h : place P now s e = .ok s') : From A n0 s' := by
  unfold Chain.place at h
  split at h
  · cases h; exact hf.set hA rfl rfl rfl rfl
  · split at h
    · obtain ⟨hs, _, h⟩ := Out.bind_eq_ok.1 h
      cases h
      obtain ⟨a, b, c, d⟩ := save_fields (P := P) now { s with heights := hs } e
      exact hf.set hA a b c d
    · cases h
      obtain ⟨a, b, c, d⟩ := save_fields (P := P) now s e
      exact hf.set hA a b c d

theorem From.insert {s s' : State} {now : Int} {n : Node} {prev e : Entry} (hf : From A n0 s) (hA : A n.hdr)
    (h : Chain.insert P now s n prev = .ok (.ok (s', e))) : From A n0 s' := by
  unfold Chain.insert at h
  split at h
  · cases h
  · obtain ⟨bits, _, h⟩ := Out.bind_eq_ok.1 h
    split at h
    · cases h
    · split at h
      · obtain ⟨s1, h1, h⟩ := Out.bind_eq_ok.1 h
        cases h
        exact hf.place hA h1
      · cases h

theorem From.resolve {s s' : State} {k : Bytes} {o : Node} (hf : From A n0 s)
    (h : resolveOrphan s k = some (o, s')) : From A n0 s' ∧ A o.hdr := by
  unfold resolveOrphan at h
  split at h
  · cases h
  · rename_i x hx
    cases h
    refine ⟨⟨hf.hashes, ?_, ?_, hf.init⟩, hf.prevs _ _ hx⟩
    · intro k o ho
      simp only [AMap.get_del] at ho
      split at ho
      · cases ho
      · exact hf.orphans k o ho
    · intro k o ho
      simp only [AMap.get_del] at ho
      split at ho
      · cases ho
      · exact hf.prevs k o ho

theorem From.loop {now : Int} (f : Nat) {s s' : State} {e : Entry} {rc : Rc} (hf : From A n0 s)
    (h : resolveLoop P now f s e = .ok (rc, s')) : From A n0 s' := by
  induction f generalizing s e with
  | zero => cases h
  | succ f ih =>
    unfold resolveLoop at h
    split at h
    · cases h; exact hf
    · rename_i o s1 hr
      obtain ⟨f1, f2⟩ := hf.resolve hr
      obtain ⟨r, h1, h⟩ := Out.bind_eq_ok.1 h
      cases r with
      | error rc => cases h; exact f1
      | ok p => obtain ⟨s2, e2⟩ := p; exact ih (f1.insert f2 h1) h

theorem From.add {now : Int} {s s' : State} {h : Hdr} {rc : Rc} (hf : From A n0 s) (hA : A h)
    (ha : Chain.add P H s now h = .ok (rc, s')) : From A n0 s' := by
  unfold Chain.add at ha
  dsimp only at ha
  split at ha
  · cases ha; exact hf
  · split at ha
    · cases ha; exact hf
    · split at ha
      · cases ha; exact hf
      · split at ha
        · cases ha; exact hf
        · cases ha; exact hf
        · split at ha
          · cases ha
            unfold addOrphan
            dsimp only
            split
            · refine ⟨hf.hashes, ?_, ?_, hf.init⟩ <;>
              · intro k o ho
                simp only [AMap.get_set, AMap.get_nil] at ho
                split at ho
                · cases ho; exact hA
                · cases ho
            · refine ⟨hf.hashes, ?_, ?_, hf.init⟩
              · intro k o ho
                simp only [AMap.get_set] at ho
                split at ho
                · cases ho; exact hA
                · exact hf.orphans k o ho
              · intro k o ho
                simp only [AMap.get_set] at ho
                split at ho
                · cases ho; exact hA
                · exact hf.prevs k o ho
          · obtain ⟨r, h1, h2⟩ := Out.bind_eq_ok.1 ha
            cases r with
            | error rc => cases h2; exact hf
            | ok p => obtain ⟨s2, e2⟩ := p; exact (hf.insert hA h1).loop _ h2

theorem From.run {s s' : State} (ops : List (Int × Hdr)) (hf : From A n0 s) (hA : ∀ op ∈ ops, A op.2)
    (hr : Chain.run P H s ops = .ok s') : From A n0 s' := by
  induction ops generalizing s with
  | nil => cases hr; exact hf
  | cons op ops ih =>
    obtain ⟨now, h⟩ := op
    simp only [Chain.run] at hr
    obtain ⟨r, h1, h2⟩ := Out.bind_eq_ok.1 hr
    exact ih (hf.add (hA (now, h) (by simp)) h1) (fun op hop => hA op (List.mem_cons_of_mem _ hop)) h2

/-! A checkpoint window on top of a fresh node. -/

theorem getByHash_window {es : List Entry} (now : Int) {r : State} {g : Entry} (hr : ∀ k x, AMap.get r.hashes k = some x → x = g)
    (hinj : ∀ a ∈ es, ∀ b ∈ es, a.hash = b.hash → a = b) :
    (∀ e ∈ es, AMap.get (es.foldl (save P now) r).hashes e.hash = some e) ∧
    (∀ k x, AMap.get (es.foldl (save P now) r).hashes k = some x → (x ∈ es ∧ x.hash = k) ∨ (x = g ∧ AMap.get r.hashes k = some g)) ∧
    (∀ k, (∀ e ∈ es, e.hash ≠ k) → AMap.get (es.foldl (save P now) r).hashes k = AMap.get r.hashes k) := by
  obtain ⟨h1, _⟩ := foldl_save (P := P) now es r
  have hg := get_foldl_key (fun e => e.hash) es r.hashes
  refine ⟨?_, ?_, ?_⟩
  · intro e he
    rw [h1, hg _ hinj]
    cases hf : es.find? (fun x => x.hash = e.hash) with
    | none =>
      rw [List.find?_eq_none] at hf
      exact absurd (by simp) (hf e he)
    | some x =>
      have h2 := List.find?_some hf
      have h3 := List.mem_of_find?_eq_some hf
      simp only [decide_eq_true_eq] at h2
      rw [hinj x h3 e he h2]; rfl
  · intro k x hx
    rw [h1, hg _ hinj] at hx
    cases hf : es.find? (fun x => x.hash = k) with
    | none =>
      rw [hf] at hx
      simp only [Option.none_or] at hx
      have := hr k x hx
      subst this
      exact .inr ⟨rfl, hx⟩
    | some y =>
      rw [hf] at hx
      simp only [Option.some_or, Option.some.injEq] at hx
      subst hx
      have h2 := List.find?_some hf
      simp only [decide_eq_true_eq] at h2
      exact .inl ⟨List.mem_of_find?_eq_some hf, h2⟩
  · intro k hk
    rw [h1, hg _ hinj, List.find?_eq_none.2 (by simpa using hk)]
    rfl

/-- The path below the `i`th window header. -/
theorem window_path {m : HashMap} {p : Prev} {h : Nat} (e : Entry) (es rev : List Entry) (hc : Chained H ⟨some e.hash, p.work⟩ h es)
    (hp : Path m e rev) (hm : ∀ x ∈ es, AMap.get m x.hash = some x) (hm' : AMap.get m e.hash = some e) :
    ∀ i x, es[i]? = some x → Path m x ((es.take (i + 1)).reverse ++ rev) := by
  induction es generalizing e rev p h with
  | nil => simp
  | cons a es ih =>
    cases hc with
    | cons c1 c2 c3 c4 c5 c6 c7 =>
      have hpa : Path m a (a :: rev) := .step (by rw [← c5 _ rfl]; exact hm') hp
      intro i x hx
      cases i with
      | zero => simp at hx; subst hx; simpa using hpa
      | succ i =>
        have := ih (p := ⟨none, a.work⟩) a (a :: rev) c7 hpa (fun x hx => hm x (List.mem_cons_of_mem _ hx)) (hm a (by simp)) i x (by simpa using hx)
        simpa using this

theorem validChain_window {R : Rules} {p : Prev} {h : Nat} (e : Entry) (es rev : List Entry)
    (hc : Chained H ⟨some e.hash, p.work⟩ h es) (hh : h = e.height + 1)
    (ht : ∀ x ∈ es, trusted (blk x)) (hv : ValidChain R trusted ((e :: rev).map blk)) :
    ∀ i, ValidChain R trusted (((es.take (i + 1)).reverse ++ e :: rev).map blk) := by
  induction es generalizing e rev p h with
  | nil => simpa using hv
  | cons a es ih =>
    cases hc with
    | cons c1 c2 c3 c4 c5 c6 c7 =>
      have hva : ValidChain R trusted ((a :: e :: rev).map blk) :=
        .start (ht a (by simp)) ⟨(c5 _ rfl).symm, by simp only [blk]; omega⟩ hv
      intro i
      cases i with
      | zero => simpa using hva
      | succ i =>
        have := ih (p := ⟨none, a.work⟩) a (e :: rev) c7 (by omega) (fun x hx => ht x (List.mem_cons_of_mem _ hx)) hva i
        simpa using this

/-- A window of a chain, loaded over a fresh node. -/
theorem window_inv (now : Int) {es : List Entry} {p : Prev} {h : Nat} {g : Entry} {r : State} (h2 : 2 ≤ h) (hne : es ≠ [])
    (hc : Chained H p h es)
    (hg : g.height = 0) (hgh : AMap.get r.hashes g.hash = some g) (hgk : g.hash = H g.hdr) (hgl : g.work.length = 32)
    (hgt : g.hdr.time < 2 ^ 63) (hgr : AMap.get r.hashes g.hdr.prevBlock = none)
    (hr : ∀ k x, AMap.get r.hashes k = some x → x = g) (hrh : ∀ n, AMap.get r.heights n = if n = 0 then some g else none)
    (hrk : ∀ k x, AMap.get r.hashes k = some x → k = g.hash) (hro : r.orphans = []) (hrp : r.prevs = [])
    (hinj : ∀ a ∈ es, ∀ b ∈ es, a.hash = b.hash → a = b)
    (htime : ∀ e ∈ es, e.hdr.time < 2 ^ 63)
    (hfirst : ∀ e, es[0]? = some e → e.hdr.prevBlock ≠ g.hash ∧ ∀ x ∈ es, x.hash ≠ e.hdr.prevBlock)
    (hgw : ∀ x ∈ es, x.hash ≠ g.hdr.prevBlock)
    (hwork : ∀ e ∈ es, ∀ l, es.getLast? = some l → beNat e.work ≤ beNat l.work ∧ beNat g.work ≤ beNat l.work) :
    Inv P H (fun b => b = blk g ∨ ∃ e ∈ es, b = blk e) (g.hdr.prevBlock :: (es.head?.map (·.hdr.prevBlock)).toList)
      (fun n => if n = 0 then some g else none) (es.foldl (save P now) r) := by
  obtain ⟨w1, w2, w3⟩ := getByHash_window (P := P) now hr hinj
  obtain ⟨_, f2, f3, f4, f5, f6, f7⟩ := foldl_save (P := P) now es r
  obtain ⟨e0, es', rfl⟩ := List.exists_cons_of_ne_nil hne
  have hheights := hc.heights
  have hhinj := hc.inj
  have he0 : e0.height = h := by simpa using hheights 0 e0 (by simp)
  have hge : ∀ x ∈ e0 :: es', h ≤ x.height := by
    intro x hx
    obtain ⟨i, hi⟩ := List.mem_iff_getElem?.1 hx
    have := hheights i x hi
    omega
  have hroot0 : AMap.get ((e0 :: es').foldl (save P now) r).hashes e0.hdr.prevBlock = none := by
    obtain ⟨q1, q2⟩ := hfirst e0 (by simp)
    rw [w3 _ q2]
    cases hx : AMap.get r.hashes e0.hdr.prevBlock with
    | none => rfl
    | some x => exact absurd (hrk _ _ hx) q1
  have hrootg : AMap.get ((e0 :: es').foldl (save P now) r).hashes g.hdr.prevBlock = none := by
    rw [w3 _ hgw]; exact hgr
  have hpaths : ∀ i x, (e0 :: es')[i]? = some x →
      Path ((e0 :: es').foldl (save P now) r).hashes x ((e0 :: es').take (i + 1)).reverse ∧
      ValidChain (rules P) (fun b => b = blk g ∨ ∃ e ∈ e0 :: es', b = blk e) (((e0 :: es').take (i + 1)).reverse.map blk) := by
    intro i x hx
    have htr : ∀ x ∈ e0 :: es', (fun b => b = blk g ∨ ∃ e ∈ e0 :: es', b = blk e) (blk x) := fun x hx => .inr ⟨x, hx, rfl⟩
    cases hc with
    | cons c1 c2 c3 c4 c5 c6 c7 =>
      cases i with
      | zero =>
        simp at hx; subst hx
        exact ⟨by simpa using Path.root hroot0, ValidChain.root (htr e0 (by simp))⟩
      | succ i =>
        constructor
        · have := window_path (p := ⟨none, e0.work⟩) e0 es' [e0] c7 (Path.root hroot0)
            (fun x hx => w1 x (List.mem_cons_of_mem _ hx)) (w1 e0 (by simp)) i x (by simpa using hx)
          simpa using this
        · have := validChain_window (R := rules P) (trusted := fun b => b = blk g ∨ ∃ e ∈ e0 :: es', b = blk e) (p := ⟨none, e0.work⟩) e0 es' [] c7 (by omega)
            (fun x hx => htr x (List.mem_cons_of_mem _ hx)) (ValidChain.root (htr e0 (by simp))) i
          simp only [List.take_succ_cons, List.reverse_cons]
          exact this
  have hlast : ∃ l, (e0 :: es').getLast? = some l := ⟨_, List.getLast?_eq_some_getLast (by simp)⟩
  obtain ⟨l, hl⟩ := hlast
  have hlm : l ∈ e0 :: es' := List.mem_of_getLast? hl
  have hkeyw : ∀ e ∈ e0 :: es', e.hash = H e.hdr ∧ e.work.length = 32 := by
    have : ∀ {p : Prev} {h : Nat} {es : List Entry}, Chained H p h es → ∀ e ∈ es, e.hash = H e.hdr ∧ e.work.length = 32 := by
      intro p h es hc
      induction hc with
      | nil => simp
      | cons c1 c2 c3 c4 c5 c6 c7 ih =>
        intro e he
        rcases List.mem_cons.1 he with rfl | he
        · exact ⟨c2, c4⟩
        · exact ih e he
    exact this hc
  constructor
  · intro k e he
    rcases w2 k e he with ⟨m1, rfl⟩ | ⟨rfl, m2⟩
    · obtain ⟨k1, k2⟩ := hkeyw e m1
      exact ⟨rfl, k1.symm, k2, htime e m1⟩
    · have := hrk _ _ m2
      exact ⟨this.symm, by rw [this, hgk], hgl, hgt⟩
  · intro k e he
    rcases w2 k e he with ⟨m1, rfl⟩ | ⟨rfl, m2⟩
    · obtain ⟨i, hi⟩ := List.mem_iff_getElem?.1 m1
      exact ⟨_, hpaths i e hi⟩
    · exact ⟨[e], Path.root hrootg, ValidChain.root (.inl rfl)⟩
  · intro k e he hn
    rcases w2 k e he with ⟨m1, rfl⟩ | ⟨rfl, m2⟩
    · obtain ⟨i, hi⟩ := List.mem_iff_getElem?.1 m1
      cases i with
      | zero => simp at hi; subst hi; simp
      | succ i =>
        exfalso
        have hp := (hpaths (i + 1) e hi).1
        generalize hq : ((e0 :: es').take (i + 1 + 1)).reverse = q at hp
        cases hp with
        | root _ =>
          have := congrArg List.length hq
          have hlt : i + 1 < (e0 :: es').length := (List.getElem?_eq_some_iff.1 hi).1
          simp only [List.length_reverse, List.length_take, List.length_cons, List.length_nil] at this hlt
          omega
        | step hs _ => rw [hn] at hs; cases hs
    · simp
  · rw [f6, hl]; exact w1 l hlm
  · rw [f6, f7, hl]; rfl
  · intro k e he
    rw [f6, hl]
    rcases w2 k e he with ⟨m1, rfl⟩ | ⟨rfl, m2⟩
    · exact (hwork e m1 l hl).1
    · exact (hwork l hlm l hl).2
  · refine ⟨(e0 :: es').reverse, e0, ?_, by simp, ?_⟩
    · rw [f6, hl]
      have := (hpaths ((e0 :: es').length - 1) l (by rw [← List.getLast?_eq_getElem?]; exact hl)).1
      simpa using this
    · intro n
      rw [f2, get_foldl_key (fun e => e.height) _ _ _ hhinj, hrh, he0]
      by_cases hn : h ≤ n
      · rw [if_pos hn, if_neg (by omega)]
        rw [Option.or_none]
        cases hf : (e0 :: es').find? (fun e => e.height = n) with
        | none =>
          rw [List.find?_eq_none] at hf
          exact (List.find?_eq_none.2 (fun x hx => hf x (List.mem_reverse.1 hx))).symm
        | some x =>
          have h3 := List.find?_some hf
          have h4 := List.mem_of_find?_eq_some hf
          simp only [decide_eq_true_eq] at h3
          cases hf2 : (e0 :: es').reverse.find? (fun e => e.height = n) with
          | none =>
            rw [List.find?_eq_none] at hf2
            exact absurd (by simpa using h3) (hf2 x (List.mem_reverse.2 h4))
          | some y =>
            have h5 := List.find?_some hf2
            have h6 := List.mem_of_find?_eq_some hf2
            simp only [decide_eq_true_eq] at h5
            rw [hhinj x h4 y (List.mem_reverse.1 h6) (by omega)]
      · rw [if_neg hn, List.find?_eq_none.2]
        · rfl
        · intro x hx
          have := hge x hx
          simp only [decide_eq_true_eq]; omega
  · intro k o ho; rw [f3, hro] at ho; cases ho
  · intro k o ho; rw [f4, hrp] at ho; cases ho

end Verif.Store
