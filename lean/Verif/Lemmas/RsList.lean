import Verif.Model.RsWorker
/-
The linked lists of rs_worker.c hold lists.
-/
namespace Verif.RsWorker

@[simp] theorem upd_same (h : Heap) (a : Nat) (n : Option Rsp) : upd h a n a = n := by simp [upd]

theorem upd_ne (h : Heap) {a x : Nat} (n : Option Rsp) (hx : x ≠ a) : upd h a n x = h x := by simp [upd, hx]

/-- The responses at `l` are linked in this order, between `p` and `e`. -/
def Chain (h : Heap) : Option Nat → List Nat → Option Nat → Prop
  | _, [], _ => True
  | p, a :: r, e => (∃ n, h a = some n ∧ n.prev = p ∧ n.next = r.head?.or e) ∧ Chain h (some a) r e

theorem chain_append {h : Heap} : ∀ {xs ys : List Nat} {p e : Option Nat},
    Chain h p (xs ++ ys) e ↔ Chain h p xs (ys.head?.or e) ∧ Chain h (xs.getLast?.or p) ys e := by
  intro xs
  induction xs with
  | nil => intro ys p e; simp [Chain]
  | cons a xs ih =>
    intro ys p e
    simp only [List.cons_append, Chain, ih]
    have h1 : (xs ++ ys).head?.or e = xs.head?.or (ys.head?.or e) := by
      cases xs with
      | nil => simp
      | cons b xs => simp
    have h2 : ((a :: xs).getLast?.or p) = xs.getLast?.or (some a) := by
      cases xs with
      | nil => simp
      | cons b xs => rw [List.getLast?_cons_cons, List.getLast?_cons]; simp
    rw [h1, h2, and_assoc]

theorem chain_frame {h h' : Heap} : ∀ {l : List Nat} {p e : Option Nat}, (∀ a ∈ l, h' a = h a) → Chain h p l e → Chain h' p l e := by
  intro l
  induction l with
  | nil => intro p e _ _; trivial
  | cons a r ih =>
    intro p e hf hc
    refine ⟨?_, ih (fun x hx => hf x (List.mem_cons_of_mem _ hx)) hc.2⟩
    rw [hf a (List.mem_cons_self ..)]
    exact hc.1

/-- A change to a response that leaves its links alone. -/
theorem chain_data {h : Heap} {l : List Nat} {p e : Option Nat} {a : Nat} {n n' : Rsp} (ha : h a = some n)
    (h1 : n'.prev = n.prev) (h2 : n'.next = n.next) (hc : Chain h p l e) : Chain (upd h a (some n')) p l e := by
  induction l generalizing p with
  | nil => trivial
  | cons b r ih =>
    obtain ⟨⟨m, k1, k2, k3⟩, hc2⟩ := hc
    refine ⟨?_, ih hc2⟩
    by_cases hb : b = a
    · subst hb
      rw [ha] at k1; cases k1
      exact ⟨n', by simp, h1.trans k2, h2.trans k3⟩
    · exact ⟨m, by rw [upd_ne _ _ hb]; exact k1, k2, k3⟩

theorem chain_mem {h : Heap} {l : List Nat} {p e : Option Nat} (hc : Chain h p l e) {a : Nat} (ha : a ∈ l) : ∃ n, h a = some n := by
  induction l generalizing p with
  | nil => cases ha
  | cons b r ih =>
    rcases List.mem_cons.1 ha with hb | hr
    · obtain ⟨n, hn, _⟩ := hc.1; exact ⟨n, hb ▸ hn⟩
    · exact ih hc.2 hr

theorem chain_at {h : Heap} {xs ys : List Nat} {a : Nat} {p e : Option Nat} (hc : Chain h p (xs ++ a :: ys) e) :
    ∃ n, h a = some n ∧ n.prev = xs.getLast?.or p ∧ n.next = ys.head?.or e ∧ Chain h p xs (some a) ∧ Chain h (some a) ys e := by
  obtain ⟨h1, ⟨n, h2, h3, h4⟩, h5⟩ := chain_append.1 hc
  exact ⟨n, h2, h3, h4, by simpa using h1, h5⟩

/-- The last response's link is changed. -/
theorem chain_set_last {h : Heap} {xs : List Nat} {z : Nat} {p e e' : Option Nat} (hc : Chain h p (xs ++ [z]) e)
    (hn : z ∉ xs) : ∃ n, h z = some n ∧ Chain (upd h z (some { n with next := e' })) p (xs ++ [z]) e' := by
  obtain ⟨n, h1, h2, h3, h4, _⟩ := chain_at hc
  refine ⟨n, h1, ?_⟩
  rw [chain_append]
  refine ⟨chain_frame (fun a ha => upd_ne _ _ (fun h => hn (h ▸ ha))) (by simpa using h4), ⟨{ n with next := e' }, by simp, h2, by simp⟩, trivial⟩

/-- The first response's link is changed. -/
theorem chain_set_first {h : Heap} {ys : List Nat} {z : Nat} {p p' e : Option Nat} (hc : Chain h p (z :: ys) e)
    (hn : z ∉ ys) : ∃ n, h z = some n ∧ Chain (upd h z (some { n with prev := p' })) p' (z :: ys) e := by
  obtain ⟨⟨n, h1, h2, h3⟩, h4⟩ := hc
  exact ⟨n, h1, ⟨{ n with prev := p' }, by simp, rfl, h3⟩, chain_frame (fun a ha => upd_ne _ _ (fun h => hn (h ▸ ha))) h4⟩

/-- The list `q` points to is `l`. -/
structure Holds (h : Heap) (q : Q) (l : List Nat) : Prop where
  chain : Chain h none l none
  nodup : l.Nodup
  head : q.head = l.head?
  tail : q.tail = l.getLast?

/-- What a heap says of the contents of a response. -/
def body (h : Heap) (a : Nat) : Option (Nat × Int × Option Nat) := (h a).map fun n => (n.data, n.status, n.result)

/-- The heap is changed in the links of responses in `l` only. -/
def Links (h h' : Heap) (l : List Nat) : Prop :=
  (∀ x, body h' x = body h x) ∧ ∀ x, x ∉ l → h' x = h x

theorem Links.refl (h : Heap) (l : List Nat) : Links h h l := ⟨fun _ => rfl, fun _ _ => rfl⟩

theorem Links.trans {h h' h'' : Heap} {l : List Nat} (a : Links h h' l) (b : Links h' h'' l) : Links h h'' l :=
  ⟨fun x => (b.1 x).trans (a.1 x), fun x hx => (b.2 x hx).trans (a.2 x hx)⟩

theorem Links.upd {h : Heap} {a : Nat} {n n' : Rsp} {l : List Nat} (ha : h a = some n) (hl : a ∈ l)
    (h1 : n'.data = n.data) (h2 : n'.status = n.status) (h3 : n'.result = n.result) : Links h (upd h a (some n')) l := by
  constructor
  · intro x
    by_cases hx : x = a
    · subst hx; simp [body, ha, h1, h2, h3]
    · simp [body, upd_ne _ _ hx]
  · intro x hx
    exact upd_ne _ _ (fun h => hx (h ▸ hl))

theorem Links.mono {h h' : Heap} {l l' : List Nat} (a : Links h h' l) (hl : ∀ x ∈ l, x ∈ l') : Links h h' l' :=
  ⟨a.1, fun x hx => a.2 x (fun h => hx (hl x h))⟩

theorem holds_frame {h h' : Heap} {q : Q} {l : List Nat} (hh : Holds h q l) (hf : ∀ a ∈ l, h' a = h a) : Holds h' q l :=
  ⟨chain_frame hf hh.chain, hh.nodup, hh.head, hh.tail⟩

/-- `enqueue` appends. -/
theorem enqueue_spec {h : Heap} {q : Q} {l : List Nat} {a : Nat} {n : Rsp} (hh : Holds h q l) (ha : a ∉ l)
    (hn : h a = some n) (h1 : n.prev = none) (h2 : n.next = none) :
    ∃ h' q', enqueue h q a = .ok (h', q') ∧ Holds h' q' (l ++ [a]) ∧ Links h h' (l ++ [a]) := by
  have hnd : (l ++ [a]).Nodup := List.nodup_append.2 ⟨hh.nodup, by simp, fun x hx y hy => by
    rw [List.mem_singleton] at hy; exact fun e => ha (hy ▸ e ▸ hx)⟩
  unfold enqueue
  rcases List.eq_nil_or_concat l with hl | ⟨xs, z, hl⟩
  · subst hl
    have e1 : q.tail = none := hh.tail
    have e2 : q.head = none := hh.head
    rw [e1, e2]
    exact ⟨h, ⟨some a, some a⟩, rfl, ⟨⟨⟨n, hn, h1, by simp [h2]⟩, trivial⟩, hnd, rfl, rfl⟩, Links.refl _ _⟩
  · rw [List.concat_eq_append] at hl
    subst hl
    have hz : z ∉ xs := fun hz => by
      have := (List.nodup_append.1 hh.nodup).2.2 z hz z (by simp)
      exact this rfl
    have e1 : q.tail = some z := by rw [hh.tail]; simp
    obtain ⟨nz, k1, k2⟩ := chain_set_last (e' := some a) hh.chain hz
    have haz : a ≠ z := fun e => ha (by simp [e])
    have e3 : upd h z (some { nz with next := some a }) a = some n := by rw [upd_ne _ _ haz]; exact hn
    rw [e1]; dsimp only
    rw [k1]; dsimp only
    rw [e3]; dsimp only
    refine ⟨_, _, rfl, ⟨?_, hnd, ?_, by simp⟩, ?_⟩
    · rw [chain_append]
      refine ⟨chain_frame (fun x hx => upd_ne _ _ (fun e => ha (e ▸ hx))) (by simpa using k2), ⟨_, upd_same _ _ _, by simp, by simpa using h2⟩, trivial⟩
    · rw [hh.head]; simp
    · refine Links.trans (h' := upd h z (some { nz with next := some a })) ?_ ?_
      · exact Links.upd k1 (by simp) rfl rfl rfl
      · exact Links.upd e3 (by simp) rfl rfl rfl

/-- `dequeue` takes the first, if any. -/
theorem dequeue_nil {h : Heap} {q : Q} (hh : Holds h q []) : dequeue h q = .ok (none, h, q) := by
  unfold dequeue
  rw [show q.head = none from hh.head]

theorem dequeue_spec {h : Heap} {q : Q} {l : List Nat} {a : Nat} (hh : Holds h q (a :: l)) :
    ∃ h' q', dequeue h q = .ok (some a, h', q') ∧ Holds h' q' l ∧ Links h h' (a :: l) ∧
      ∃ n, h' a = some n ∧ n.prev = none ∧ n.next = none := by
  have ha : a ∉ l := (List.nodup_cons.1 hh.nodup).1
  obtain ⟨⟨n, h1, h2, h3⟩, h4⟩ := hh.chain
  unfold dequeue
  rw [show q.head = some a from hh.head]; dsimp only
  rw [h1]; dsimp only
  rw [h3]
  cases l with
  | nil =>
    have : q.tail = some a := hh.tail
    rw [show ([] : List Nat).head?.or none = none from rfl]
    dsimp only
    rw [if_pos this]
    exact ⟨_, _, rfl, ⟨trivial, List.nodup_nil, rfl, rfl⟩, Links.upd h1 (by simp) rfl rfl rfl, _, upd_same _ _ _, h2, rfl⟩
  | cons b l =>
    have hab : b ≠ a := fun e => ha (by simp [e])
    have h5 := chain_frame (h' := upd h a (some { n with next := none })) (fun x hx => upd_ne _ _ (fun e => ha (e ▸ hx))) h4
    obtain ⟨nb, k1, k2⟩ := chain_set_first (p' := none) h5 (List.nodup_cons.1 (List.nodup_cons.1 hh.nodup).2).1
    rw [show (b :: l).head?.or none = some b from rfl]
    dsimp only
    rw [k1]
    refine ⟨_, _, rfl, ⟨k2, (List.nodup_cons.1 hh.nodup).2, rfl, ?_⟩, ?_, ?_⟩
    · rw [hh.tail, List.getLast?_cons_cons]
    · refine Links.trans (h' := upd h a (some { n with next := none })) ?_ ?_
      · exact Links.upd h1 (by simp) rfl rfl rfl
      · exact Links.upd k1 (by simp) rfl rfl rfl
    · exact ⟨{ n with next := none }, by rw [upd_ne _ _ (fun e => hab e.symm), upd_same], h2, rfl⟩

/-- `remove` takes one out, wherever it is. -/
theorem remove_spec {h : Heap} {q : Q} {xs ys : List Nat} {a : Nat} (hh : Holds h q (xs ++ a :: ys)) :
    ∃ h' q', remove h q a = .ok (h', q') ∧ Holds h' q' (xs ++ ys) ∧ Links h h' (xs ++ a :: ys) ∧
      ∃ n, h' a = some n ∧ n.prev = none ∧ n.next = none := by
  obtain ⟨n, h1, h2, h3, h4, h5⟩ := chain_at hh.chain
  have hnd := List.nodup_append.1 hh.nodup
  have hax : a ∉ xs := fun hx => hnd.2.2 a hx a (by simp) rfl
  have hay : a ∉ ys := (List.nodup_cons.1 hnd.2.1).1
  have hxy : ∀ x ∈ xs, x ∉ ys := fun x hx hy => hnd.2.2 x hx x (List.mem_cons_of_mem _ hy) rfl
  have hnd' : (xs ++ ys).Nodup := List.nodup_append.2 ⟨hnd.1, (List.nodup_cons.1 hnd.2.1).2, fun x hx y hy e => hxy x hx (e ▸ hy)⟩
  have hh1 : q.head.isNone = false := by rw [hh.head]; cases xs <;> simp
  have hh2 : q.tail.isNone = false := by rw [hh.tail]; simp
  rw [Option.or_none] at h2 h3
  -- the first half
  have half1 : ∃ ha qa, unlinkPrev h q a n = .ok (ha, qa) ∧
      Chain ha none xs ys.head? ∧ (∀ x, x ∉ xs → ha x = h x) ∧ Links h ha (xs ++ a :: ys) ∧ qa.tail = q.tail ∧
      qa.head = (xs ++ ys).head? := by
    unfold unlinkPrev
    rw [h2, h3]
    rcases List.eq_nil_or_concat xs with hx | ⟨xs', z, hx⟩
    · subst hx
      have : q.head = some a := hh.head
      exact ⟨h, { q with head := ys.head? }, by simp [this], trivial, fun _ _ => rfl, Links.refl _ _, rfl, by simp⟩
    · rw [List.concat_eq_append] at hx
      subst hx
      have hz : z ∉ xs' := fun hz => (List.nodup_append.1 hnd.1).2.2 z hz z (by simp) rfl
      obtain ⟨nz, k1, k2⟩ := chain_set_last (e' := ys.head?) h4 hz
      rw [show (xs' ++ [z]).getLast? = some z by simp]
      dsimp only
      rw [k1]
      refine ⟨_, _, rfl, k2, ?_, Links.upd k1 (by simp) rfl rfl rfl, rfl, ?_⟩
      · intro x hx
        exact upd_ne _ _ (fun e => hx (by simp [e]))
      · rw [hh.head]; cases xs' <;> simp
  obtain ⟨ha, qa, e1, c1, f1, l1, t1, d1⟩ := half1
  have half2 : ∃ hb qb, unlinkNext ha qa a n = .ok (hb, qb) ∧
      Chain hb xs.getLast? ys none ∧ (∀ x, x ∉ ys → hb x = ha x) ∧ Links h hb (xs ++ a :: ys) ∧ qb.head = qa.head ∧
      qb.tail = (xs ++ ys).getLast? := by
    have c2 : Chain ha (some a) ys none := chain_frame (fun x hx => f1 x (fun hx' => hxy x hx' hx)) h5
    unfold unlinkNext
    rw [h2, h3]
    cases ys with
    | nil =>
      have : qa.tail = some a := by rw [t1, hh.tail]; simp
      exact ⟨ha, { qa with tail := xs.getLast? }, by simp [this], trivial, fun _ _ => rfl, l1, rfl, by simp⟩
    | cons y ys =>
      obtain ⟨ny, k1, k2⟩ := chain_set_first (p' := xs.getLast?) c2 (List.nodup_cons.1 (List.nodup_cons.1 hnd.2.1).2).1
      rw [show (y :: ys).head? = some y from rfl]
      dsimp only
      rw [k1]
      refine ⟨_, _, rfl, k2, ?_, l1.trans (Links.upd k1 (by simp) rfl rfl rfl), rfl, ?_⟩
      · intro x hx
        exact upd_ne _ _ (fun e => hx (by simp [e]))
      · rw [t1, hh.tail, List.getLast?_append, List.getLast?_append, List.getLast?_cons_cons, List.getLast?_cons]
  obtain ⟨hb, qb, e2, c2, f2, l2, d2, t2⟩ := half2
  have hba : hb a = some n := by rw [f2 a hay, f1 a hax, h1]
  unfold remove
  rw [if_neg (by simp [hh1, hh2])]
  rw [h1]
  dsimp only
  rw [e1]
  dsimp only [Out.bind]
  rw [e2]
  dsimp only
  rw [hba]
  dsimp only
  refine ⟨_, _, rfl, ⟨?_, hnd', d2.trans d1, t2⟩, l2.trans (Links.upd hba (by simp) rfl rfl rfl), _, upd_same _ _ _, rfl, rfl⟩
  rw [chain_append]
  refine ⟨?_, ?_⟩
  · refine chain_frame (fun x hx => ?_) (by simpa using c1)
    rw [upd_ne _ _ (fun (e : x = a) => hax (e ▸ hx)), f2 x (hxy x hx)]
  · refine chain_frame (fun x hx => ?_) (by simpa using c2)
    rw [upd_ne _ _ (fun (e : x = a) => hay (e ▸ hx))]

end Verif.RsWorker
