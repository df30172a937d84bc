import Verif.Lemmas.DnsParse
/-
Serialising of names.
-/
namespace Verif.DnsName
open Verif.Spec.DnsName

theorem serLoop_char (d : Option Dst) {c : UInt8} (hc : c ≠ 0x2e) (s : Bytes) (i : Nat) (cur : Bytes) (dot : Bool) (off : Nat) (out : Bytes) (t : Table) :
    serLoop d (c :: s) i cur dot off out t = serLoop d s (i + 1) (cur ++ [c]) false off out t := by
  cases d <;> simp [serLoop, hc]

theorem serLoop_dot_none (s : Bytes) (i : Nat) (cur : Bytes) (off : Nat) (out : Bytes) (t : Table) (h : cur.length ≤ 63) :
    serLoop none (0x2e :: s) i cur false off out t = serLoop none s (i + 1) [] true (off + 1 + cur.length) out t := by
  rw [serLoop, if_neg (by simp), if_neg (by simp), if_neg (by omega)]

theorem serLoop_dot_some {b : Dst} (s : Bytes) (i : Nat) (cur : Bytes) (off : Nat) (out : Bytes) (t : Table) (h : cur.length ≤ 63) :
    serLoop (some b) (0x2e :: s) i cur false off out t =
      if off + 1 + cur.length > 256 then .ok ⟨false, off, out, t⟩
        else (store b off 1).bind fun _ =>
          if find (some b) t (cur ++ 0x2e :: s) ≠ 0 then
            finishPtr b (i + 1 + s.length) (cur ++ 0x2e :: s) off out (find (some b) t (cur ++ 0x2e :: s)) t
          else (store b (off + 1) cur.length).bind fun _ =>
            serLoop (some b) s (i + 1) [] true (off + 1 + cur.length) (out ++ UInt8.ofNat cur.length :: cur.map unesc)
              (remember (some b) t (cur ++ 0x2e :: s) off) := by
  rw [serLoop, if_neg (by simp), if_neg (by simp), if_neg (by omega)]

theorem serLoop_chars (d : Option Dst) (l s : Bytes) (h : 0x2e ∉ l) (i : Nat) (cur : Bytes) (dot : Bool) (off : Nat) (out : Bytes) (t : Table) :
    serLoop d (l ++ s) i cur dot off out t = serLoop d s (i + l.length) (cur ++ l) (if l = [] then dot else false) off out t := by
  induction l generalizing i cur dot with
  | nil => simp
  | cons c l ih =>
    have hc : c ≠ 0x2e := fun e => h (by simp [e])
    rw [List.cons_append, serLoop_char d hc, ih (fun hm => h (List.mem_cons_of_mem _ hm))]
    simp only [List.length_cons, reduceCtorEq, if_false, ite_self, List.append_assoc, List.singleton_append]
    congr 1
    omega

theorem serLoop_label {d : Option Dst} {l : Bytes} (h : OkLabel l) (s : Bytes) (i : Nat) (dot : Bool) (off : Nat) (out : Bytes) (t : Table) :
    serLoop d (l ++ 0x2e :: s) i [] dot off out t = serLoop d (0x2e :: s) (i + l.length) l false off out t := by
  rw [serLoop_chars d l (0x2e :: s) h.2.2.2, if_neg (fun e => by have := h.1; simp [e] at this)]
  simp

/-- The labels on the wire. -/
def wireBody (ls : List Bytes) : Bytes := (ls.map fun l => UInt8.ofNat l.length :: l.map raw).flatten

theorem wireBody_cons (l : Bytes) (ls : List Bytes) : wireBody (l :: ls) = (UInt8.ofNat l.length :: l.map raw) ++ wireBody ls := by
  simp [wireBody]

theorem wire_eq (ls : List Bytes) : wire ls = wireBody ls ++ [0] := rfl

theorem wireBody_length (ls : List Bytes) : (wireBody ls).length = (body ls).length := by
  induction ls with
  | nil => rfl
  | cons l ls ih => rw [wireBody_cons, body_cons]; simp [ih]; omega

theorem serLoop_dry {ls : List Bytes} (h : ∀ l ∈ ls, OkLabel l) (i : Nat) (dot : Bool) (off : Nat) (out : Bytes) (t : Table) :
    serLoop none (body ls) i [] dot off out t =
      finish none (i + (body ls).length) (if ls = [] then dot else true) (off + (body ls).length) out t := by
  induction ls generalizing i dot off with
  | nil => simp [body, serLoop]
  | cons l ls ih =>
    have hl := h l List.mem_cons_self
    rw [body_cons, serLoop_label hl, serLoop_dot_none _ _ _ _ _ _ hl.2.1]
    rw [ih (fun x hx => h x (List.mem_cons_of_mem _ hx))]
    simp only [List.length_append, List.length_cons, reduceCtorEq, if_false, ite_self]
    congr 1 <;> omega

theorem find_off {base cap : Nat} (t : Table) (s : Bytes) : find (some ⟨base, cap, false⟩) t s = 0 := by simp [find]
theorem remember_off {base cap : Nat} (t : Table) (s : Bytes) (o : Nat) : remember (some ⟨base, cap, false⟩) t s o = t := by simp [remember]

theorem store_ok {d : Dst} {i n : Nat} (h : d.base + i + n ≤ d.cap) : store d i n = .ok () := by rw [store, if_pos h]

theorem serLoop_plain {base cap : Nat} {ls : List Bytes} (h : ∀ l ∈ ls, OkLabel l) (i : Nat) (dot : Bool) (off : Nat) (out : Bytes) (t : Table)
    (h1 : off + (body ls).length ≤ 256) (h2 : base + off + (body ls).length ≤ cap) :
    serLoop (some ⟨base, cap, false⟩) (body ls) i [] dot off out t =
      finish (some ⟨base, cap, false⟩) (i + (body ls).length) (if ls = [] then dot else true) (off + (body ls).length) (out ++ wireBody ls) t := by
  induction ls generalizing i dot off out with
  | nil => simp [body, serLoop, wireBody]
  | cons l ls ih =>
    have hl := h l List.mem_cons_self
    rw [body_cons] at h1 h2
    simp only [List.length_append, List.length_cons] at h1 h2
    rw [body_cons, serLoop_label hl, serLoop_dot_some _ _ _ _ _ _ hl.2.1]
    rw [if_neg (by omega), store_ok (by dsimp only; omega)]
    dsimp only [Out.bind]
    rw [find_off, if_neg (by simp), store_ok (by dsimp only; omega)]
    dsimp only [Out.bind]
    rw [remember_off, ih (fun x hx => h x (List.mem_cons_of_mem _ hx)) _ _ _ _ (by omega) (by omega), wireBody_cons, unesc_eq]
    simp only [List.length_append, List.length_cons, reduceCtorEq, if_false, ite_self, List.append_assoc]
    congr 1 <;> omega

/-! ### Uniqueness of the label structure -/

theorem body_inj {a b : List Bytes} (ha : ∀ l ∈ a, OkLabel l) (hb : ∀ l ∈ b, OkLabel l) (h : body a = body b) : a = b := by
  induction a generalizing b with
  | nil =>
    cases b with
    | nil => rfl
    | cons l ls => rw [body_cons] at h; simp [body] at h
  | cons x xs ih =>
    cases b with
    | nil => rw [body_cons] at h; simp [body] at h
    | cons y ys =>
      rw [body_cons, body_cons] at h
      have key : ∀ (x y : Bytes) (r s : Bytes), 0x2e ∉ x → 0x2e ∉ y → x ++ 0x2e :: r = y ++ 0x2e :: s → x = y ∧ r = s := by
        intro x
        induction x with
        | nil =>
          intro y r s _ hy he
          cases y with
          | nil => exact ⟨rfl, by simpa using he⟩
          | cons c y => simp at he; exact absurd he.1 (fun e => hy (by simp [← e]))
        | cons c x ihx =>
          intro y r s hx hy he
          cases y with
          | nil => simp at he; exact absurd he.1 (fun e => hx (by simp [e]))
          | cons c' y =>
            simp only [List.cons_append, List.cons.injEq] at he
            obtain ⟨rfl, he⟩ := he
            obtain ⟨rfl, rfl⟩ := ihx y r s (fun hm => hx (List.mem_cons_of_mem _ hm)) (fun hm => hy (List.mem_cons_of_mem _ hm)) he
            exact ⟨rfl, rfl⟩
      obtain ⟨rfl, h'⟩ := key x y _ _ (ha x List.mem_cons_self).2.2.2 (hb y List.mem_cons_self).2.2.2 h
      rw [ih (fun l hl => ha l (List.mem_cons_of_mem _ hl)) (fun l hl => hb l (List.mem_cons_of_mem _ hl)) h']

theorem text_inj {a b : List Bytes} (ha : ∀ l ∈ a, OkLabel l) (hb : ∀ l ∈ b, OkLabel l) (h : text a = text b) : a = b := by
  have len : ∀ {x : List Bytes}, (∀ l ∈ x, OkLabel l) → x ≠ [] → 2 ≤ (body x).length := by
    intro x hx hne
    have := two_le_body hx
    have : 0 < x.length := List.length_pos_iff.2 hne
    omega
  unfold text at h
  by_cases h1 : a = [] <;> by_cases h2 : b = []
  · rw [h1, h2]
  · rw [if_pos h1, if_neg h2] at h
    have := len hb h2
    rw [← h] at this; simp at this
  · rw [if_neg h1, if_pos h2] at h
    have := len ha h1
    rw [h] at this; simp at this
  · rw [if_neg h1, if_neg h2] at h
    exact body_inj ha hb h

/-! ### Compression -/

theorem _root_.Verif.Spec.DnsName.Expands.le {back : Bool} {msg : Bytes} {o : Nat} {ls : List Bytes} {e d : Nat} (h : Expands back msg o ls e d) : e ≤ msg.length ∧ o < e :=
  h.walk.le

theorem _root_.Verif.Spec.DnsName.Expands.ok {back : Bool} {msg : Bytes} {o : Nat} {ls : List Bytes} {e d : Nat} (h : Expands back msg o ls e d) : ∀ l ∈ ls, OkLabel l :=
  h.walk.ok

theorem getElem?_append_some {a b : Bytes} {i : Nat} {x : UInt8} (h : a[i]? = some x) : (a ++ b)[i]? = some x := by
  rw [List.getElem?_append_left (lt_of_getElem? h)]; exact h

theorem _root_.Verif.Spec.DnsName.Expands.append {back : Bool} {msg : Bytes} {o : Nat} {ls : List Bytes} {e d : Nat} (h : Expands back msg o ls e d) (x : Bytes) :
    Expands back (msg ++ x) o ls e d := by
  induction h with
  | root h => exact .root (getElem?_append_some h)
  | @label o l ls e d hl h hb hr ih =>
    have := hr.le
    refine .label hl (getElem?_append_some h) ?_ ih
    rw [List.drop_append_of_le_length (by omega), List.take_append_of_le_length (by rw [List.length_drop]; omega)]
    exact hb
  | pointer ha hb hp hlt hr ih => exact .pointer (getElem?_append_some ha) (getElem?_append_some hb) hp hlt ih

theorem _root_.Verif.Spec.DnsName.Expands.forget {msg : Bytes} {o : Nat} {ls : List Bytes} {e d : Nat} (h : Expands true msg o ls e d) : Expands false msg o ls e d := by
  induction h with
  | root h => exact .root h
  | label hl h hb hr ih => exact .label hl h hb ih
  | pointer ha hb hp hlt hr ih => exact .pointer ha hb hp (by simp) ih

/-- A table entry whose text stands at its offset. -/
def Entry (pre : Bytes) (s : Bytes) (o : Nat) : Prop :=
  0 < o ∧ o < 16384 ∧ ∃ ls e d, ls ≠ [] ∧ s = body ls ∧ Expands true pre o ls e d ∧ d + 1 ≤ ls.length

theorem Entry.append {pre s : Bytes} {o : Nat} (h : Entry pre s o) (x : Bytes) : Entry (pre ++ x) s o := by
  obtain ⟨h1, h2, ls, e, d, h3, h4, h5, h6⟩ := h
  exact ⟨h1, h2, ls, e, d, h3, h4, h5.append x, h6⟩

theorem xor_tag {p : Nat} (h : p < 16384) : p ^^^ 0xc000 = p + 0xc000 := by
  rw [← Nat.div_add_mod (p ^^^ 0xc000) (2 ^ 14), Nat.xor_div_two_pow, Nat.xor_mod_two_pow, Nat.div_eq_of_lt h, Nat.mod_eq_of_lt h]
  simp
  omega

theorem getLast?_body {ls : List Bytes} (h : ls ≠ []) : (body ls).getLast? = some 0x2e := by
  induction ls with
  | nil => exact absurd rfl h
  | cons l ls ih =>
    rw [body_cons]
    cases ls with
    | nil => simp [body]
    | cons y ys =>
      rw [List.getLast?_append, List.getLast?_cons, ih (by simp)]
      simp

theorem map_shown_raw {l : Bytes} (h0 : 0 ∉ l) (h1 : 0x2e ∉ l) : (l.map raw).map shown = l := by
  induction l with
  | nil => rfl
  | cons c l ih =>
    rw [List.map_cons, List.map_cons, shown_raw (fun e => h0 (by simp [e])) (fun e => h1 (by simp [e])),
      ih (fun hm => h0 (List.mem_cons_of_mem _ hm)) (fun hm => h1 (List.mem_cons_of_mem _ hm))]

/-- A label in the middle of a message. -/
theorem expands_label {back : Bool} {pre post : Bytes} {l : Bytes} {ls : List Bytes} {e d : Nat} (hl : OkLabel l)
    (h : Expands back (pre ++ (UInt8.ofNat l.length :: l.map raw) ++ post) (pre.length + 1 + l.length) ls e d) :
    Expands back (pre ++ (UInt8.ofNat l.length :: l.map raw) ++ post) pre.length (l :: ls) e d := by
  refine .label hl ?_ ?_ h
  · rw [List.append_assoc, List.getElem?_append_right (Nat.le_refl _)]
    simp
  · have : (pre ++ (UInt8.ofNat l.length :: l.map raw) ++ post).drop (pre.length + 1) = l.map raw ++ post := by
      rw [List.append_assoc, List.drop_append]
      simp
    rw [this, List.take_left' (by simp)]
    exact map_shown_raw hl.2.2.1 hl.2.2.2

theorem serLoop_cmp {base cap : Nat} {pre : Bytes} (hpre : pre.length = base) (hb : 0 < base) {ls : List Bytes} (h : ∀ l ∈ ls, OkLabel l) :
    ∀ (i : Nat) (dot : Bool) (off : Nat) (out : Bytes) (t : Table), out.length = off → i + (body ls).length ≤ 255 →
      (ls = [] → dot = true ∧ 2 ≤ i) → off + (body ls).length + 1 ≤ 256 → base + off + (body ls).length + 1 ≤ cap →
      (∀ s o, s.length ≤ (body ls).length → t.get s = some o → Entry pre s o) →
      ∃ out2 t2 dd, serLoop (some ⟨base, cap, true⟩) (body ls) i [] dot off out t = .ok ⟨true, off + out2.length, out ++ out2, t2⟩ ∧
        out2.length ≤ (body ls).length + 1 ∧ Expands true (pre ++ out ++ out2) (base + off) ls (base + off + out2.length) dd ∧ dd ≤ ls.length ∧
        ((∀ s, s.length ≤ (body ls).length → t.get s = none) → dd = 0) ∧
        ∀ s o, t2.get s = some o → t.get s = some o ∨ Entry (pre ++ out ++ out2) s o := by
  induction ls with
  | nil =>
    intro i dot off out t ho hi hd h1 h2 ht
    obtain ⟨rfl, hi2⟩ := hd rfl
    refine ⟨[0], t, 0, ?_, by simp [body], ?_, by simp, fun _ => rfl, fun s o h => .inl h⟩
    · simp only [body, List.map_nil, List.flatten_nil, List.length_nil, Nat.add_zero] at hi h1 h2 ⊢
      rw [serLoop, finish, if_neg (by omega), if_neg (by simp; omega), if_neg (by omega)]
      rw [if_neg (by omega), store_ok (by dsimp only; omega)]
      rfl
    · refine .root ?_
      rw [List.getElem?_append_right (by simp; omega)]
      simp [hpre, ho]
  | cons l ls ih =>
    intro i dot off out t ho hi hd h1 h2 ht
    have hl := h l List.mem_cons_self
    have hls := fun x hx => h x (List.mem_cons_of_mem l hx)
    have hl1 := hl.1
    have hl2 := hl.2.1
    have hlen : (body (l :: ls)).length = l.length + 1 + (body ls).length := by
      rw [body_cons]; simp; omega
    rw [hlen] at hi h1 h2 ht ⊢
    rw [body_cons, serLoop_label hl, serLoop_dot_some _ _ _ _ _ _ hl2]
    rw [if_neg (by omega), store_ok (by dsimp only; omega)]
    dsimp only [Out.bind]
    have hsub : l ++ 0x2e :: body ls = body (l :: ls) := (body_cons l ls).symm
    rw [hsub]
    have hne : body (l :: ls) ≠ [0x2e] := by
      intro e
      have := congrArg List.length e
      rw [hlen] at this
      simp only [List.length_cons, List.length_nil] at this
      omega
    cases hg : t.get (body (l :: ls)) with
    | some p =>
      obtain ⟨hp0, hp1, ls', e, d, hne', heq, hex, hdd⟩ := ht _ p (by rw [hlen]; omega) hg
      have := body_inj h hex.ok heq
      subst this
      have hf : find (some ⟨base, cap, true⟩) t (body (l :: ls)) = p := by simp [find, hne, hg]
      rw [hf, if_pos (by omega)]
      rw [finishPtr, if_neg (by omega), getLast?_body (by simp), if_neg (by simp), if_neg (by omega), store_ok (by dsimp only; omega)]
      dsimp only [Out.bind]
      have hplt : p < base := by have := hex.le; omega
      refine ⟨[UInt8.ofNat ((p ^^^ 0xc000) / 256 % 256), UInt8.ofNat ((p ^^^ 0xc000) % 256)], t, d + 1, rfl, by simp only [List.length_cons, List.length_nil]; omega, ?_, by omega,
        (fun hn => by have := hn _ (Nat.le_of_eq hlen); rw [this] at hg; cases hg), fun s o h => .inl h⟩
      have hF := (hex.append out).append [UInt8.ofNat ((p ^^^ 0xc000) / 256 % 256), UInt8.ofNat ((p ^^^ 0xc000) % 256)]
      refine .pointer (a := UInt8.ofNat ((p ^^^ 0xc000) / 256 % 256)) (b := UInt8.ofNat ((p ^^^ 0xc000) % 256)) ?_ ?_ ?_ (fun _ => by omega) hF
      · rw [List.getElem?_append_right (by simp; omega)]
        simp [hpre, ho]
      · rw [List.getElem?_append_right (by simp; omega)]
        rw [List.length_append, hpre, ho, show base + off + 1 - (base + off) = 1 by omega]
        rfl
      · rw [xor_tag hp1]
        simp only [UInt8.toNat_ofNat']
        omega
    | none =>
      have hf : find (some ⟨base, cap, true⟩) t (body (l :: ls)) = 0 := by simp [find, hg]
      rw [hf, if_neg (by simp), store_ok (by dsimp only; omega)]
      dsimp only [Out.bind]
      have hrem : ∀ s, s ≠ body (l :: ls) → (remember (some ⟨base, cap, true⟩) t (body (l :: ls)) off).get s = t.get s := by
        intro s hs
        unfold remember
        dsimp only
        split
        · rw [AMap.get_set, if_neg (fun e => hs e.symm)]
        · rfl
      have hrem2 : ∀ o, (remember (some ⟨base, cap, true⟩) t (body (l :: ls)) off).get (body (l :: ls)) = some o → o = base + off ∧ base + off < 16384 := by
        intro o
        unfold remember
        dsimp only
        split
        · rename_i hc
          rw [AMap.get_set, if_pos rfl]
          intro e
          exact ⟨(Option.some.inj e).symm, hc.2.2⟩
        · rw [hg]; intro e; cases e
      obtain ⟨out2, t2, dd, e1, e2, e3, e4, e6, e5⟩ := ih hls (i + l.length + 1) true (off + 1 + l.length) (out ++ UInt8.ofNat l.length :: l.map unesc)
        (remember (some ⟨base, cap, true⟩) t (body (l :: ls)) off) (by simp [ho]; omega) (by omega) (fun _ => ⟨rfl, by omega⟩) (by omega) (by omega)
        (fun s o hs hget => by
          rw [hrem s (fun e => by rw [e, hlen] at hs; omega)] at hget
          exact ht s o (by omega) hget)
      rw [unesc_eq] at e1 e3 e5
      have hF : pre ++ out ++ (UInt8.ofNat l.length :: l.map raw ++ out2) = pre ++ (out ++ UInt8.ofNat l.length :: l.map raw) ++ out2 := by simp
      have hE : Expands true (pre ++ out ++ (UInt8.ofNat l.length :: l.map raw ++ out2)) (base + off) (l :: ls)
          (base + off + (UInt8.ofNat l.length :: l.map raw ++ out2).length) dd := by
        have hx := expands_label (pre := pre ++ out) (post := out2) (l := l) (ls := ls) (e := base + (off + 1 + l.length) + out2.length) (d := dd) (back := true) hl
        rw [show pre ++ out ++ (UInt8.ofNat l.length :: l.map raw) ++ out2 = pre ++ (out ++ UInt8.ofNat l.length :: l.map raw) ++ out2 by simp,
          show (pre ++ out).length = base + off by simp [hpre, ho], show base + off + 1 + l.length = base + (off + 1 + l.length) by omega] at hx
        rw [hF, show base + off + (UInt8.ofNat l.length :: l.map raw ++ out2).length = base + (off + 1 + l.length) + out2.length by simp; omega]
        exact hx e3
      refine ⟨UInt8.ofNat l.length :: l.map raw ++ out2, t2, dd, ?_, ?_, hE, by simp; omega, ?_, ?_⟩
      · rw [unesc_eq, e1]
        simp; omega
      · simp; omega
      · intro hn
        exact e6 fun s hs => by rw [hrem s (fun e => by rw [e, hlen] at hs; omega)]; exact hn s (by omega)
      · intro s o hget
        rcases e5 s o hget with hold | hnew
        · by_cases hs : s = body (l :: ls)
          · subst hs
            obtain ⟨rfl, hlt⟩ := hrem2 o hold
            exact .inr ⟨by omega, hlt, l :: ls, _, dd, by simp, rfl, hE, by simp; omega⟩
          · rw [hrem s hs] at hold
            exact .inl hold
        · exact .inr (by rw [hF]; exact hnew)

/-- The table describes the message so far. -/
def TableOk (pre : Bytes) (t : Table) : Prop := ∀ s o, t.get s = some o → Entry pre s o

theorem serialize_cmp {base cap : Nat} {pre : Bytes} (hpre : pre.length = base) (hb : 0 < base) {ls : List Bytes} (h : OkName ls) {t : Table}
    (ht : TableOk pre t) (hc : base + (wire ls).length ≤ cap) :
    ∃ out t2 dd, serialize (some ⟨base, cap, true⟩) (text ls) t = .ok ⟨true, out.length, out, t2⟩ ∧ out.length ≤ (wire ls).length ∧
      Expands true (pre ++ out) base ls (base + out.length) dd ∧ dd ≤ ls.length ∧ (t = [] → dd = 0) ∧ TableOk (pre ++ out) t2 := by
  have hw : (wire ls).length = (body ls).length + 1 := by rw [wire_eq]; simp [wireBody_length]
  by_cases hls : ls = []
  · subst hls
    refine ⟨[0], t, 0, ?_, by simp [wire], ?_, by simp, fun _ => rfl, fun s o hg => (ht s o hg).append _⟩
    · unfold serialize text
      rw [if_pos rfl, serLoop_dot_some _ _ _ _ _ _ (by simp)]
      simp only [body, List.map_nil, List.flatten_nil, List.length_nil] at hw
      rw [if_neg (by simp), store_ok (by dsimp only; omega)]
      dsimp only [Out.bind]
      have hf : find (some ⟨base, cap, true⟩) t ([] ++ [0x2e]) = 0 := by simp [find]
      have hr : remember (some ⟨base, cap, true⟩) t ([] ++ [0x2e]) 0 = t := by simp [remember]
      rw [hf, if_neg (by simp), store_ok (by dsimp only; simp; omega)]
      dsimp only [Out.bind]
      rw [hr]
      rfl
    · refine .root ?_
      rw [List.getElem?_append_right (by omega), hpre]
      simp
  · have hbl := body_length_of_text h.2
    have hne : text ls = body ls := by unfold text; rw [if_neg hls]
    unfold serialize
    rw [hne]
    obtain ⟨out, t2, dd, e1, e2, e3, e4, e6, e5⟩ := serLoop_cmp (cap := cap) hpre hb h.1 0 false 0 [] t rfl (by omega) (fun e => absurd e hls) (by omega) (by omega)
      (fun s o _ hg => ht s o hg)
    simp only [List.append_nil, List.nil_append, Nat.zero_add, Nat.add_zero] at e1 e3 e5
    refine ⟨out, t2, dd, e1, by omega, e3, e4, fun he => e6 fun s _ => by rw [he]; rfl, ?_⟩
    intro s o hg
    rcases e5 s o hg with h1 | h1
    · exact (ht s o h1).append _
    · exact h1

theorem wire_length (ls : List Bytes) : (wire ls).length = (body ls).length + 1 := by rw [wire_eq]; simp [wireBody_length]

theorem two_le_body' {ls : List Bytes} (h : ∀ l ∈ ls, OkLabel l) (hne : ls ≠ []) : 2 ≤ (body ls).length := by
  have := two_le_body h
  have : 0 < ls.length := List.length_pos_iff.2 hne
  omega

theorem serialize_dry {ls : List Bytes} (h : OkName ls) (t : Table) :
    serialize none (text ls) t = .ok ⟨true, (wire ls).length, [], t⟩ := by
  rw [wire_length]
  by_cases hls : ls = []
  · subst hls; rfl
  · have hbl := body_length_of_text h.2
    have h2 := two_le_body' h.1 hls
    have hne : text ls = body ls := by unfold text; rw [if_neg hls]
    rw [serialize, hne, serLoop_dry h.1, if_neg hls, finish, if_neg (by omega), if_neg (fun e => by rcases e with e | e; omega; cases e), if_neg (by omega)]
    simp

theorem serialize_plain {base cap : Nat} {ls : List Bytes} (h : OkName ls) (t : Table) (hc : base + (wire ls).length ≤ cap) :
    serialize (some ⟨base, cap, false⟩) (text ls) t = .ok ⟨true, (wire ls).length, wire ls, t⟩ := by
  rw [wire_length] at hc ⊢
  by_cases hls : ls = []
  · subst hls
    unfold serialize text
    rw [if_pos rfl, serLoop_dot_some _ _ _ _ _ _ (by simp)]
    simp only [body, List.map_nil, List.flatten_nil, List.length_nil] at hc
    rw [if_neg (by simp), store_ok (by dsimp only; omega)]
    dsimp only [Out.bind]
    rw [find_off, if_neg (by simp), store_ok (by dsimp only; simp; omega), remember_off]
    rfl
  · have hbl := body_length_of_text h.2
    have h2 := two_le_body' h.1 hls
    have hne : text ls = body ls := by unfold text; rw [if_neg hls]
    rw [serialize, hne, serLoop_plain h.1 _ _ _ _ _ (by omega) (by omega), if_neg hls, finish, if_neg (by omega), if_neg (fun e => by rcases e with e | e; omega; cases e), if_neg (by omega)]
    rw [if_neg (by omega), store_ok (by dsimp only; omega), wire_eq]
    simp [Out.bind]

/-! ### Which texts are accepted -/

theorem split_dot : ∀ {x y r s : Bytes}, 0x2e ∉ x → 0x2e ∉ y → x ++ 0x2e :: r = y ++ 0x2e :: s → x = y ∧ r = s := by
  intro x
  induction x with
  | nil =>
    intro y r s _ hy he
    cases y with
    | nil => exact ⟨rfl, by simpa using he⟩
    | cons c y => simp at he; exact absurd he.1 (fun e => hy (by simp [← e]))
  | cons c x ihx =>
    intro y r s hx hy he
    cases y with
    | nil => simp at he; exact absurd he.1 (fun e => hx (by simp [e]))
    | cons c' y =>
      simp only [List.cons_append, List.cons.injEq] at he
      obtain ⟨rfl, he⟩ := he
      obtain ⟨rfl, rfl⟩ := ihx (fun hm => hx (List.mem_cons_of_mem _ hm)) (fun hm => hy (List.mem_cons_of_mem _ hm)) he
      exact ⟨rfl, rfl⟩

theorem dot_mem_body {ls : List Bytes} (h : ls ≠ []) : 0x2e ∈ body ls := List.mem_of_getLast? (getLast?_body h)

/-- What is left to read completes a name. -/
structure Completes (cur s : Bytes) (dot : Bool) (ls : List Bytes) : Prop where
  eq : cur ++ s = body ls
  short : ∀ l ∈ ls, l.length ≤ 63 ∧ 0x2e ∉ l
  tail : ∀ l ∈ ls.tail, l ≠ []
  head : dot = true → ls.head? ≠ some []
  some : ls = [] → dot = true

theorem serLoop_accepts (s : Bytes) : ∀ (i : Nat) (cur : Bytes) (dot : Bool) (off : Nat) (out : Bytes) (t : Table), 0x2e ∉ cur → (dot = true → cur = []) →
    ∃ r, serLoop none s i cur dot off out t = .ok r ∧ (r.ok = true ↔ i + s.length ≤ 255 ∧ i + s.length ≠ 0 ∧ ∃ ls, Completes cur s dot ls) := by
  induction s with
  | nil =>
    intro i cur dot off out t hc hd
    have key : ∀ ls, Completes cur [] dot ls → ls = [] := by
      intro ls h
      refine Decidable.byContradiction fun hne => ?_
      have := dot_mem_body hne
      rw [← h.eq] at this
      exact hc (by simpa using this)
    simp only [serLoop, finish, List.length_nil, Nat.add_zero]
    by_cases h1 : i > 255
    · exact ⟨_, if_pos h1, by simp; omega⟩
    · rw [if_neg h1]
      by_cases h2 : i = 0 ∨ (!dot) = true
      · refine ⟨_, if_pos h2, ?_⟩
        simp only [Bool.false_eq_true, false_iff, not_and, not_exists]
        intro _ hi ls hls
        rcases h2 with h2 | h2
        · exact hi h2
        · rw [hls.some (key ls hls)] at h2; cases h2
      · rw [if_neg h2]
        have hdot : dot = true := by cases dot <;> simp_all
        have : ∃ ls, Completes cur [] dot ls := ⟨[], by simp [hd hdot, body], by simp, by simp, by simp, fun _ => hdot⟩
        by_cases h3 : i = 1
        · exact ⟨_, if_pos h3, by simp [this]; omega⟩
        · exact ⟨_, if_neg h3, by simp [this]; omega⟩
  | cons c s ih =>
    intro i cur dot off out t hc hd
    by_cases hdot : c = 0x2e
    · subst hdot
      have hhead : ∀ ls, Completes cur (0x2e :: s) dot ls → ∃ ls', ls = cur :: ls' ∧ s = body ls' := by
        intro ls h
        cases ls with
        | nil => have := h.eq; simp [body] at this
        | cons l ls =>
          have he := h.eq
          rw [body_cons] at he
          obtain ⟨rfl, rfl⟩ := split_dot hc (h.short l List.mem_cons_self).2 he
          exact ⟨ls, rfl, rfl⟩
      by_cases h1 : dot = true
      · subst h1
        refine ⟨⟨false, off, out, t⟩, by simp [serLoop], ?_⟩
        simp only [Bool.false_eq_true, false_iff, not_and, not_exists]
        intro _ _ ls hls
        obtain ⟨ls', rfl, _⟩ := hhead ls hls
        exact hls.head rfl (by simp [hd rfl])
      · have h1 : dot = false := by simpa using h1
        subst h1
        by_cases h2 : cur.length > 63
        · refine ⟨⟨false, off, out, t⟩, by simp [serLoop, h2], ?_⟩
          simp only [Bool.false_eq_true, false_iff, not_and, not_exists]
          intro _ _ ls hls
          obtain ⟨ls', rfl, _⟩ := hhead ls hls
          have := (hls.short cur List.mem_cons_self).1
          omega
        · rw [serLoop_dot_none _ _ _ _ _ _ (by omega)]
          obtain ⟨r, hr, hiff⟩ := ih (i + 1) [] true (off + 1 + cur.length) out t (by simp) (by simp)
          refine ⟨r, hr, hiff.trans ?_⟩
          have : (∃ ls, Completes [] s true ls) ↔ ∃ ls, Completes cur (0x2e :: s) false ls := by
            constructor
            · rintro ⟨ls, hls⟩
              refine ⟨cur :: ls, ⟨by rw [body_cons, ← hls.eq]; simp, ?_, ?_, by simp, by simp⟩⟩
              · intro l hl
                rcases List.mem_cons.1 hl with rfl | hl
                · exact ⟨by omega, hc⟩
                · exact hls.short l hl
              · intro l hl
                have hh := hls.head rfl
                have ht := hls.tail
                cases ls with
                | nil => simp at hl
                | cons a ls =>
                  simp only [List.tail_cons, List.mem_cons] at hl ht
                  rcases hl with rfl | hl
                  · simpa using hh
                  · exact ht l hl
            · rintro ⟨ls, hls⟩
              obtain ⟨ls', rfl, rfl⟩ := hhead ls hls
              refine ⟨ls', ⟨rfl, fun l hl => hls.short l (List.mem_cons_of_mem _ hl), fun l hl => hls.tail l (List.mem_of_mem_tail hl), ?_, fun _ => rfl⟩⟩
              intro _ hh
              exact hls.tail [] (List.mem_of_mem_head? hh) rfl
          rw [this]
          simp only [List.length_cons]
          constructor <;> rintro ⟨a, b, c⟩ <;> exact ⟨by omega, by omega, c⟩
    · rw [serLoop_char none hdot]
      obtain ⟨r, hr, hiff⟩ := ih (i + 1) (cur ++ [c]) false off out t (by simp [hc, Ne.symm hdot]) (by simp)
      refine ⟨r, hr, hiff.trans ?_⟩
      have : (∃ ls, Completes (cur ++ [c]) s false ls) ↔ ∃ ls, Completes cur (c :: s) dot ls := by
        constructor
        · rintro ⟨ls, hls⟩
          refine ⟨ls, ⟨by rw [← hls.eq]; simp, hls.short, hls.tail, ?_, fun e => absurd (hls.some e) (by simp)⟩⟩
          intro hdt hh
          have he := hls.eq
          cases ls with
          | nil => simp at hh
          | cons a ls =>
            simp only [List.head?_cons, Option.some.injEq] at hh
            subst hh
            rw [hd hdt, body_cons] at he
            simp at he
            exact hdot he.1
        · rintro ⟨ls, hls⟩
          refine ⟨ls, ⟨by rw [← hls.eq]; simp, hls.short, hls.tail, by simp, ?_⟩⟩
          intro e
          have he := hls.eq
          subst e
          simp [body] at he
      rw [this]
      simp only [List.length_cons]
      constructor <;> rintro ⟨a, b, c⟩ <;> exact ⟨by omega, by omega, c⟩

theorem serLoop_out (s : Bytes) : ∀ (i : Nat) (cur : Bytes) (dot : Bool) (off : Nat) (out : Bytes) (t : Table) (r : Ser), (dot = true → off ≠ 0) →
    serLoop none s i cur dot off out t = .ok r → r.out = out ∧ (r.ok = true → r.len ≠ 0) := by
  induction s with
  | nil =>
    intro i cur dot off out t r hd h
    rw [serLoop, finish] at h
    split at h
    · rw [← Out.ok.inj h]; simp
    · split at h
      · rw [← Out.ok.inj h]; simp
      · rename_i hn
        have : dot = true := by cases dot <;> simp_all
        split at h
        · rw [← Out.ok.inj h]; exact ⟨rfl, fun _ => hd this⟩
        · rw [← Out.ok.inj h]; simp
  | cons c s ih =>
    intro i cur dot off out t r hd h
    rw [serLoop] at h
    split at h
    · exact ih _ _ _ _ _ _ _ (by simp) h
    · split at h
      · rw [← Out.ok.inj h]; simp
      · split at h
        · rw [← Out.ok.inj h]; simp
        · exact ih _ _ _ _ _ _ _ (fun _ => by omega) h

/-- What `pack` without a buffer says of a text. -/
theorem pack_none (s : Bytes) (h0 : 0 ∉ s) :
    ∃ n, pack none s = .ok (n, []) ∧
      (n ≠ 0 ↔ (∃ ls, OkName ls ∧ s = text ls) ∨ ∃ ls, ls ≠ [] ∧ (∀ l ∈ ls, OkLabel l) ∧ s = 0x2e :: body ls ∧ s.length ≤ 255) := by
  obtain ⟨r, hr, hiff⟩ := serLoop_accepts s 0 [] false 0 [] [] (by simp) (by simp)
  have hout := serLoop_out s 0 [] false 0 [] [] r (by simp) hr
  have hlen : r.ok = true → r.len ≠ 0 := hout.2
  have hp : pack none s = .ok (if r.ok then r.len else 0, []) := by
    unfold pack serialize
    rw [Option.map_none, hr]
    dsimp only [Out.bind]
    cases hok : r.ok
    · simp
    · simp [hout.1]
  refine ⟨_, hp, ?_⟩
  have : (if r.ok = true then r.len else 0) ≠ 0 ↔ r.ok = true := by
    cases hok : r.ok
    · simp
    · simpa using hlen hok
  rw [this, hiff]
  simp only [Nat.zero_add]
  constructor
  · rintro ⟨h1, h2, ls, h⟩
    have heq : s = body ls := by simpa using h.eq
    have hok : ∀ l ∈ ls, l ≠ [] → OkLabel l := by
      intro l hl hne
      refine ⟨List.length_pos_iff.2 hne, (h.short l hl).1, ?_, (h.short l hl).2⟩
      intro hm
      apply h0
      rw [heq]
      unfold body
      rw [List.mem_flatten]
      exact ⟨l ++ [0x2e], List.mem_map.2 ⟨l, hl, rfl⟩, by simp [hm]⟩
    cases ls with
    | nil => exact absurd (h.some rfl) (by simp)
    | cons a ls =>
      have htl : ∀ l ∈ ls, OkLabel l := fun l hl => hok l (List.mem_cons_of_mem _ hl) (h.tail l (by simpa using hl))
      by_cases ha : a = []
      · subst ha
        rw [body_cons] at heq
        by_cases hls : ls = []
        · subst hls
          exact .inl ⟨[], ⟨by simp, by simp [text]⟩, by simpa [text, body] using heq⟩
        · exact .inr ⟨ls, hls, htl, by simpa using heq, h1⟩
      · refine .inl ⟨a :: ls, ⟨?_, ?_⟩, ?_⟩
        · intro l hl
          rcases List.mem_cons.1 hl with rfl | hl
          · exact hok _ List.mem_cons_self ha
          · exact htl l hl
        · unfold text; rw [if_neg (by simp), ← heq]; exact h1
        · unfold text; rw [if_neg (by simp)]; exact heq
  · rintro (⟨ls, hls, rfl⟩ | ⟨ls, hne, hls, rfl, h1⟩)
    · have hnn : (text ls).length ≠ 0 := by
        unfold text
        split
        · simp
        · have := two_le_body' hls.1 (by assumption); omega
      refine ⟨hls.2, hnn, ?_⟩
      by_cases hn : ls = []
      · subst hn
        exact ⟨[[]], ⟨rfl, by simp, by simp, by simp, by simp⟩⟩
      · refine ⟨ls, ⟨by simp [text, hn], fun l hl => ⟨(hls.1 l hl).2.1, (hls.1 l hl).2.2.2⟩, ?_, by simp, fun e => absurd e hn⟩⟩
        intro l hl e
        have := (hls.1 l (List.mem_of_mem_tail hl)).1
        simp [e] at this
    · refine ⟨h1, by simp, [] :: ls, ⟨by rw [body_cons], ?_, ?_, by simp, by simp⟩⟩
      · intro l hl
        rcases List.mem_cons.1 hl with rfl | hl
        · simp
        · exact ⟨(hls l hl).2.1, (hls l hl).2.2.2⟩
      · intro l hl e
        have := (hls l (by simpa using hl)).1
        simp [e] at this

/-! ### Reading back -/

theorem parse_at {back : Bool} {m : Bytes} {o : Nat} {ls : List Bytes} {e d : Nat} (h : Expands back m o ls e d) (hd : d ≤ 10) (hok : OkName ls) {n : Nat}
    (hn : e ≤ o + n) : parse (some m) ((m.drop o).take n) = .ok (text ls, ((m.drop o).take n).drop (e - o)) := by
  refine (parse_iff _ _ _ _).2 ⟨ls, e - o, d, ?_, hd, hok, rfl, rfl⟩
  have := h.walk.window o n (Nat.le_refl _) hn
  rwa [Nat.sub_self] at this

theorem parse_at' {back : Bool} {m : Bytes} {o : Nat} {ls : List Bytes} {e d : Nat} (h : Expands back m o ls e d) (hd : d ≤ 10) (hok : OkName ls) :
    parse (some m) (m.drop o) = .ok (text ls, m.drop e) := by
  have hle := h.le
  have := parse_at h hd hok (n := m.length) (by omega)
  rw [List.take_of_length_le (by simp), List.drop_drop, show o + (e - o) = e by omega] at this
  exact this

theorem walk_wire (m : Option Bytes) {ls : List Bytes} (h : ∀ l ∈ ls, OkLabel l) (pre rest : Bytes) :
    Walk m (pre ++ (wire ls ++ rest)) pre.length ls (pre.length + (wire ls).length) 0 := by
  induction ls generalizing pre with
  | nil =>
    refine .root ?_
    rw [List.getElem?_append_right (Nat.le_refl _)]
    simp [wire]
  | cons l ls ih =>
    have hl := h l List.mem_cons_self
    have := ih (fun x hx => h x (List.mem_cons_of_mem _ hx)) (pre ++ (UInt8.ofNat l.length :: l.map raw))
    have he : pre ++ (wire (l :: ls) ++ rest) = pre ++ (UInt8.ofNat l.length :: l.map raw) ++ (wire ls ++ rest) := by
      rw [wire_eq, wire_eq, wireBody_cons]; simp
    rw [he]
    refine .label hl ?_ ?_ ?_
    · rw [List.append_assoc, List.getElem?_append_right (Nat.le_refl _)]
      simp
    · have : (pre ++ (UInt8.ofNat l.length :: l.map raw) ++ (wire ls ++ rest)).drop (pre.length + 1) = l.map raw ++ (wire ls ++ rest) := by
        rw [List.append_assoc, List.drop_append]
        simp
      rw [this, List.take_left' (by simp)]
      exact map_shown_raw hl.2.2.1 hl.2.2.2
    · rw [show pre.length + 1 + l.length = (pre ++ (UInt8.ofNat l.length :: l.map raw)).length by simp; omega,
        show pre.length + (wire (l :: ls)).length = (pre ++ (UInt8.ofNat l.length :: l.map raw)).length + (wire ls).length by
          rw [wire_length, wire_length, body_cons]; simp; omega]
      exact this

theorem parse_wire (m : Option Bytes) {ls : List Bytes} (h : OkName ls) (rest : Bytes) : parse m (wire ls ++ rest) = .ok (text ls, rest) := by
  have := walk_wire m h.1 [] rest
  simp only [List.nil_append, List.length_nil, Nat.zero_add] at this
  exact (parse_iff _ _ _ _).2 ⟨ls, _, 0, this, by omega, h, rfl, by simp⟩

theorem okLabel_first {msg : Bytes} {o : Nat} {l : Bytes} (hl : OkLabel l) (h : msg[o]? = some (UInt8.ofNat l.length)) :
    ∃ c, msg[o]? = some c ∧ c.toNat = l.length := by
  refine ⟨_, h, ?_⟩
  have := hl.2.1
  simp; omega

theorem _root_.Verif.Spec.DnsName.Expands.unique {back : Bool} {msg : Bytes} {o : Nat} {a b : List Bytes} {e e' d d' : Nat} (h : Expands back msg o a e d)
    (h' : Expands back msg o b e' d') : a = b ∧ e = e' ∧ d = d' := by
  induction h generalizing b e' d' with
  | @root o h =>
    cases h' with
    | root h => exact ⟨rfl, rfl, rfl⟩
    | label hl h2 hb hr =>
      obtain ⟨c, hc, hn⟩ := okLabel_first hl h2
      rw [h] at hc; cases hc
      have := hl.1; simp at hn; omega
    | @pointer _ p x y ls2 e2 d2 ha hb hp hlt hr =>
      rw [h] at ha; cases ha
      have := y.toNat_lt
      simp at hp; omega
  | @label o l ls e d hl h hb hr ih =>
    obtain ⟨c, hc, hn⟩ := okLabel_first hl h
    have h1 := hl.1
    have h2 := hl.2.1
    cases h' with
    | root h => rw [h] at hc; cases hc; simp at hn; omega
    | @label _ l2 ls2 e2 d2 hl2 h2 hb2 hr2 =>
      obtain ⟨c2, hc2, hn2⟩ := okLabel_first hl2 h2
      rw [hc] at hc2; cases hc2
      have hlen : l2.length = l.length := by omega
      have : l2 = l := by rw [← hb2, ← hb, hlen]
      subst this
      obtain ⟨rfl, rfl, rfl⟩ := ih hr2
      exact ⟨rfl, rfl, rfl⟩
    | @pointer _ p x y ls2 e2 d2 ha hb2 hp hlt hr2 =>
      rw [hc] at ha; cases ha
      have := y.toNat_lt
      omega
  | @pointer o p x y ls e d ha hb hp hlt hr ih =>
    have hy := y.toNat_lt
    cases h' with
    | root h => rw [h] at ha; cases ha; simp at hp; omega
    | label hl h2 hb2 hr2 =>
      obtain ⟨c, hc, hn⟩ := okLabel_first hl h2
      rw [ha] at hc; cases hc
      have := hl.2.1; omega
    | @pointer _ p2 x2 y2 ls2 e2 d2 ha2 hb2 hp2 hlt2 hr2 =>
      rw [ha] at ha2; cases ha2
      rw [hb] at hb2; cases hb2
      have : p2 = p := by omega
      subst this
      obtain ⟨rfl, _, rfl⟩ := ih hr2
      exact ⟨rfl, rfl, rfl⟩

theorem Walk.plain {s : Bytes} {o : Nat} {ls : List Bytes} {e d : Nat} (h : Walk none s o ls e d) : Expands false s o ls e 0 := by
  generalize hm : (none : Option Bytes) = m at h
  induction h with
  | root h => exact .root h
  | label hl h hb hr ih => exact .label hl h hb ih
  | pointer h => rw [← hm] at h; cases h

/-! ### Several names in one message -/

/-- Names written one after another with one table, each followed by other bytes; the
message and the places of the names. -/
def writeAll (cap : Nat) : Bytes → Table → List (Bytes × Bytes) → Out Unit (Bytes × List Nat)
  | pre, _, [] => .ok (pre, [])
  | pre, t, (n, gap) :: ns =>
    (serialize (some ⟨pre.length, cap, true⟩) n t).bind fun r =>
      if r.ok then (writeAll cap (pre ++ r.out ++ gap) r.table ns).bind fun q => .ok (q.1, pre.length :: q.2) else .err ()

/-- Room the names need at most. -/
def room (ns : List (List Bytes × Bytes)) : Nat := (ns.map fun x => (wire x.1).length + x.2.length).sum

theorem writeAll_spec {cap : Nat} : ∀ (ns : List (List Bytes × Bytes)) (pre : Bytes) (t : Table), (∀ x ∈ ns, OkName x.1) → 0 < pre.length → TableOk pre t →
    pre.length + room ns ≤ cap →
    ∃ x ps, writeAll cap pre t (ns.map fun x => (text x.1, x.2)) = .ok (pre ++ x, ps) ∧ x.length ≤ room ns ∧ ps.length = ns.length ∧
      ∀ (i : Nat) (ls : List Bytes) (gap : Bytes), ns[i]? = some (ls, gap) → ∃ o e d, ps[i]? = some o ∧ Expands true (pre ++ x) o ls e d ∧ d ≤ ls.length := by
  intro ns
  induction ns with
  | nil => intro pre t _ _ _ _; exact ⟨[], [], by simp [writeAll], by simp, rfl, by simp⟩
  | cons a ns ih =>
    obtain ⟨ls, gap⟩ := a
    intro pre t hok hpre ht hcap
    have hr : room ((ls, gap) :: ns) = (wire ls).length + gap.length + room ns := by simp [room]
    rw [hr] at hcap
    have hok1 : OkName ls := hok _ List.mem_cons_self
    obtain ⟨out, t2, dd, e1, e2, e3, e4, -, e5⟩ := serialize_cmp (cap := cap) rfl hpre hok1 ht (by omega)
    obtain ⟨x, ps, f1, f2, f3, f4⟩ := ih (pre ++ out ++ gap) t2 (fun x hx => hok x (List.mem_cons_of_mem _ hx)) (by simp; omega)
      (fun s o hg => (e5 s o hg).append _) (by simp; omega)
    refine ⟨out ++ gap ++ x, pre.length :: ps, ?_, by rw [hr]; simp; omega, by simp [f3], ?_⟩
    · rw [List.map_cons, writeAll, e1]
      dsimp only [Out.bind]
      rw [if_pos rfl, f1]
      simp [Out.bind]
    · intro i ls' gap' hi
      have hF : pre ++ (out ++ gap ++ x) = pre ++ out ++ gap ++ x := by simp
      rw [hF]
      cases i with
      | zero =>
        simp only [List.getElem?_cons_zero, Option.some.injEq, Prod.mk.injEq] at hi
        obtain ⟨rfl, rfl⟩ := hi
        exact ⟨pre.length, _, dd, by simp, (e3.append gap).append x, e4⟩
      | succ i =>
        simp only [List.getElem?_cons_succ] at hi ⊢
        exact f4 i ls' gap' hi

/-! ### hsk_dns_name_verify -/

theorem verify_eq (s : Bytes) : verify s =
    .ok (decide ((if s.getLast? = some 0x2e then s else s ++ [0x2e]).length ≤ 255) &&
      match pack none (if s.getLast? = some 0x2e then s else s ++ [0x2e]) with | .ok r => r.1 != 0 | _ => false) := by
  have hp : ∀ x, ∃ r, pack none x = .ok r := by
    intro x
    obtain ⟨r, hr, _⟩ := serLoop_accepts x 0 [] false 0 [] [] (by simp) (by simp)
    unfold pack serialize
    rw [Option.map_none, hr]
    dsimp only [Out.bind]
    split
    · exact ⟨_, rfl⟩
    · exact ⟨_, rfl⟩
  unfold verify
  by_cases h : s.getLast? = some 0x2e
  · rw [if_neg (by simp [h])]
    simp only [if_pos h]
    obtain ⟨r, hr⟩ := hp s
    split
    · rename_i hl; simp; omega
    · rename_i hl; rw [hr]; simp [Out.bind]; omega
  · rw [if_pos h]
    simp only [if_neg h]
    obtain ⟨r, hr⟩ := hp (s ++ [0x2e])
    rw [hr]
    split
    · rename_i hl; simp; omega
    · rename_i hl; rw [if_neg (by omega)]; simp [Out.bind]; omega

end Verif.DnsName
