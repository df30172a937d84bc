import Verif.Model.DnsName
import Verif.Spec.DnsName
/-
Parsing of names.
-/
namespace Verif.DnsName
open Verif.Spec.DnsName

theorem esc_eq : esc = shown := rfl
theorem unesc_eq : unesc = raw := rfl

/-- `Expands`, for a cursor that need not be part of the message. -/
inductive Walk (m : Option Bytes) : Bytes → Nat → List Bytes → Nat → Nat → Prop
  | root {buf : Bytes} {o : Nat} (h : buf[o]? = some 0) : Walk m buf o [] (o + 1) 0
  | label {buf : Bytes} {o : Nat} {l : Bytes} {ls : List Bytes} {e d : Nat} (hl : OkLabel l)
      (h : buf[o]? = some (UInt8.ofNat l.length)) (hb : ((buf.drop (o + 1)).take l.length).map shown = l)
      (hr : Walk m buf (o + 1 + l.length) ls e d) : Walk m buf o (l :: ls) e d
  | pointer {buf msg : Bytes} {o p : Nat} {a b : UInt8} {ls : List Bytes} {e d : Nat} (hm : m = some msg)
      (ha : buf[o]? = some a) (hb : buf[o + 1]? = some b)
      (hp : a.toNat * 256 + b.toNat = 49152 + p) (hr : Walk m msg p ls e d) : Walk m buf o ls (o + 2) (d + 1)

theorem lt_of_getElem? {l : Bytes} {i : Nat} {x : UInt8} (h : l[i]? = some x) : i < l.length := by
  rcases Nat.lt_or_ge i l.length with g | g
  · exact g
  · rw [List.getElem?_eq_none g] at h; cases h

theorem Walk.le {m : Option Bytes} {buf : Bytes} {o : Nat} {ls : List Bytes} {e d : Nat} (h : Walk m buf o ls e d) : e ≤ buf.length ∧ o < e := by
  induction h with
  | root h => exact ⟨lt_of_getElem? h, by omega⟩
  | label hl h hb hr ih => omega
  | pointer hm ha hb hp hr ih => exact ⟨lt_of_getElem? hb, by omega⟩

theorem body_cons (l : Bytes) (ls : List Bytes) : body (l :: ls) = l ++ 0x2e :: body ls := by simp [body]

theorem shown_ne (b : UInt8) : shown b ≠ 0 ∧ shown b ≠ 0x2e := by
  have : ∀ i : Fin 256, shown (UInt8.ofNat i) ≠ 0 ∧ shown (UInt8.ofNat i) ≠ 0x2e := by decide +kernel
  simpa using this ⟨b.toNat, b.toNat_lt⟩

theorem shown_raw {c : UInt8} (h0 : c ≠ 0) (h1 : c ≠ 0x2e) : shown (raw c) = c := by
  have : ∀ i : Fin 256, UInt8.ofNat i ≠ 0 → UInt8.ofNat i ≠ 0x2e → shown (raw (UInt8.ofNat i)) = UInt8.ofNat i := by decide +kernel
  have := this ⟨c.toNat, c.toNat_lt⟩
  simp only [UInt8.ofNat_toNat] at this
  exact this h0 h1

theorem getByte {buf : Bytes} {off : Nat} (h : off < buf.length) : ∃ c, buf[off]? = some c ∧ (memGet buf off : Out Unit UInt8) = .ok c := by
  refine ⟨buf[off], List.getElem?_eq_getElem h, ?_⟩
  rw [memGet_ok h]

theorem parseLoop_ne_ub (m : Option Bytes) (fuel : Nat) (buf : Bytes) (off : Nat) (name : Bytes) (res ptr : Nat)
    (hf : (255 - name.length) / 2 + (10 - ptr) < fuel) (hp : ptr ≤ 10) : parseLoop m fuel buf off name res ptr ≠ .ub := by
  induction fuel generalizing buf off name res ptr with
  | zero => omega
  | succ fuel ih =>
    unfold parseLoop
    by_cases ho : off ≥ buf.length
    · rw [if_pos ho]; simp
    rw [if_neg ho]
    obtain ⟨c, hc, hg⟩ := getByte (buf := buf) (off := off) (by omega)
    rw [hg]
    dsimp only [Out.bind]
    by_cases c0 : c = 0
    · rw [if_pos c0]; simp
    rw [if_neg c0]
    have cpos : c.toNat ≠ 0 := fun e => c0 (UInt8.toNat.inj (by simpa using e))
    by_cases c1 : c.toNat / 64 = 0
    · rw [if_pos c1, if_neg (by omega)]
      by_cases h2 : off + 1 + c.toNat > buf.length
      · rw [if_pos h2]; simp
      rw [if_neg h2]
      by_cases h3 : name.length + c.toNat + 1 > 255
      · rw [if_pos h3]; simp
      rw [if_neg h3, memSlice_ok (by omega)]
      dsimp only [Out.bind]
      rw [if_neg (by omega)]
      apply ih
      · simp only [List.length_append, List.length_map, List.length_take, List.length_drop, List.length_cons, List.length_nil]
        omega
      · exact hp
    · rw [if_neg c1]
      by_cases c3 : c.toNat / 64 = 3
      · rw [if_pos c3]
        cases m with
        | none => simp
        | some msg =>
          dsimp only
          by_cases h2 : off + 1 ≥ buf.length
          · rw [if_pos h2]; simp
          rw [if_neg h2]
          obtain ⟨b, hb, hg⟩ := getByte (buf := buf) (off := off + 1) (by omega)
          rw [hg]
          dsimp only [Out.bind]
          by_cases h3 : ptr + 1 > 10
          · rw [if_pos h3]; simp
          rw [if_neg h3]
          apply ih <;> omega
      · rw [if_neg c3]; simp

theorem parseLoop_sound {m : Option Bytes} {fuel : Nat} {buf : Bytes} {off : Nat} {name : Bytes} {res ptr : Nat} {nm : Bytes} {r : Nat}
    (hn : name.length ≤ 255) (hp : ptr ≤ 10) (h : parseLoop m fuel buf off name res ptr = .ok (nm, r)) :
    ∃ ls e d, Walk m buf off ls e d ∧ nm = name ++ body ls ∧ ptr + d ≤ 10 ∧ nm.length ≤ 255 ∧ r = if ptr = 0 then e else res := by
  induction fuel generalizing buf off name res ptr with
  | zero => simp [parseLoop] at h
  | succ fuel ih =>
    unfold parseLoop at h
    by_cases ho : off ≥ buf.length
    · rw [if_pos ho] at h; cases h
    rw [if_neg ho] at h
    obtain ⟨c, hc, hg⟩ := getByte (buf := buf) (off := off) (by omega)
    rw [hg] at h
    dsimp only [Out.bind] at h
    by_cases c0 : c = 0
    · rw [if_pos c0] at h
      have := Out.ok.inj h
      simp only [Prod.mk.injEq] at this
      obtain ⟨rfl, rfl⟩ := this
      subst c0
      exact ⟨[], off + 1, 0, .root hc, by simp [body], by omega, hn, rfl⟩
    rw [if_neg c0] at h
    have cpos : c.toNat ≠ 0 := fun e => c0 (UInt8.toNat.inj (by simpa using e))
    by_cases c1 : c.toNat / 64 = 0
    · rw [if_pos c1, if_neg (by omega)] at h
      by_cases h2 : off + 1 + c.toNat > buf.length
      · rw [if_pos h2] at h; cases h
      rw [if_neg h2] at h
      by_cases h3 : name.length + c.toNat + 1 > 255
      · rw [if_pos h3] at h; cases h
      rw [if_neg h3, memSlice_ok (by omega)] at h
      dsimp only [Out.bind] at h
      rw [if_neg (by omega)] at h
      have hlen : ((buf.drop (off + 1)).take c.toNat).length = c.toNat := by
        simp only [List.length_take, List.length_drop]; omega
      obtain ⟨ls, e, d, hw, e1, e2, e3, e4⟩ := ih (by
        simp only [List.length_append, List.length_map, hlen, List.length_cons, List.length_nil]; omega) hp h
      have hll : (List.map esc ((buf.drop (off + 1)).take c.toNat)).length = c.toNat := by rw [List.length_map, hlen]
      refine ⟨List.map esc ((buf.drop (off + 1)).take c.toNat) :: ls, e, d, .label ?_ ?_ ?_ ?_, ?_, e2, e3, e4⟩
      · refine ⟨by rw [hll]; omega, by rw [hll]; omega, ?_, ?_⟩
        · intro hm
          obtain ⟨x, _, hx⟩ := List.mem_map.1 hm
          exact (shown_ne x).1 hx
        · intro hm
          obtain ⟨x, _, hx⟩ := List.mem_map.1 hm
          exact (shown_ne x).2 hx
      · rw [hll, hc]; simp
      · rw [hll, esc_eq]
      · rw [hll]; exact hw
      · rw [e1, body_cons]; simp
    · rw [if_neg c1] at h
      by_cases c3 : c.toNat / 64 = 3
      · rw [if_pos c3] at h
        cases m with
        | none => cases h
        | some msg =>
          dsimp only at h
          by_cases h2 : off + 1 ≥ buf.length
          · rw [if_pos h2] at h; cases h
          rw [if_neg h2] at h
          obtain ⟨b, hb, hg⟩ := getByte (buf := buf) (off := off + 1) (by omega)
          rw [hg] at h
          dsimp only [Out.bind] at h
          by_cases h3 : ptr + 1 > 10
          · rw [if_pos h3] at h; cases h
          rw [if_neg h3] at h
          obtain ⟨ls, e, d, hw, e1, e2, e3, e4⟩ := ih hn (by omega) h
          refine ⟨ls, off + 2, d + 1, .pointer rfl hc hb ?_ hw, e1, by omega, e3, ?_⟩
          · omega
          · rw [e4, if_neg (by omega)]
      · rw [if_neg c3] at h; cases h

theorem parseLoop_complete {m : Option Bytes} {buf : Bytes} {off : Nat} {ls : List Bytes} {e d : Nat} (hw : Walk m buf off ls e d) :
    ∀ (fuel : Nat) (name : Bytes) (res ptr : Nat), ptr + d ≤ 10 → (name ++ body ls).length ≤ 255 → ls.length + d < fuel →
      parseLoop m fuel buf off name res ptr = .ok (name ++ body ls, if ptr = 0 then e else res) := by
  induction hw with
  | @root buf o h =>
    intro fuel name res ptr hp hn hf
    cases fuel with
    | zero => omega
    | succ fuel =>
      unfold parseLoop
      have ho := lt_of_getElem? h
      rw [if_neg (by omega), memGet_ok ho]
      rw [List.getElem?_eq_getElem ho] at h
      rw [Option.some.inj h]
      simp [Out.bind, body]
  | @label buf o l ls e d hl h hb hr ih =>
    intro fuel name res ptr hp hn hf
    cases fuel with
    | zero => omega
    | succ fuel =>
      obtain ⟨l1, l2, l3, l4⟩ := hl
      unfold parseLoop
      have ho := lt_of_getElem? h
      have hle := hr.le
      rw [if_neg (by omega), memGet_ok ho]
      rw [List.getElem?_eq_getElem ho] at h
      rw [Option.some.inj h]
      dsimp only [Out.bind]
      have hc : (UInt8.ofNat l.length).toNat = l.length := by simp; omega
      rw [body_cons] at hn
      simp only [List.length_append, List.length_cons] at hn
      rw [if_neg (fun e => by have := congrArg UInt8.toNat e; rw [hc] at this; simp at this; simp [this] at l1), hc,
        if_pos (by omega), if_neg (by omega), if_neg (by omega), if_neg (by omega), memSlice_ok (by omega)]
      dsimp only [Out.bind]
      rw [if_neg (by omega), esc_eq, hb]
      rw [ih fuel _ res ptr hp (by simp only [List.length_append, List.length_cons, List.length_nil]; omega) (by simp at hf; omega), body_cons]
      simp
  | @pointer buf msg o p a b ls e d hm ha hb hp hr ih =>
    intro fuel name res ptr hpt hn hf
    cases fuel with
    | zero => omega
    | succ fuel =>
      unfold parseLoop
      have ho := lt_of_getElem? ha
      have ho1 := lt_of_getElem? hb
      rw [if_neg (by omega), memGet_ok ho]
      rw [List.getElem?_eq_getElem ho] at ha
      rw [Option.some.inj ha]
      dsimp only [Out.bind]
      have := b.toNat_lt
      have := a.toNat_lt
      have hpp : (a.toNat - 192) * 256 + b.toNat = p := by
        have ha192 : 192 ≤ a.toNat := by omega
        rw [Nat.sub_mul]
        omega
      have g1 : ¬ a = 0 := by
        intro e
        rw [e] at hp
        have : (0 : UInt8).toNat = 0 := rfl
        omega
      have g2 : ¬ a.toNat / 64 = 0 := by omega
      have g3 : a.toNat / 64 = 3 := by omega
      rw [if_neg g1, if_neg g2, if_pos g3, hm]
      dsimp only
      rw [if_neg (by omega), memGet_ok ho1]
      rw [List.getElem?_eq_getElem ho1] at hb
      rw [Option.some.inj hb]
      dsimp only [Out.bind]
      rw [if_neg (by omega), ← hm, hpp, ih fuel name _ (ptr + 1) (by omega) hn (by omega)]
      simp

theorem two_le_body {ls : List Bytes} (h : ∀ l ∈ ls, OkLabel l) : 2 * ls.length ≤ (body ls).length := by
  induction ls with
  | nil => simp
  | cons l ls ih =>
    have := ih fun x hx => h x (List.mem_cons_of_mem _ hx)
    have := (h l List.mem_cons_self).1
    rw [body_cons]
    simp only [List.length_cons, List.length_append]
    omega

theorem Walk.ok {m : Option Bytes} {buf : Bytes} {o : Nat} {ls : List Bytes} {e d : Nat} (h : Walk m buf o ls e d) : ∀ l ∈ ls, OkLabel l := by
  induction h with
  | root h => simp
  | label hl h hb hr ih =>
    intro x hx
    rcases List.mem_cons.1 hx with rfl | hx
    · exact hl
    · exact ih x hx
  | pointer hm ha hb hp hr ih => exact ih

theorem text_length {ls : List Bytes} (h : (body ls).length ≤ 255) : (text ls).length ≤ 255 := by
  unfold text; split <;> simp_all

theorem body_length_of_text {ls : List Bytes} (h : (text ls).length ≤ 255) : (body ls).length ≤ 255 := by
  unfold text at h
  split at h
  · subst_vars; simp [body]
  · exact h

theorem body_eq_nil {ls : List Bytes} : (body ls).length = 0 ↔ ls = [] := by
  cases ls with
  | nil => simp [body]
  | cons l ls => rw [body_cons]; simp

theorem parse_iff (m : Option Bytes) (s : Bytes) (name rest : Bytes) :
    parse m s = .ok (name, rest) ↔
      ∃ ls e d, Walk m s 0 ls e d ∧ d ≤ 10 ∧ OkName ls ∧ name = text ls ∧ rest = s.drop e := by
  constructor
  · intro h
    unfold parse at h
    cases hl : parseLoop m 139 s 0 [] 0 0 with
    | err e => rw [hl] at h; cases h
    | ub => rw [hl] at h; cases h
    | ok r =>
      rw [hl] at h
      obtain ⟨nm, r⟩ := r
      obtain ⟨ls, e, d, hw, e1, e2, e3, e4⟩ := parseLoop_sound (by simp) (by omega) hl
      simp only [List.nil_append] at e1
      subst e1
      simp only [if_true] at e4
      subst e4
      dsimp only [Out.bind] at h
      have ht : (if (body ls).length = 0 then [0x2e] else body ls) = text ls := by
        unfold text
        by_cases hls : ls = []
        · rw [if_pos (body_eq_nil.2 hls), if_pos hls]
        · rw [if_neg (fun x => hls (body_eq_nil.1 x)), if_neg hls]
      rw [ht, if_neg (by have := text_length e3; omega), if_neg (by have := hw.le.1; omega)] at h
      have := Out.ok.inj h
      simp only [Prod.mk.injEq] at this
      exact ⟨ls, _, d, hw, by omega, ⟨hw.ok, text_length e3⟩, this.1.symm, this.2.symm⟩
  · rintro ⟨ls, e, d, hw, hd, hok, rfl, rfl⟩
    have hb := body_length_of_text hok.2
    have h2 := two_le_body hok.1
    unfold parse
    rw [parseLoop_complete hw 139 [] 0 0 (by omega) (by simpa using hb) (by omega)]
    dsimp only [Out.bind, List.nil_append, if_true]
    have ht : (if (body ls).length = 0 then [0x2e] else body ls) = text ls := by
      unfold text
      by_cases hls : ls = []
      · rw [if_pos (body_eq_nil.2 hls), if_pos hls]
      · rw [if_neg (fun x => hls (body_eq_nil.1 x)), if_neg hls]
    simp only [if_true]
    rw [ht, if_neg (by have := hok.2; omega), if_neg (by have := hw.le.1; omega)]

theorem parse_ne_ub (m : Option Bytes) (s : Bytes) : parse m s ≠ .ub := by
  unfold parse
  cases hl : parseLoop m 139 s 0 [] 0 0 with
  | err e => simp [Out.bind]
  | ub => exact absurd hl (parseLoop_ne_ub m 139 s 0 [] 0 0 (by simp) (by omega))
  | ok r =>
    obtain ⟨nm, r⟩ := r
    obtain ⟨ls, e, d, hw, e1, e2, e3, e4⟩ := parseLoop_sound (by simp) (by omega) hl
    simp only [List.nil_append] at e1
    subst e1
    simp only [if_true] at e4
    subst e4
    dsimp only [Out.bind]
    have : (if (body ls).length = 0 then [0x2e] else body ls).length ≤ 255 := by
      split
      · simp
      · exact e3
    rw [if_neg (by omega), if_neg (by have := hw.le.1; omega)]
    simp

/-- A walk within part of the message. -/
theorem Walk.expands {msg buf : Bytes} {o : Nat} {ls : List Bytes} {e d : Nat} (h : Walk (some msg) buf o ls e d) :
    ∀ (b n : Nat), buf = (msg.drop b).take n → Expands false msg (b + o) ls (b + e) d := by
  have get : ∀ (b n i : Nat) (x : UInt8), ((msg.drop b).take n)[i]? = some x → msg[b + i]? = some x := by
    intro b n i x h
    rw [List.getElem?_take] at h
    split at h
    · rwa [List.getElem?_drop] at h
    · cases h
  induction h with
  | root h =>
    intro b n hb
    subst hb
    exact .root (get _ _ _ _ h)
  | @label buf o l ls e d hl h hb hr ih =>
    intro b n hbuf
    have hle := hr.le
    subst hbuf
    refine .label hl (get _ _ _ _ h) ?_ ?_
    · rw [← hb]
      simp only [List.length_map, List.length_take, List.length_drop] at hle ⊢
      rw [List.drop_take, List.drop_drop, List.take_take]
      congr 2
      omega
    · have := ih b n rfl
      rwa [show b + o + 1 + l.length = b + (o + 1 + l.length) by omega]
  | @pointer buf msg' o p a b ls e d hm ha hb hp hr ih =>
    intro b' n hbuf
    subst hbuf
    cases hm
    have := ih 0 msg.length (by simp)
    rw [Nat.zero_add, Nat.zero_add] at this
    exact .pointer (get _ _ _ _ ha) (get b' n (o + 1) _ hb) hp (by simp) this

theorem _root_.Verif.Spec.DnsName.Expands.walk {back : Bool} {msg : Bytes} {o : Nat} {ls : List Bytes} {e d : Nat} (h : Expands back msg o ls e d) :
    Walk (some msg) msg o ls e d := by
  induction h with
  | root h => exact .root h
  | label hl h hb hr ih => exact .label hl h hb ih
  | pointer ha hb hp hlt hr ih => exact .pointer rfl ha hb hp ih

/-- A walk seen through a window of the buffer. -/
theorem Walk.window {m : Option Bytes} {buf : Bytes} {o : Nat} {ls : List Bytes} {e d : Nat} (h : Walk m buf o ls e d) :
    ∀ (b n : Nat), b ≤ o → e ≤ b + n → Walk m ((buf.drop b).take n) (o - b) ls (e - b) d := by
  have get : ∀ {buf : Bytes} {b n i : Nat} {x : UInt8}, buf[i]? = some x → b ≤ i → i < b + n → ((buf.drop b).take n)[i - b]? = some x := by
    intro buf b n i x h h1 h2
    rw [List.getElem?_take, if_pos (by omega), List.getElem?_drop, show b + (i - b) = i by omega]
    exact h
  induction h with
  | @root buf o h =>
    intro b n hb he
    rw [show o + 1 - b = o - b + 1 by omega]
    exact .root (get h hb (by omega))
  | @label buf o l ls e d hl h hb hr ih =>
    intro b n hbo he
    have hle := hr.le
    refine .label hl (get h hbo (by omega)) ?_ ?_
    · refine Eq.trans ?_ hb
      rw [List.drop_take, List.drop_drop, List.take_take]
      congr 2
      · omega
      · congr 1; omega
    · have := ih b n (by omega) he
      rwa [show o - b + 1 + l.length = o + 1 + l.length - b by omega]
  | @pointer buf msg o p a c ls e d hm ha hb hp hr ih =>
    intro b n hbo he
    rw [show o + 2 - b = o - b + 2 by omega]
    refine .pointer hm (get ha hbo (by omega)) ?_ hp hr
    have := get (n := n) hb (b := b) (by omega) (by omega)
    rwa [show o + 1 - b = o - b + 1 by omega] at this

end Verif.DnsName
