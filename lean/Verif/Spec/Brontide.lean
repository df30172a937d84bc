import Verif.Model.Brontide
/-
The encrypted transport as a protocol: which key and nonce the i-th sealed string of a
direction is under, what a stream of sealed messages says, and the Noise XK handshake as
equations between the two ends. Only the primitives (`Prim`) and the names of what can be
seen (`Ev`) are shared with the model.
-/
namespace Verif.Spec.Brontide
open Verif.Brontide (Prim Ev)

/-! ### The keys of one direction -/

/-- What one direction of a session starts from. -/
structure Line where
  key : Bytes
  salt : Bytes
  deriving DecidableEq, Repr

/-- The key schedule after `n` rotations. -/
def epoch (P : Prim) (l : Line) : Nat → Line
  | 0 => l
  | n + 1 =>
    let h := P.hkdf (epoch P l n).key (epoch P l n).salt
    ⟨h.2, h.1⟩

/-- A nonce as the cipher's 12-byte iv. -/
def ivOf (n : Nat) : Bytes := List.replicate 4 0 ++ leBytes 4 n ++ List.replicate 4 0

/-- The `i`-th string sealed in one direction (from 0) is under this key: a thousand strings
to a key. -/
def keyAt (P : Prim) (l : Line) (i : Nat) : Bytes := (epoch P l (i / 1000)).key

/-- … and under this nonce. -/
def ivAt (i : Nat) : Bytes := ivOf (i % 1000)

/-- The `i`-th sealed string: ciphertext and tag. -/
def sealed (P : Prim) (l : Line) (i : Nat) (x : Bytes) : Bytes :=
  let r := P.enc (keyAt P l i) (ivAt i) none x
  r.1 ++ r.2

/-- Opening the `i`-th sealed string: `none` unless its tag is right. -/
def opened (P : Prim) (l : Line) (i : Nat) (c tag : Bytes) : Option Bytes :=
  let r := P.dec (keyAt P l i) (ivAt i) none c
  if r.2 = tag then some r.1 else none

/-! ### Messages -/

/-- A message on the wire: its length, sealed, then itself, sealed. -/
def packet (P : Prim) (l : Line) (i : Nat) (m : Bytes) : Bytes :=
  sealed P l i (leBytes 4 m.length) ++ sealed P l (i + 1) m

/-- Messages on the wire, from the `i`-th sealed string on. -/
def packets (P : Prim) (l : Line) : Nat → List Bytes → Bytes
  | _, [] => []
  | i, m :: ms => packet P l i m ++ packets P l (i + 2) ms

/-- The largest message. -/
def maxSize : Nat := 8000009

/-- What a stream of packets says, from the `i`-th sealed string on: the messages whose two
tags are right, up to the first string that is not right or not yet complete; and whether
the stream may go on (`false`: a wrong tag or an excessive length). -/
def plain (P : Prim) (l : Line) (i : Nat) (s : Bytes) : List Bytes × Bool :=
  if _h : s.length < 20 then ([], true)
  else
    match opened P l i (s.take 4) ((s.drop 4).take 16) with
    | none => ([], false)
    | some x =>
      if leNat x > maxSize then ([], false)
      else
        let n := leNat x
        let s' := s.drop 20
        if s'.length < n + 16 then ([], true)
        else
          match opened P l (i + 1) (s'.take n) ((s'.drop n).take 16) with
          | none => ([], false)
          | some m =>
            let r := plain P l (i + 2) (s'.drop (n + 16))
            (m :: r.1, r.2)
termination_by s.length
decreasing_by simp only [List.length_drop]; omega

/-! ### What was seen -/

/-- The messages delivered. -/
def messages : List Ev → List Bytes
  | [] => []
  | .message d :: r => d :: messages r
  | _ :: r => messages r

/-- The messages handed in for sending. -/
def writes : List Ev → List Bytes
  | [] => []
  | .written d :: r => d :: writes r
  | _ :: r => writes r

/-- The bytes sent, in order. -/
def outs : List Ev → Bytes
  | [] => []
  | .out d r :: es => (if r = 0 then d else []) ++ outs es
  | _ :: es => outs es

/-- The session was ended from this side: by its host, or by a failure to send. -/
def Cut (t : List Ev) : Prop := .closed ∈ t ∨ ∃ d r, Ev.out d r ∈ t ∧ r ≠ 0

/-! ### The handshake -/

/-- Noise's symmetric state: transcript hash, chaining key, current key. -/
structure Noise where
  h : Bytes
  ck : Bytes
  k : Bytes

namespace Noise
/-- Mix a string into the transcript. -/
def mix (P : Prim) (n : Noise) (x : Bytes) : Noise := { n with h := P.sha (n.h ++ x) }
/-- Mix a shared secret into the keys. -/
def dh (P : Prim) (n : Noise) (s : Bytes) : Noise :=
  let o := P.hkdf s n.ck
  { n with ck := o.1, k := o.2 }
/-- Seal `x` as the `i`-th string under the current key, bound to the transcript. -/
def enc (P : Prim) (n : Noise) (i : Nat) (x : Bytes) : Bytes × Bytes := P.enc n.k (ivOf i) (some n.h) x
/-- Open it. -/
def dec (P : Prim) (n : Noise) (i : Nat) (c tag : Bytes) : Option Bytes :=
  let r := P.dec n.k (ivOf i) (some n.h) c
  if r.2 = tag then some r.1 else none
/-- The keys of the two directions: the initiator's sending line first. -/
def lines (P : Prim) (n : Noise) : Line × Line :=
  let o := P.hkdf [] n.ck
  (⟨o.1, n.ck⟩, ⟨o.2, n.ck⟩)
end Noise

def name : Bytes := "Noise_XK_secp256k1_ChaChaPoly_SHA256+SVDW_Squared".toUTF8.toList
def hns : Bytes := "hns".toUTF8.toList

/-- Both ends start from the protocol's name, the prologue and the responder's static key. -/
def start (P : Prim) (responder : Bytes) : Noise :=
  (Noise.mix P (Noise.mix P ⟨P.sha name, P.sha name, List.replicate 32 0⟩ hns) responder)

/-- Acts one and two have one shape: an ephemeral public key `e`, a secret `s` shared by
means of it, and an empty sealed string. -/
def ephemeral (P : Prim) (n : Noise) (e s : Bytes) : Noise := Noise.dh P (Noise.mix P n e) s

/-- A private key with its public key and its 64-byte encoding. -/
structure KeyPair where
  priv : Bytes
  pub : Bytes
  uniform : Bytes

/-- The initiator after act one. -/
def iOne (P : Prim) (e : KeyPair) (rs es : Bytes) : Noise × Bytes :=
  let n := ephemeral P (start P rs) e.pub es
  let c := Noise.enc P n 0 []
  (Noise.mix P n c.2, e.uniform ++ c.2)

/-- The initiator's answer to act two: the two lines, and act three. `s` is its static key,
`e` its ephemeral one, `n` what it had after act one. -/
def iThree (P : Prim) (s e : KeyPair) (n : Noise) (act : Bytes) : Option ((Line × Line) × Bytes) := do
  let re ← P.fromHash (act.take 64)
  if P.okKey re then
    let ee ← P.ecdh re e.priv
    let n := ephemeral P n re ee
    let _ ← Noise.dec P n 0 [] (act.drop 64)
    let n := Noise.mix P n (act.drop 64)
    let c := Noise.enc P n 1 s.pub
    let n := Noise.mix P n (c.1 ++ c.2)
    let se ← P.ecdh re s.priv
    let n := Noise.dh P n se
    some (Noise.lines P n, c.1 ++ c.2 ++ (Noise.enc P n 0 []).2)
  else none

/-- The responder's answer to act one: its state, and act two. -/
def rTwo (P : Prim) (s e : KeyPair) (act : Bytes) : Option (Noise × Bytes) := do
  let ie ← P.fromHash (act.take 64)
  let es ← P.ecdh ie s.priv
  let n := ephemeral P (start P s.pub) ie es
  let _ ← Noise.dec P n 0 [] (act.drop 64)
  let n := Noise.mix P n (act.drop 64)
  let ee ← P.ecdh ie e.priv
  let n := ephemeral P n e.pub ee
  let c := Noise.enc P n 0 []
  some (Noise.mix P n c.2, e.uniform ++ c.2)

/-- The responder's verdict on act three: the two lines and the initiator's static key. -/
def rDone (P : Prim) (e : KeyPair) (n : Noise) (act : Bytes) : Option ((Line × Line) × Bytes) := do
  let c := act.take 33
  let t1 := (act.drop 33).take 16
  let t2 := act.drop 49
  let is ← Noise.dec P n 1 c t1
  let n := Noise.mix P n (c ++ t1)
  let se ← P.ecdh is e.priv
  let n := Noise.dh P n se
  let _ ← Noise.dec P n 0 [] t2
  some (Noise.lines P n, is)

/-- What an initiator is told by a stream: nothing before act two is complete and right,
then the messages of the line from the responder. -/
def initiatorHears (P : Prim) (s e : KeyPair) (n : Noise) (stream : Bytes) : List Bytes × Bool :=
  if stream.length < 80 then ([], true)
  else
    match iThree P s e n (stream.take 80) with
    | none => ([], false)
    | some r => plain P r.1.2 0 (stream.drop 80)

/-- What an initiator says, having read `stream` and been given `ms` to send: act one, and
act three and the messages once act two is complete and right. -/
def initiatorSays (P : Prim) (s e : KeyPair) (n : Noise × Bytes) (stream : Bytes) (ms : List Bytes) : Bytes :=
  n.2 ++
    if stream.length < 80 then []
    else
      match iThree P s e n.1 (stream.take 80) with
      | none => []
      | some r => r.2 ++ packets P r.1.1 0 ms

/-- What a responder says. -/
def responderSays (P : Prim) (s e : KeyPair) (stream : Bytes) (ms : List Bytes) : Bytes :=
  if stream.length < 80 then []
  else
    match rTwo P s e (stream.take 80) with
    | none => []
    | some r =>
      let stream := stream.drop 80
      r.2 ++
        if stream.length < 65 then []
        else
          match rDone P e r.1 (stream.take 65) with
          | none => []
          | some d => packets P d.1.2 0 ms

/-- What a responder is told by a stream. -/
def responderHears (P : Prim) (s e : KeyPair) (stream : Bytes) : List Bytes × Bool :=
  if stream.length < 80 then ([], true)
  else
    match rTwo P s e (stream.take 80) with
    | none => ([], false)
    | some r =>
      let stream := stream.drop 80
      if stream.length < 65 then ([], true)
      else
        match rDone P e r.1 (stream.take 65) with
        | none => ([], false)
        | some d => plain P d.1.1 0 (stream.drop 65)

/-- The bytes that arrived in a sequence of events. -/
def arrived {σ : Type} : List (Verif.Brontide.Op σ) → Bytes
  | [] => []
  | .read d :: r => d ++ arrived r
  | _ :: r => arrived r

/-- What is assumed of the primitives when two honest ends meet: decryption undoes
encryption and finds the same tag; encryption keeps the length, tags have 16 bytes, public
keys 33 and their encodings 64; an encoded key decodes to itself; Diffie–Hellman is
symmetric, and defined for every valid key. -/
structure Laws (P : Prim) : Prop where
  dec_enc : ∀ k iv ad x, P.dec k iv ad (P.enc k iv ad x).1 = (x, (P.enc k iv ad x).2)
  enc_len : ∀ k iv ad x, (P.enc k iv ad x).1.length = x.length
  tag_len : ∀ k iv ad x, (P.enc k iv ad x).2.length = 16
  pub_len : ∀ k p, P.pubOf k = some p → p.length = 33
  pub_ok : ∀ k p, P.pubOf k = some p → P.okKey p = true
  hash_len : ∀ p r u, P.toHash p r = some u → u.length = 64
  hash_inv : ∀ p r u, P.toHash p r = some u → P.fromHash u = some p
  ecdh_symm : ∀ a b pa pb, P.pubOf a = some pa → P.pubOf b = some pb → P.ecdh pa b = P.ecdh pb a
  ecdh_def : ∀ p k q, P.okKey p = true → P.pubOf k = some q → P.ecdh p k ≠ none

/-- A genuine key pair. -/
def Genuine (P : Prim) (k : KeyPair) : Prop :=
  P.pubOf k.priv = some k.pub ∧ ∃ r, P.toHash k.pub r = some k.uniform

/-! ### Two ends and a channel -/

open Verif.Brontide (M Env Op Host step)

/-- An initiator and a responder, each with the number of bytes it has been given of what
the other has sent. -/
structure Net (σ τ : Type) where
  i : M σ
  r : M τ
  ci : Nat
  cr : Nat

/-- What can happen: the next `k` bytes (or what there is of them) reach one end, or the
host of one end does something. -/
inductive NetOp (σ τ : Type) where
  | toI (k : Nat)
  | toR (k : Nat)
  | hostI (f : σ → Host σ)
  | hostR (f : τ → Host τ)

/-- The channel: what one end sends reaches the other unchanged and in order. -/
def netStep {σ τ : Type} (P : Prim) (EI : Env σ) (ER : Env τ) (n : Net σ τ) : NetOp σ τ → Out Unit (Net σ τ)
  | .toI k =>
    let d := ((outs n.r.trace).drop n.ci).take k
    (step P EI n.i (.read d)).bind fun i => .ok { n with i := i, ci := n.ci + d.length }
  | .toR k =>
    let d := ((outs n.i.trace).drop n.cr).take k
    (step P ER n.r (.read d)).bind fun r => .ok { n with r := r, cr := n.cr + d.length }
  | .hostI f => (step P EI n.i (.act f)).bind fun i => .ok { n with i := i }
  | .hostR f => (step P ER n.r (.act f)).bind fun r => .ok { n with r := r }

def netRun {σ τ : Type} (P : Prim) (EI : Env σ) (ER : Env τ) : List (NetOp σ τ) → Net σ τ → Out Unit (Net σ τ)
  | [], n => .ok n
  | o :: os, n => (netStep P EI ER n o).bind fun n => netRun P EI ER os n

/-- Everything sent has arrived. -/
def Quiet {σ τ : Type} (n : Net σ τ) : Prop :=
  n.ci = (outs n.r.trace).length ∧ n.cr = (outs n.i.trace).length

/-- The random source yields this key pair. -/
def Draws (P : Prim) (R : Verif.Brontide.Rand) (e : KeyPair) : Prop :=
  R.priv = some e.priv ∧ P.pubOf e.priv = some e.pub ∧ ∃ r, R.entropy = some r ∧ P.toHash e.pub r = some e.uniform

end Verif.Spec.Brontide
