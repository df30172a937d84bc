import Verif.Base
/-
Model of `src/brontide.c` and `src/brontide.h`: the encrypted transport (a Noise XK
handshake in three acts, then length-prefixed sealed messages).

* SHA-256, HKDF, the AEAD cipher and the curve operations are parameters (`Prim`); what
  is assumed of them is said in the theorems that use it.
* Fixed-size C arrays are byte lists. `b->msg` is the list of the `msg_pos` bytes stored so
  far (`buf`), together with the size `msg_len` of the buffer (`need`). Decrypting in place
  changes bytes of `b->msg` which are never read again; the model leaves them as they were.
* A failed `assert`, and the use of an array which a failed callee left unset, are `ub`.
* Allocation succeeds. The object is used by one host, whose callbacks may call
  `hsk_brontide_write` and `hsk_brontide_destroy` in any order, depending on anything the
  host knows (`Host`), but which do not feed data from within a callback.
-/
namespace Verif.Brontide

/-- The primitives `brontide.c` calls: `hsk_hash_sha256` (hash.c:149-157); `hsk_hash_hkdf` with
empty `info` (hash.c:219-261), from the secret and the salt; `hsk_aead_setup` …
`hsk_aead_final` (aead.c:29-126), from key, iv, additional data and input to output and tag;
`hsk_ec_create_pubkey` (ec.c:75-93), `hsk_ec_ecdh` (ec.c:201-220) of public and private key,
`hsk_ec_pubkey_to_hash` (ec.c:222-244) with the entropy it draws, `hsk_ec_pubkey_from_hash`
(ec.c:246-268) and `hsk_ec_verify_pubkey` (ec.c:46-51). `none`: the routine returned false. -/
structure Prim where
  sha : Bytes → Bytes
  hkdf : Bytes → Bytes → Bytes × Bytes
  enc : Bytes → Bytes → Option Bytes → Bytes → Bytes × Bytes
  dec : Bytes → Bytes → Option Bytes → Bytes → Bytes × Bytes
  pubOf : Bytes → Option Bytes
  ecdh : Bytes → Bytes → Option Bytes
  toHash : Bytes → Bytes → Option Bytes
  fromHash : Bytes → Option Bytes
  okKey : Bytes → Bool

/-- What the random source yields to this object: the ephemeral private key of
`hsk_ec_create_privkey` (ec.c:53-73) and the entropy of `hsk_ec_pubkey_to_hash`
(ec.c:235-237). Both are drawn once in the life of the object. -/
structure Rand where
  priv : Option Bytes
  entropy : Option Bytes

/-- The value of an output array: unset when the callee failed. -/
def need {α : Type} : Option α → Out Unit α
  | some a => .ok a
  | none => .ub

/-- brontide.c:32-47: "hns", the rotation interval, sizes and act numbers. -/
def rotation : Nat := 1000
def actOneSize : Nat := 80
def actTwoSize : Nat := 80
def actThreeSize : Nat := 65
def headerSize : Nat := 20
/-- brontide.c:51; `HSK_MAX_MESSAGE` is 8000000 (constants.h:17). -/
def maxMessage : Nat := 8000000 + 9

/-- brontide.c:27-32 `brontide_protocol_name`, `brontide_prologue`. -/
def protocolName : Bytes := "Noise_XK_secp256k1_ChaChaPoly_SHA256+SVDW_Squared".toUTF8.toList
def prologue : Bytes := "hns".toUTF8.toList

/-! ### Cipher state -/

/-- brontide.h:14-21 `hsk_cs_t`, without the working area of the cipher. -/
structure CS where
  nonce : Nat
  iv : Bytes
  key : Bytes
  salt : Bytes
  tag : Bytes
  deriving Repr, DecidableEq

/-- brontide.c:57-65 `hsk_cs_init`. -/
def csInit : CS :=
  { nonce := 0, iv := List.replicate 12 0, key := List.replicate 32 0,
    salt := List.replicate 32 0, tag := List.replicate 16 0 }

/-- brontide.c:67-71 `hsk_cs_update`. -/
def csUpdate (cs : CS) : CS :=
  { cs with iv := cs.iv.take 4 ++ leBytes 4 cs.nonce ++ cs.iv.drop 8 }

/-- brontide.c:73-78 `hsk_cs_init_key`. -/
def csInitKey (cs : CS) (key : Bytes) : CS :=
  csUpdate { cs with key := key, nonce := 0 }

/-- brontide.c:80-84 `hsk_cs_init_saltkey`. -/
def csInitSaltkey (cs : CS) (salt key : Bytes) : CS :=
  csInitKey { cs with salt := salt } key

/-- brontide.c:86-100 `hsk_cs_rotate_key`. -/
def csRotate (P : Prim) (cs : CS) : CS :=
  let h := P.hkdf cs.key cs.salt
  csInitKey { cs with salt := h.1 } h.2

/-- brontide.c:117-122, 140-145: the end of `hsk_cs_encrypt` and `hsk_cs_decrypt`. -/
def csStep (P : Prim) (cs : CS) : CS :=
  let cs := csUpdate { cs with nonce := (cs.nonce + 1) % 2 ^ 32 }
  if cs.nonce = rotation then csRotate P cs else cs

/-- brontide.c:102-123 `hsk_cs_encrypt`: new state and ciphertext. -/
def csEncrypt (P : Prim) (cs : CS) (ad : Option Bytes) (inp : Bytes) : CS × Bytes :=
  let r := P.enc cs.key cs.iv ad inp
  (csStep P { cs with tag := r.2 }, r.1)

/-- brontide.c:125-146 `hsk_cs_decrypt`. -/
def csDecrypt (P : Prim) (cs : CS) (ad : Option Bytes) (inp : Bytes) : CS × Bytes :=
  let r := P.dec cs.key cs.iv ad inp
  (csStep P { cs with tag := r.2 }, r.1)

/-- brontide.c:148-151 `hsk_cs_verify`: equality of tags (poly1305.c:102-117). -/
def csVerify (cs : CS) (tag : Bytes) : Bool := cs.tag == tag

/-! ### The object -/

/-- brontide.c:43-47: the acts. -/
inductive Act where
  | none | one | two | three | done
  deriving Repr, DecidableEq

/-- brontide.h:40-75 `hsk_brontide_t`. `buf` is `none` while `msg` is `NULL`. -/
structure B where
  cs : CS
  ck : Bytes
  temp : Bytes
  digest : Bytes
  initiator : Bool
  localStatic : Bytes
  localEph : Bytes
  remoteStatic : Bytes
  remoteEph : Bytes
  send : CS
  recv : CS
  state : Act
  hasSize : Bool
  buf : Option Bytes
  need : Nat
  deriving Repr, DecidableEq

/-- brontide.c:157-193 `hsk_brontide_init`. -/
def bInit : B :=
  { cs := csInit, ck := List.replicate 32 0, temp := List.replicate 32 0,
    digest := List.replicate 32 0, initiator := false,
    localStatic := List.replicate 32 0, localEph := List.replicate 32 0,
    remoteStatic := List.replicate 33 0, remoteEph := List.replicate 33 0,
    send := csInit, recv := csInit, state := .none, hasSize := false, buf := none, need := 0 }

/-- brontide.c:211-227 `hsk_brontide_init_sym`. -/
def initSym (P : Prim) (b : B) (name : Bytes) : B :=
  let h := P.sha name
  { b with digest := h, ck := h, cs := csInitKey b.cs (List.replicate 32 0) }

/-- brontide.c:229-238 `hsk_brontide_mix_key`. -/
def mixKey (P : Prim) (b : B) (secret : Bytes) : B :=
  let h := P.hkdf secret b.ck
  { b with ck := h.1, temp := h.2, cs := csInitKey b.cs h.2 }

/-- brontide.c:240-257 `hsk_brontide__mix_hash`. -/
def mixHashOf (P : Prim) (b : B) (data : Bytes) (tag : Option Bytes) : Bytes :=
  P.sha (b.digest ++ data ++ tag.getD [])

/-- brontide.c:259-262 `hsk_brontide_mix_hash`. -/
def mixHash (P : Prim) (b : B) (data : Bytes) : B :=
  { b with digest := mixHashOf P b data none }

/-- brontide.c:264-273 `hsk_brontide_encrypt`. -/
def bEncrypt (P : Prim) (b : B) (inp : Bytes) : B × Bytes :=
  let r := csEncrypt P b.cs (some b.digest) inp
  let b := { b with cs := r.1 }
  ({ b with digest := mixHashOf P b r.2 (some b.cs.tag) }, r.2)

/-- brontide.c:275-288 `hsk_brontide_decrypt`. -/
def bDecrypt (P : Prim) (b : B) (inp tag : Bytes) : B × Bytes :=
  let h := mixHashOf P b inp (some tag)
  let r := csDecrypt P b.cs (some b.digest) inp
  ({ b with cs := r.1, digest := h }, r.2)

/-- brontide.c:290-332 `hsk_brontide_init_state`, `hsk_brontide_init_brontide`. -/
def initState (P : Prim) (b : B) (initiator : Bool) (localKey : Bytes) (remote : Option Bytes) :
    Out Unit B :=
  let b := { b with initiator := initiator, localStatic := localKey,
                    remoteStatic := remote.getD (List.replicate 33 0) }
  let b := initSym P b protocolName
  let b := mixHash P b prologue
  if initiator then
    (need remote).bind fun r => .ok (mixHash P b r)
  else
    (need (P.pubOf localKey)).bind fun p => .ok (mixHash P b p)

/-- brontide.c:335-337 `hsk_brontide_destroy`. -/
def destroy (b : B) : B := { b with state := .none }

/-- brontide.c:494-512 `hsk_brontide_split`. -/
def split (P : Prim) (b : B) : B :=
  let h := P.hkdf [] b.ck
  if b.initiator then
    { b with send := csInitSaltkey b.send b.ck h.1, recv := csInitSaltkey b.recv b.ck h.2 }
  else
    { b with recv := csInitSaltkey b.recv b.ck h.1, send := csInitSaltkey b.send b.ck h.2 }

/-- brontide.c:341-361, 390-410: the common part of `hsk_brontide_gen_act_one` and
`hsk_brontide_gen_act_two`: a fresh ephemeral key mixed with the key `remote`. -/
def genEph (P : Prim) (R : Rand) (b : B) (remote : Bytes) : Out Unit (B × Bytes) := do
  let priv ← need R.priv
  let b := { b with localEph := priv }
  let eph ← need (P.pubOf b.localEph)
  let ent ← need R.entropy
  let uniform ← need (P.toHash eph ent)
  let b := mixHash P b eph
  let s ← need (P.ecdh remote b.localEph)
  let b := mixKey P b s
  let b := (bEncrypt P b []).1
  pure (b, uniform ++ b.cs.tag)

/-- brontide.c:339-362 `hsk_brontide_gen_act_one`. -/
def genActOne (P : Prim) (R : Rand) (b : B) : Out Unit (B × Bytes) :=
  genEph P R b b.remoteStatic

/-- brontide.c:364-387 `hsk_brontide_recv_act_one`; the flag is the result. -/
def recvActOne (P : Prim) (b : B) (act : Bytes) : Out Unit (B × Bool) := do
  let e ← need (P.fromHash (act.take 64))
  let p := act.drop 64
  let b := mixHash P { b with remoteEph := e } e
  let s ← need (P.ecdh b.remoteEph b.localStatic)
  let b := mixKey P b s
  let b := (bDecrypt P b [] p).1
  pure (b, csVerify b.cs p)

/-- brontide.c:389-411 `hsk_brontide_gen_act_two`. -/
def genActTwo (P : Prim) (R : Rand) (b : B) : Out Unit (B × Bytes) :=
  genEph P R b b.remoteEph

/-- brontide.c:413-439 `hsk_brontide_recv_act_two`. -/
def recvActTwo (P : Prim) (b : B) (act : Bytes) : Out Unit (B × Bool) := do
  let e ← need (P.fromHash (act.take 64))
  let p := act.drop 64
  if P.okKey e then
    let b := mixHash P { b with remoteEph := e } e
    let s ← need (P.ecdh b.remoteEph b.localEph)
    let b := mixKey P b s
    let b := (bDecrypt P b [] p).1
    pure (b, csVerify b.cs p)
  else pure (b, false)

/-- brontide.c:441-463 `hsk_brontide_gen_act_three`. -/
def genActThree (P : Prim) (b : B) : Out Unit (B × Bytes) := do
  let pub ← need (P.pubOf b.localStatic)
  let r := bEncrypt P b pub
  let tag1 := r.1.cs.tag
  let s ← need (P.ecdh r.1.remoteEph r.1.localStatic)
  let b := mixKey P r.1 s
  let b := (bEncrypt P b []).1
  pure (split P b, r.2 ++ tag1 ++ b.cs.tag)

/-- brontide.c:465-492 `hsk_brontide_recv_act_three`. -/
def recvActThree (P : Prim) (b : B) (act : Bytes) : Out Unit (B × Bool) := do
  let s1 := act.take 33
  let p1 := (act.drop 33).take 16
  let p2 := act.drop 49
  let r := bDecrypt P b s1 p1
  if csVerify r.1.cs p1 then
    let b := { r.1 with remoteStatic := r.2 }
    let se ← need (P.ecdh b.remoteStatic b.localEph)
    let b := mixKey P b se
    let b := (bDecrypt P b [] p2).1
    if csVerify b.cs p2 then pure (split P b, true) else pure (b, false)
  else pure (r.1, false)

/-! ### The object and its host -/

/-- What the host does within a callback: call `hsk_brontide_write` or
`hsk_brontide_destroy` any number of times, going on according to its own state `σ` (which
`write_cb` changes) and to the code `hsk_brontide_write` returned. -/
inductive Host (σ : Type) where
  | ret (s : σ)
  | write (s : σ) (data : Bytes) (k : σ → Nat → Host σ)
  | destroy (s : σ) (k : σ → Host σ)

/-- brontide.h:57-63: the host's callbacks; `writeCb` yields a status, 0 for success. -/
structure Env (σ : Type) where
  connectCb : σ → Host σ
  readCb : σ → Bytes → Host σ
  writeCb : σ → Bytes → σ × Nat
  rand : Rand

/-- What can be seen of the object from outside. -/
inductive Ev where
  /-- The host called `hsk_brontide_write` with this message, the handshake being done. -/
  | written (data : Bytes)
  /-- `write_cb` was called with these bytes and returned this status. -/
  | out (data : Bytes) (status : Nat)
  /-- `connect_cb` was called. -/
  | connected
  /-- `read_cb` was called with this message. -/
  | message (data : Bytes)
  /-- `hsk_brontide_destroy` was called by the host. -/
  | closed
  deriving Repr, DecidableEq

/-- The object, its host, and what has been seen so far. -/
structure M (σ : Type) where
  b : B
  host : σ
  trace : List Ev

variable {σ : Type}

/-- A call of `write_cb`. -/
def emit (E : Env σ) (m : M σ) (data : Bytes) : M σ × Nat :=
  let r := E.writeCb m.host data
  ({ m with host := r.1, trace := m.trace ++ [.out data r.2] }, r.2)

/-- brontide.c:570-609 `hsk_brontide_write`. -/
def bWrite (P : Prim) (E : Env σ) (m : M σ) (data : Bytes) : M σ × Nat :=
  if m.b.state ≠ .done then (m, 0)
  else
    let stop := fun (m : M σ) (r : Nat) => ({ m with b := destroy m.b }, r)
    let r1 := csEncrypt P m.b.send none (leBytes 4 data.length)
    let m := { m with b := { m.b with send := r1.1 }, trace := m.trace ++ [.written data] }
    let w1 := emit E m r1.2
    if w1.2 ≠ 0 then stop w1.1 w1.2
    else
      let w2 := emit E w1.1 w1.1.b.send.tag
      if w2.2 ≠ 0 then stop w2.1 w2.2
      else
        let r2 := csEncrypt P w2.1.b.send none data
        let m := { w2.1 with b := { w2.1.b with send := r2.1 } }
        let w3 := emit E m r2.2
        if w3.2 ≠ 0 then stop w3.1 w3.2
        else
          let w4 := emit E w3.1 w3.1.b.send.tag
          if w4.2 ≠ 0 then stop w4.1 w4.2 else (w4.1, 0)

/-- The body of a callback. -/
def runHost (P : Prim) (E : Env σ) : Host σ → M σ → M σ
  | .ret s, m => { m with host := s }
  | .write s data k, m =>
    let r := bWrite P E { m with host := s } data
    runHost P E (k r.1.host r.2) r.1
  | .destroy s k, m =>
    runHost P E (k s) { m with host := s, b := destroy m.b, trace := m.trace ++ [.closed] }

/-- A call of `connect_cb`. -/
def connected (P : Prim) (E : Env σ) (m : M σ) : M σ :=
  runHost P E (E.connectCb m.host) { m with trace := m.trace ++ [.connected] }

/-- A call of `read_cb`. -/
def deliver (P : Prim) (E : Env σ) (m : M σ) (data : Bytes) : M σ :=
  runHost P E (E.readCb m.host data) { m with trace := m.trace ++ [.message data] }

/-- brontide.c:521-528 `hsk_brontide_connect`. -/
def connect (P : Prim) (b : B) (ourKey theirKey : Bytes) : Out Unit B :=
  initState P b true ourKey (some theirKey)

/-- brontide.c:530-568 `hsk_brontide_on_connect`. -/
def onConnect (P : Prim) (E : Env σ) (m : M σ) : Out Unit (M σ × Nat) :=
  if m.b.initiator then do
    let r ← genActOne P E.rand { m.b with state := .two }
    let w := emit E { m with b := r.1 } r.2
    if w.2 ≠ 0 then pure ({ w.1 with b := destroy w.1.b }, w.2)
    else pure ({ w.1 with b := { w.1.b with buf := some [], need := actTwoSize } }, 0)
  else
    .ok ({ m with b := { m.b with state := .one, buf := some [], need := actOneSize } }, 0)

/-- brontide.c:514-518 `hsk_brontide_accept`. -/
def accept (P : Prim) (E : Env σ) (m : M σ) (ourKey : Bytes) : Out Unit (M σ × Nat) := do
  let b ← initState P m.b false ourKey none
  onConnect P E { m with b := b }

/-- The result of `hsk_brontide_parse`: an error code (`HSK_EACTONE` and so on), or success
and the size of the next piece. -/
inductive Parsed where
  | fail (code : Nat)
  | next (len : Nat)
  deriving Repr, DecidableEq

/-- error.h:42-46: the codes. -/
def eActOne : Nat := 27
def eActTwo : Nat := 28
def eActThree : Nat := 29
def eBadSize : Nat := 30
def eBadTag : Nat := 31

/-- brontide.c:673-700: act two, at the initiator. -/
def parseTwo (P : Prim) (E : Env σ) (m : M σ) (data : Bytes) : Out Unit (M σ × Parsed) := do
  if data.length ≠ actTwoSize then .ub
  else
    let r ← recvActTwo P m.b data
    if r.2 = false then pure ({ m with b := r.1 }, .fail eActTwo)
    else
      let g ← genActThree P r.1
      let w := emit E { m with b := g.1 } g.2
      if w.2 ≠ 0 then pure (w.1, .fail w.2)
      else
        pure (connected P E { w.1 with b := { w.1.b with state := .done } }, .next headerSize)

/-- brontide.c:703-724: act one, at the responder. -/
def parseOne (P : Prim) (E : Env σ) (m : M σ) (data : Bytes) : Out Unit (M σ × Parsed) := do
  if data.length ≠ actOneSize then .ub
  else
    let r ← recvActOne P m.b data
    if r.2 = false then pure ({ m with b := r.1 }, .fail eActOne)
    else
      let g ← genActTwo P E.rand r.1
      let w := emit E { m with b := g.1 } g.2
      if w.2 ≠ 0 then pure (w.1, .fail w.2)
      else pure ({ w.1 with b := { w.1.b with state := .three } }, .next actThreeSize)

/-- brontide.c:726-737: act three, at the responder. -/
def parseThree (P : Prim) (E : Env σ) (m : M σ) (data : Bytes) : Out Unit (M σ × Parsed) := do
  if data.length ≠ actThreeSize then .ub
  else
    let r ← recvActThree P m.b data
    if r.2 = false then pure ({ m with b := r.1 }, .fail eActThree)
    else pure (connected P E { m with b := { r.1 with state := .done } }, .next headerSize)

/-- brontide.c:746-766: the sealed length of a message. `get_i32` is signed, so a value of
2^31 or more is negative. -/
def parseHeader (P : Prim) (m : M σ) (data : Bytes) : Out Unit (M σ × Parsed) :=
  if data.length ≠ headerSize then .ub
  else
    let r := csDecrypt P m.b.recv none (data.take 4)
    let m := { m with b := { m.b with recv := r.1 } }
    if csVerify r.1 (data.drop 4) = false then .ok (m, .fail eBadTag)
    else
      let size := leNat r.2
      if 2 ^ 31 ≤ size ∨ maxMessage < size then .ok (m, .fail eBadSize)
      else .ok ({ m with b := { m.b with hasSize := true } }, .next (size + 16))

/-- brontide.c:768-780: the sealed message itself. `data_len - 16` wraps when there are
fewer than 16 bytes. -/
def parseBody (P : Prim) (E : Env σ) (m : M σ) (data : Bytes) : Out Unit (M σ × Parsed) :=
  if data.length < 16 then .ub
  else
    let n := data.length - 16
    let r := csDecrypt P m.b.recv none (data.take n)
    let m := { m with b := { m.b with recv := r.1 } }
    if csVerify r.1 (data.drop n) = false then .ok (m, .fail eBadTag)
    else
      .ok (deliver P E { m with b := { m.b with hasSize := false } } r.2, .next headerSize)

/-- brontide.c:659-780 `hsk_brontide_parse`. -/
def parse (P : Prim) (E : Env σ) (m : M σ) (data : Bytes) : Out Unit (M σ × Parsed) :=
  match m.b.initiator, m.b.state with
  | true, .two => parseTwo P E m data
  | false, .one => parseOne P E m data
  | false, .three => parseThree P E m data
  | _, .done => if m.b.hasSize then parseBody P E m data else parseHeader P m data
  | _, _ => .ub

/-- brontide.c:617-656: the loop of `hsk_brontide_on_read`, over the data not yet taken.
Every round takes at least one byte, so `fuel` above the number of bytes is never used up.
(`msg_pos` is not moved by the first `memcpy`; when the parse fails it is not read again.) -/
def readLoop (P : Prim) (E : Env σ) : Nat → M σ → Bytes → Bytes → Out Unit (M σ × Nat)
  | 0, _, _, _ => .ub
  | fuel + 1, m, buf, data =>
    if m.b.need ≤ buf.length + data.length then
      if m.b.need ≤ buf.length then .ub
      else
        let k := m.b.need - buf.length
        let msg := buf ++ data.take k
        (parse P E { m with b := { m.b with buf := some msg } } msg).bind fun r =>
          match r.2 with
          | .fail code => .ok ({ r.1 with b := destroy r.1.b }, code)
          | .next n =>
            if r.1.b.state = .none then .ok (r.1, 0)
            else if n = 0 then .ub
            else readLoop P E fuel { r.1 with b := { r.1.b with buf := some [], need := n } } []
                  (data.drop k)
    else .ok ({ m with b := { m.b with buf := some (buf ++ data) } }, 0)

/-- brontide.c:611-657 `hsk_brontide_on_read`. -/
def onRead (P : Prim) (E : Env σ) (m : M σ) (data : Bytes) : Out Unit (M σ × Nat) :=
  if m.b.state = .none then .ok (m, 0)
  else
    match m.b.buf with
    | none => .ub
    | some buf => readLoop P E (data.length + 1) m buf data

/-! ### A session -/

/-- What can happen to the object once it is connected: bytes arrive (pool.c:1860-1865), or
the host does something outside any callback (pool.c:1182-1183, 996-997). -/
inductive Op (σ : Type) where
  | read (data : Bytes)
  | act (f : σ → Host σ)

/-- One such event. A code that `hsk_brontide_on_read` returns is not kept: the object is
destroyed already. -/
def step (P : Prim) (E : Env σ) (m : M σ) : Op σ → Out Unit (M σ)
  | .read data => (onRead P E m data).bind fun r => .ok r.1
  | .act f => .ok (runHost P E (f m.host) m)

/-- A sequence of events. -/
def run (P : Prim) (E : Env σ) : List (Op σ) → M σ → Out Unit (M σ)
  | [], m => .ok m
  | o :: os, m => (step P E m o).bind fun m => run P E os m

/-- A new object connected to the node with the key `theirKey` (pool.c:839-846, 970-971,
1795-1797). -/
def dial (P : Prim) (E : Env σ) (s : σ) (ourKey theirKey : Bytes) : Out Unit (M σ) :=
  (connect P bInit ourKey theirKey).bind fun b =>
    (onConnect P E { b := b, host := s, trace := [] }).bind fun r => .ok r.1

/-- A new object that accepts a connection (brontide.c:514-518; not used by hnsd). -/
def listen (P : Prim) (E : Env σ) (s : σ) (ourKey : Bytes) : Out Unit (M σ) :=
  (accept P E { b := bInit, host := s, trace := [] } ourKey).bind fun r => .ok r.1

end Verif.Brontide
