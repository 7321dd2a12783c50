import Verif.Model.EdhocAuth
/-
Plaintexts, ciphertexts and the messages 1 to 4.
-/
namespace Verif.Edhoc
open Verif

/-- inc/edhoc/ciphertext.h:20 `enum ciphertext` -/
inductive Ctxt where | c2 | c3 | c4 deriving DecidableEq, Repr

/-- KID_SIZE, AAD_SIZE, SIG_OR_MAC_SIZE: inc/edhoc/buffer_sizes.h:65-67 -/
def kidSize : Nat := 8
/-- inc/edhoc/buffer_sizes.h:65 -/
def aadSize : Nat := 45
/-- inc/edhoc/buffer_sizes.h:67 -/
def sigOrMacSize : Nat := 64

/-- src/edhoc/plaintext_encode.c:26-48 `id_cred2kid`: the encoded kid, empty if there is none.  The
field `..kid_int` is read even if the kid is a byte string; then it holds part of a pointer (`ub`). -/
def idCred2kid (cfg : ECfg) (idCred : Bytes) : R Bytes :=
  match zIdMap cfg.strictCbor idCred with
  | none => .err .unexpected_result_from_ext_lib
  | some (m, _) =>
    match m.kid with
    | none => .ok []
    | some (.inl k) => encodeInt k kidSize
    | some (.inr _) => .ub

/-- plaintext_decode.c:39-79 `id_cred_x_encode(kid, ..)` -/
def idCredKid (k : Int) (cap : Nat) : R Bytes :=
  cborOut cap .unexpected_result_from_ext_lib (cborMap 1 ++ cborUint 4 ++ cborInt k)
/-- plaintext_decode.c:39-79 `id_cred_x_encode(x5chain, ..)` -/
def idCredX5chain (v : Bytes) (cap : Nat) : R Bytes :=
  cborOut cap .unexpected_result_from_ext_lib (cborMap 1 ++ cborUint 33 ++ cborBstr v)
/-- plaintext_decode.c:39-79 `id_cred_x_encode(x5t, ..)`; a text string as algorithm is read as an
integer (`ub`) -/
def idCredX5t (a : Int ⊕ Bytes) (h : Bytes) (cap : Nat) : R Bytes :=
  match a with
  | .inl alg => cborOut cap .unexpected_result_from_ext_lib
      (cborMap 1 ++ cborUint 34 ++ cborArr 2 ++ cborInt alg ++ cborBstr h)
  | .inr _ => .ub

/-- plaintext_decode.c:101-137, 174-210: ID_CRED_x from the decoded field, into a buffer of `cap`
bytes.  A map with neither x5chain nor x5t leaves the buffer uninitialised, a byte string is read as
an integer (`ub`).  With both, the second encoding goes into the first one's length. -/
def idCredOf (f : IdField) (cap : Nat) : R Bytes :=
  match f with
  | .int k => idCredKid k cap
  | .bstr _ => .ub
  | .map m =>
    match m.x5chain, m.x5t with
    | none, none => .ub
    | some v, none => idCredX5chain v cap
    | none, some (a, h) => idCredX5t a h cap
    | some v, some (a, h) => do
      let x ← idCredX5chain v cap
      idCredX5t a h x.length

/-- plaintext_decode.c:142-153, 215-225: EAD into a buffer of `cap` bytes -/
def eadOf (e : Option Bytes) (cap : Nat) : R Bytes :=
  match e with
  | some v => memcpyS cap v
  | none => .ok []

/-- ID_CRED_x, Signature_or_MAC, EAD (out parameters of src/edhoc/plaintext_decode.c:159-222) -/
structure Split where
  idCred : Bytes
  sigOrMac : Bytes
  ead : Bytes
  deriving DecidableEq, Repr

/-- plaintext_decode.c:101-153, 174-225: the fields common to plaintext 2 and 3 -/
def splitFields (p : Ptxt3) (idCap eadCap : Nat) : R Split := do
  let id ← idCredOf p.id idCap
  let sm ← memcpyS sigOrMacSize p.sigOrMac
  let e ← eadOf p.ead eadCap
  pure ⟨id, sm, e⟩

/-- plaintext_decode.c:90-99: C_R into a buffer of `cap` bytes; an integer is kept encoded -/
def crOf (c : Int ⊕ Bytes) (cap : Nat) : R Bytes :=
  match c with
  | .inr b => memcpyS cap b
  | .inl i => encodeInt i cap

/-- plaintext_decode.c:81-156 `plaintext2_split` -/
def plaintext2Split (cfg : ECfg) (ptxt : Bytes) (crCap idCap eadCap : Nat) : R (Bytes × Split) :=
  match decPtxt2 cfg.strictCbor ptxt with
  | none => .err .unexpected_result_from_ext_lib
  | some (c, p) => do
    let cR ← crOf c crCap
    let s ← splitFields p idCap eadCap
    pure (cR, s)

/-- plaintext_decode.c:159-222 `plaintext3_split` -/
def plaintext3Split (cfg : ECfg) (ptxt : Bytes) (idCap eadCap : Nat) : R Split :=
  match decPtxt3 cfg.strictCbor ptxt with
  | none => .err .unexpected_result_from_ext_lib
  | some p => splitFields p idCap eadCap

/-- the string "Encrypt0" (src/edhoc/associated_data_encode.c:24) -/
def strEncrypt0 : Bytes := "Encrypt0".toUTF8.toList

/-- src/edhoc/associated_data_encode.c:22-29, edhoc_cose.c:21-64 -/
def assocData (th : Bytes) : R Bytes :=
  cborOut aadSize .unexpected_result_from_ext_lib
    (cborArr 3 ++ cborTstr strEncrypt0 ++ cborBstr [] ++ cborBstr th)

/-- inc/edhoc/hkdf_info.h:20-33 labels of the keys of ciphertext 3 and 4 -/
def keyLabel : Ctxt → Nat | .c2 => 0 | .c3 => 3 | .c4 => 8
/-- src/edhoc/ciphertext.c, labels of inc/edhoc/okm.h -/
def ivLabel : Ctxt → Nat | .c2 => 0 | .c3 => 4 | .c4 => 9

/-- ciphertext.c:89-118 `key_gen`, with the array sizes of the callers (ciphertext.c:128-136,
230-238): key and IV (no IV for ciphertext 2, whose key stream has the length `len`) -/
def keyGen (cfg : ECfg) (C : ECrypto) (ct : Ctxt) (prk th : Bytes) (len : Nat) :
    R (Bytes × Bytes) :=
  if ct = .c2 then do
    checkBufferSize cfg.plaintext2Size len
    let k ← edhocKdf cfg C prk (keyLabel .c2) th len
    pure (k, [])
  else do
    let k ← edhocKdf cfg C prk (keyLabel ct) th 16
    let iv ← edhocKdf cfg C prk (ivLabel ct) th 13
    pure (k, iv)

/-- ciphertext.c:35-46 `xor_arrays` (equal lengths) -/
def xorBytes (a b : Bytes) : Bytes := List.zipWith (· ^^^ ·) a b

/-- ciphertext.c:191-202: C_R in plaintext 2 -/
def crField (cfg : ECfg) (cR : Bytes) : R Bytes :=
  if isEncodedInt cR then pure cR
  else do
    checkBufferSize (asBstr cfg.cISize) (asBstr cR.length)
    encodeBstr cR (asBstr cR.length)

/-- ciphertext.c:204-221: ID_CRED_x in a plaintext, the integer only if there is a kid -/
def idField (cfg : ECfg) (idCred : Bytes) : R Bytes := do
  let kid ← idCred2kid cfg idCred
  pure (if kid.length ≠ 0 then kid else idCred)

/-- ciphertext.c:183-226: the plaintext, in a buffer of `cap` bytes.  Written per kind of message. -/
def plaintextGen (cfg : ECfg) (ct : Ctxt) (cR idCred sigOrMac ead : Bytes) (cap : Nat) :
    R Bytes := do
  checkBufferSize (asBstr sigOrMacSize) (asBstr sigOrMac.length)
  let sm ← encodeBstr sigOrMac (asBstr sigOrMac.length)
  match ct with
  | .c2 => do
    let c ← crField cfg cR
    let p1 ← byteArrayAppend [] c cap
    let id ← idField cfg idCred
    let p2 ← byteArrayAppend p1 id cap
    let p3 ← byteArrayAppend p2 sm cap
    byteArrayAppend p3 ead cap
  | .c3 => do
    let id ← idField cfg idCred
    let p2 ← byteArrayAppend [] id cap
    let p3 ← byteArrayAppend p2 sm cap
    byteArrayAppend p3 ead cap
  | .c4 => byteArrayAppend [] ead cap

/-- ciphertext.c:66-74,243-260 encryption; `bufSize` is the size of the ciphertext array -/
def ctxtEncrypt (C : ECrypto) (ct : Ctxt) (suite : Suite) (key iv th ptxt : Bytes) (bufSize : Nat) :
    R Bytes :=
  if ct = .c2 then
    if ptxt.length > bufSize then .ub else pure (xorBytes ptxt key)
  else do
    let aad ← assocData th
    if ptxt.length + suite.aead.tagLen > bufSize then .ub
    else match C.aeadEnc key iv aad suite.aead.tagLen ptxt with
      | some c => pure c
      | none => .err .unexpected_result_from_ext_lib

/-- ciphertext.c:184-271 `ciphertext_gen`: (ciphertext, plaintext) -/
def ciphertextGen (cfg : ECfg) (C : ECrypto) (ct : Ctxt) (suite : Suite)
    (cR idCred sigOrMac ead prk th : Bytes) (bufSize cap : Nat) : R (Bytes × Bytes) := do
  let ptxt ← plaintextGen cfg ct cR idCred sigOrMac ead cap
  let (key, iv) ← keyGen cfg C ct prk th ptxt.length
  let c ← ctxtEncrypt C ct suite key iv th ptxt bufSize
  pure (c, ptxt)

/-- ciphertext.c:120-151: the plaintext.  `ptxtLen` is the length of the plaintext array (the
ciphertext's); associated data is computed for ciphertext 2 too. -/
def ctxtDecrypt (cfg : ECfg) (C : ECrypto) (ct : Ctxt) (suite : Suite) (prk th ctxt : Bytes) :
    R Bytes := do
  let (key, iv) ← keyGen cfg C ct prk th ctxt.length
  let aad ← assocData th
  if ct = .c2 then pure (xorBytes ctxt key)
  else if ctxt.length < suite.aead.tagLen then .err .error_message_received
  else match C.aeadDec key iv aad suite.aead.tagLen ctxt with
    | some p => pure p
    | none => .err .unexpected_result_from_ext_lib

/-! ### Message 1 -/

/-- initiator.c:77-90 SUITES_I.  No suite leaves the choice uninitialised; more than 10 do not fit
`SUITES_I_suite_l_suite` (`ub`). -/
def suitesItem (suites : Bytes) : R Bytes :=
  match suites with
  | [] => .ub
  | [s] => .ok (cborInt (Int.ofNat s.toNat))
  | _ => if suites.length > 10 then .ub
      else .ok (cborArr suites.length ++ (suites.map fun s => cborInt (Int.ofNat s.toNat)).flatten)

/-- initiator.c:96-105 C_I -/
def cIItem (cfg : ECfg) (cI : Bytes) : R Bytes :=
  if isEncodedInt cI then do
    let i ← decodeInt cfg cI
    pure (cborInt i)
  else pure (cborBstr cI)

/-- initiator.c:68-127 `msg1_gen`: (message_1, suite, H(message_1)) -/
def msg1Gen (cfg : ECfg) (C : ECrypto) (c : ICtx) : R (Bytes × Suite × Bytes) := do
  let s ← suitesItem c.suitesI
  let ci ← cIItem cfg c.cI
  let m ← cborOut cfg.msgMaxSize .unexpected_result_from_ext_lib
    (cborInt c.method ++ s ++ cborBstr c.gX ++ ci ++
      (if c.ead1.length ≠ 0 then cborBstr c.ead1 else []))
  let suite ← getSuite (c.suitesI.getLastD 0).toNat
  pure (m, suite, hash C m)

/-- the fields of message 1 as the responder stores them (inc/edhoc/messages.h, inc/edhoc/runtime_context.h:20-43) -/
structure Parsed1 where
  method : Int
  suites : Bytes
  gX : Bytes
  cI : Bytes
  ead : Bytes
  deriving DecidableEq, Repr

/-- the cast of an `int32_t` to `uint8_t` (src/edhoc/responder.c:78, 91, 105) -/
def castU8 (i : Int) : UInt8 := byte (i % 256).toNat

/-- responder.c:77-97 SUITES_I; the empty list (suites_i_list_empty) is refused by the decoder -/
def suitesOf (cfg : ECfg) : List Int ⊕ Int → R Bytes
  | .inr i => .ok [castU8 i]
  | .inl l =>
    if l.length = 0 then .err .suites_i_list_empty
    else if l.length > cfg.suitesISize then .err .suites_i_list_to_long
    else .ok (l.map castU8)

/-- responder.c:106-114 C_I, into a buffer of `cap` bytes -/
def cIOf (c : Int ⊕ Bytes) (cap : Nat) : R Bytes :=
  match c with
  | .inl i => .ok [castU8 i]
  | .inr b => memcpyS cap b

/-- responder.c:117-122 EAD_1; `ead` is the EAD array before -/
def ead1Of (e : Option Bytes) (ead : Bytes) : R Bytes :=
  match e with
  | some v => memcpyS ead.length v
  | none => .ok ead

/-- responder.c:55-124 `msg1_parse`; `ead`: the EAD array of the runtime context before.
Simplification: a C_I buffer of no bytes is not modelled for an integer C_I. -/
def msg1Parse (cfg : ECfg) (msg1 : Bytes) (cICap : Nat) (ead : Bytes) : R Parsed1 :=
  match decMsg1 cfg.strictCbor msg1 with
  | none => .err .unexpected_result_from_ext_lib
  | some m =>
    if m.method > 3 ∨ m.method < 0 then .err .wrong_parameter
    else do
      let s ← suitesOf cfg m.suites
      let g ← memcpyS 32 m.gX
      let c ← cIOf m.cI cICap
      let e ← ead1Of m.ead1 ead
      pure ⟨m.method, s, g, c, e⟩

/-! ### Message 2 -/

/-- responder.c:132-142 `selected_suite_is_supported`: the `if` has no braces, so its body is only the
print statement and the loop returns at the first element -/
def suiteSupported (_selected : UInt8) (suitesR : Bytes) : Bool :=
  match suitesR with
  | [] => false
  | _ :: _ => true

/-- responder.c:152-168 `msg2_encode` -/
def msg2Encode (cfg : ECfg) (gY ctxt2 : Bytes) : R Bytes := do
  checkBufferSize cfg.gYCiphertext2 (gY.length + ctxt2.length)
  encodeBstr (gY ++ ctxt2) cfg.msgMaxSize

/-- what the responder keeps after message 2 (inc/edhoc/runtime_context.h:20-43) -/
structure RState where
  suite : Suite
  staticDhI : Bool
  ead : Bytes
  prk3e2m : Bytes
  th3 : Bytes
  cI : Bytes
  deriving DecidableEq, Repr

/-- responder.c:212-228: Signature_or_MAC_2 and ciphertext 2.  (ciphertext_2, plaintext_2) -/
def ctxt2Gen (cfg : ECfg) (C : ECrypto) (c : RCtx) (suite : Suite) (staticDhR : Bool)
    (prk2e prk3e2m th2 : Bytes) : R (Bytes × Bytes) := do
  let sm ← sigOrMacGen cfg C staticDhR suite c.skR c.pkR prk3e2m c.cR c.cRMem th2 c.idCredR c.credR
    c.ead2 2
  let cap := asBstr c.cR.length + c.idCredR.length + asBstr sm.length + c.ead2.length
  checkBufferSize cfg.plaintext2Size cap
  ciphertextGen cfg C .c2 suite c.cR c.idCredR sm c.ead2 prk2e th2 cfg.plaintext2Size cap

/-- responder.c:189-244: message 2 from the parsed message 1 -/
def msg2Build (cfg : ECfg) (C : ECrypto) (c : RCtx) (msg1 : Bytes) (p : Parsed1) :
    R (Bytes × RState) := do
  let suite ← getSuite (p.suites.getLastD 0).toNat
  let (sI, sR) := authType p.method (false, false)
  let th2 ← th2Calc C (hash C msg1) c.gY
  let gxy ← sharedSecret C suite.ecdh c.y p.gX
  let prk2e := hkdfExtract C.toCrypto th2 gxy
  let prk3e2m ← prkDerive cfg C sR suite 1 th2 prk2e p.gX c.r
  let (c2, p2) ← ctxt2Gen cfg C c suite sR prk2e prk3e2m th2
  let msg2 ← msg2Encode cfg c.gY c2
  let th3 ← th34Calc cfg C th2 p2 c.credR
  pure (msg2, ⟨suite, sI, p.ead, prk3e2m, th3, p.cI⟩)

/-- responder.c:170-244 `msg2_gen`: (message_2, state).  `cICap` is the size of the caller's C_I
buffer, `ead` the EAD array before. -/
def msg2Gen (cfg : ECfg) (C : ECrypto) (c : RCtx) (msg1 : Bytes) (cICap : Nat) (ead : Bytes) :
    R (Bytes × RState) := do
  let p ← msg1Parse cfg msg1 cICap ead
  if suiteSupported (p.suites.getLastD 0) c.suitesR = false then .err .error_message_sent
  else msg2Build cfg C c msg1 p

/-- initiator.c:48-66 `msg2_parse`: (G_Y, ciphertext_2), the latter in a buffer of `cap` bytes.  A
content of fewer than 32 bytes makes the second length wrap, so the copy is refused. -/
def msg2Parse (cfg : ECfg) (msg2 : Bytes) (cap : Nat) : R (Bytes × Bytes) := do
  let b ← decodeBstr cfg msg2 cfg.gYCiphertext2
  if b.length < 32 then .err .buffer_to_small
  else do
    let c ← memcpyS cap (b.drop 32)
    pure (b.take 32, c)

/-- initiator.c:137-140: length of the ciphertext array (`uint32_t` arithmetic) -/
def ctxt2Len (msgLen : Nat) : Nat :=
  let n := sub32 msgLen 32
  sub32 n (bstrOverhead n)

/-- what the initiator keeps after message 2 (inc/edhoc/runtime_context.h:20-43) -/
structure IState where
  cR : Bytes
  ead : Bytes
  th3 : Bytes
  prk3e2m : Bytes
  prk4e3m : Bytes
  deriving DecidableEq, Repr

/-- initiator.c:176-197: authentication of the responder, TH_3, PRK_4e3m.  `mem`: the memory behind
C_R in the caller's buffer. -/
def msg2Auth (cfg : ECfg) (C : ECrypto) (c : ICtx) (creds : List Cred) (suite : Suite)
    (sI sR : Bool) (gY th2 prk2e cR mem : Bytes) (s : Split) (ptxt : Bytes) : R IState := do
  let (credR, pk, gR) ← retrieveCred cfg C sR creds s.idCred cfg.credRSize
  let prk3e2m ← prkDerive cfg C sR suite 1 th2 prk2e gR c.x
  sigOrMacVerify cfg C sR suite pk prk3e2m cR mem th2 s.idCred credR s.ead 2 s.sigOrMac
  let th3 ← th34Calc cfg C th2 ptxt credR
  let prk4e3m ← prkDerive cfg C sI suite 5 th3 prk3e2m gY c.i
  pure ⟨cR, s.ead, th3, prk3e2m, prk4e3m⟩

/-- initiator.c:129-200 `msg2_process`.  `crBuf`: the caller's C_R buffer before (its length is the
capacity), `ead`: the EAD array before. -/
def msg2Process (cfg : ECfg) (C : ECrypto) (c : ICtx) (creds : List Cred) (suite : Suite)
    (msg1Hash msg2 : Bytes) (sI sR : Bool) (crBuf ead : Bytes) : R IState := do
  checkBufferSize cfg.plaintext2Size (ctxt2Len msg2.length)
  let (gY, c2) ← msg2Parse cfg msg2 (ctxt2Len msg2.length)
  let gxy ← sharedSecret C suite.ecdh c.x gY
  let th2 ← th2Calc C msg1Hash gY
  let prk2e := hkdfExtract C.toCrypto th2 gxy
  let ptxt ← ctxtDecrypt cfg C .c2 suite prk2e th2 c2
  let (cR, s) ← plaintext2Split cfg ptxt crBuf.length cfg.idCredRSize ead.length
  msg2Auth cfg C c creds suite sI sR gY th2 prk2e cR (crBuf.drop cR.length) s ptxt

/-! ### Message 3 -/

/-- initiator.c:202-228, up to the encoding: (message_3, plaintext_3).  `msgCap` is the length of
`rc->msg`, which is the length of the received message 2. -/
def msg3Build (cfg : ECfg) (C : ECrypto) (c : ICtx) (suite : Suite) (sI : Bool) (s : IState)
    (msgCap : Nat) : R (Bytes × Bytes) := do
  let cap := c.idCredI.length + asBstr sigOrMacSize + c.ead3.length
  checkBufferSize cfg.plaintext3Size cap
  checkBufferSize cfg.ciphertext3Size (asBstr cap + suite.aead.tagLen)
  let sm ← sigOrMacGen cfg C sI suite c.skI c.pkI s.prk4e3m [] [] s.th3 c.idCredI c.credI c.ead3 6
  let (c3, p3) ← ciphertextGen cfg C .c3 suite [] c.idCredI sm c.ead3 s.prk3e2m s.th3
    cfg.ciphertext3Size cap
  let m ← encodeBstr c3 msgCap
  pure (m, p3)

/-- initiator.c:230-237: TH_4 -/
def th4Of (cfg : ECfg) (C : ECrypto) (th3 p3 cred : Bytes) : R Bytes := th34Calc cfg C th3 p3 cred

/-- label PRK_out: inc/edhoc/hkdf_info.h:28 -/
def labelPrkOut : Nat := 7

/-- what `msg3_only_gen` leaves behind: the message array, TH_4, PRK_out (`none`: not written)
(src/edhoc/initiator.c:202-215, out parameters of `msg3_only_gen`) -/
structure M3Out where
  msg : Bytes
  th4 : Bytes
  prkOut : Option Bytes
  deriving DecidableEq, Repr

/-- initiator.c:202-238,254 `msg3_only_gen` and its call in `msg3_gen`, which ignores the returned
error: the effects up to the first error remain.  `msg2` is the message array before, `L` the length
of the caller's PRK_out buffer, TH_4 is zero before (`struct runtime_context rc = { 0 }`). -/
def msg3OnlyGen (cfg : ECfg) (C : ECrypto) (c : ICtx) (suite : Suite) (sI : Bool) (s : IState)
    (msg2 : Bytes) (L : Nat) : R M3Out :=
  match msg3Build cfg C c suite sI s msg2.length with
  | .ub => .ub
  | .err _ => .ok ⟨msg2, List.replicate 32 0, none⟩
  | .ok (m3, p3) =>
    match th4Of cfg C s.th3 p3 c.credI with
    | .ub => .ub
    | .err _ => .ok ⟨m3, List.replicate 32 0, none⟩
    | .ok th4 =>
      match edhocKdf cfg C s.prk4e3m labelPrkOut th4 L with
      | .ub => .ub
      | .err _ => .ok ⟨m3, th4, none⟩
      | .ok prk => .ok ⟨m3, th4, some prk⟩

/-- initiator.c:240-256 `msg3_gen` -/
def msg3Gen (cfg : ECfg) (C : ECrypto) (c : ICtx) (creds : List Cred) (suite : Suite)
    (msg1Hash msg2 crBuf ead : Bytes) (L : Nat) : R (IState × M3Out) := do
  let (sI, sR) := authType c.method (false, false)
  let s ← msg2Process cfg C c creds suite msg1Hash msg2 sI sR crBuf ead
  let o ← msg3OnlyGen cfg C c suite sI s msg2 L
  pure (s, o)

/-- what the responder has after message 3 (src/edhoc/responder.c:246-250, out parameters of `msg3_process`) -/
structure R3Out where
  ead : Bytes
  prk4e3m : Bytes
  th4 : Bytes
  prkOut : Bytes
  /-- the key written to `initiator_pk` if the caller's buffer is large enough -/
  pk : Bytes
  deriving DecidableEq, Repr

/-- responder.c:276-308: authentication of the initiator, TH_4, PRK_out -/
def msg3Auth (cfg : ECfg) (C : ECrypto) (c : RCtx) (creds : List Cred) (rs : RState) (s : Split)
    (ptxt : Bytes) (L : Nat) : R R3Out := do
  let (credI, pk, gI) ← retrieveCred cfg C rs.staticDhI creds s.idCred cfg.credISize
  let prk4e3m ← prkDerive cfg C rs.staticDhI rs.suite 5 rs.th3 rs.prk3e2m gI c.y
  sigOrMacVerify cfg C rs.staticDhI rs.suite pk prk4e3m [] [] rs.th3 s.idCred credI s.ead 6 s.sigOrMac
  let th4 ← th34Calc cfg C rs.th3 ptxt credI
  let prk ← edhocKdf cfg C prk4e3m labelPrkOut th4 L
  pure ⟨s.ead, prk4e3m, th4, prk, pk⟩

/-- responder.c:246-310 `msg3_process` (not _WIN32) -/
def msg3Process (cfg : ECfg) (C : ECrypto) (c : RCtx) (creds : List Cred) (rs : RState)
    (msg3 : Bytes) (L : Nat) : R R3Out := do
  checkBufferSize cfg.ciphertext3Size msg3.length
  let c3 ← decodeBstr cfg msg3 msg3.length
  checkBufferSize (cfg.plaintext3Size + rs.suite.aead.tagLen) c3.length
  let ptxt ← ctxtDecrypt cfg C .c3 rs.suite rs.prk3e2m rs.th3 c3
  let s ← plaintext3Split cfg ptxt cfg.idCredISize rs.ead.length
  msg3Auth cfg C c creds rs s ptxt L

/-! ### Message 4 -/

/-- responder.c:313-332 `msg4_gen`; `msgCap` is the length of `rc->msg` (the received message 3).
The ciphertext array has CIPHERTEXT4_SIZE bytes. -/
def msg4Gen (cfg : ECfg) (C : ECrypto) (ead4 : Bytes) (suite : Suite) (prk4e3m th4 : Bytes)
    (msgCap : Nat) : R Bytes := do
  let (c4, _) ← ciphertextGen cfg C .c4 suite [] [] [] ead4 prk4e3m th4 cfg.plaintext4Size
    cfg.plaintext4Size
  encodeBstr c4 msgCap

/-- ciphertext.c:153-159: EAD_4 from plaintext 4 -/
def ead4Of (cfg : ECfg) (ptxt : Bytes) (eadCap : Nat) : R Bytes :=
  if ptxt.length ≠ 0 then decodeBstr cfg ptxt eadCap else .ok []

/-- initiator.c:259-274 `msg4_process`: EAD_4 -/
def msg4Process (cfg : ECfg) (C : ECrypto) (suite : Suite) (prk4e3m th4 msg4 : Bytes)
    (eadCap : Nat) : R Bytes := do
  let c4 ← decodeBstr cfg msg4 cfg.plaintext4Size
  checkBufferSize (cfg.plaintext4Size + suite.aead.tagLen) c4.length
  let ptxt ← ctxtDecrypt cfg C .c4 suite prk4e3m th4 c4
  ead4Of cfg ptxt eadCap

/-! ### Exporter -/

/-- src/edhoc/edhoc_exporter.c:23-29 `prk_out2exporter` -/
def prkOut2exporter (cfg : ECfg) (C : ECrypto) (prkOut : Bytes) (L : Nat) : R Bytes :=
  edhocKdf cfg C prkOut 10 [] L
/-- src/edhoc/edhoc_exporter.c:31-37 `prk_out_update` -/
def prkOutUpdate (cfg : ECfg) (C : ECrypto) (prkOut context : Bytes) (L : Nat) : R Bytes :=
  edhocKdf cfg C prkOut 11 context L
/-- src/edhoc/edhoc_exporter.c:39-43 `edhoc_exporter` -/
def edhocExporter (cfg : ECfg) (C : ECrypto) (label : Nat) (prkExporter : Bytes) (L : Nat) :
    R Bytes :=
  edhocKdf cfg C prkExporter label [] L

end Verif.Edhoc
