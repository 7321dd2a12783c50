import Verif.Model.EdhocRun
import Verif.Model.Vla
/-
The EDHOC half of the library built with `#define VLA` (inc/common/byte_array.h:93-105): a local buffer is a variable length array of
exactly SIZE bytes, and a SIZE beyond the configured maximum gives `vla_insufficient_size` in place of `buffer_to_small`.  Every
function that declares such a buffer, or calls one that does, is here; the others are those of the default build.  Writes are
bounded by SIZE: where the default build has BUF_SIZE bytes (the ciphertexts, the plaintexts that are decrypted), leaving SIZE is
`ub` here.  Arrays of no elements are as in `Model/Vla.lean`.
-/
namespace Verif.Edhoc.VlaBuild
open Verif

/-- VLA build: src/edhoc/okm.c:22-35 `edhoc_kdf` -/
def edhocKdf (cfg : ECfg) (C : ECrypto) (prk : Bytes) (label : Nat) (context : Bytes) (L : Nat) :
    R Bytes := do
  Verif.Vla.byteArrayNew cfg.infoMaxSize (asBstr context.length + 4)
  let info ← createHkdfInfo label context L (asBstr context.length + 4)
  hkdfExpand { infoMax := cfg.infoMaxSize } C.toCrypto prk info L

/-- VLA build: src/edhoc/th.c:35-60,126-137 `th2_calculate` -/
def th2Calc (C : ECrypto) (msg1Hash gY : Bytes) : R Bytes := do
  Verif.Vla.byteArrayNew (asBstr 32 + asBstr 32) (asBstr gY.length + asBstr 32)
  let inp ← cborOut (asBstr gY.length + asBstr 32) .unexpected_result_from_ext_lib
    (cborBstr gY ++ cborBstr msg1Hash)
  pure (hash C inp)

/-- VLA build: src/edhoc/th.c:112-124 `th34_calculate` -/
def th34Calc (cfg : ECfg) (C : ECrypto) (th pt cred : Bytes) : R Bytes := do
  Verif.Vla.byteArrayNew cfg.th34InputSize (asBstr 32 + pt.length + cred.length)
  let inp ← th34Input th pt cred (asBstr 32 + pt.length + cred.length)
  pure (hash C inp)

/-- VLA build: src/edhoc/prk.c:25-47 `prk_derive` -/
def prkDerive (cfg : ECfg) (C : ECrypto) (staticDh : Bool) (suite : Suite) (label : Nat)
    (context prkIn statPk statSk : Bytes) : R Bytes :=
  if staticDh then do
    let dh ← sharedSecret C suite.ecdh statSk statPk
    let salt ← edhocKdf cfg C prkIn label context 32
    pure (hkdfExtract C.toCrypto salt dh)
  else pure prkIn

/-- VLA build: signature_or_mac_msg.c:64-72: `c_r` in the MAC context.  `mem` are the bytes behind `c_r` in
memory. -/
def macCr (cfg : ECfg) (cR mem : Bytes) : R Bytes :=
  if cR.length = 0 then pure []
  else do
    Verif.Vla.byteArrayNew (asBstr cfg.cRSize) (asBstr cR.length)
    if isRawInt cR then
      match cR, mem with
      | b0 :: _, b1 :: b2 :: b3 :: _ => encodeInt (leInt32 b0 b1 b2 b3) (asBstr cR.length)
      | _, _ => .ub
    else encodeBstr cR (asBstr cR.length)

/-- VLA build: signature_or_mac_msg.c:54-83, the MAC context -/
def macContext (cfg : ECfg) (cR mem th idCred cred ead : Bytes) : R Bytes := do
  Verif.Vla.byteArrayNew (asBstr 32) (asBstr th.length)
  let thEnc ← encodeBstr th (asBstr th.length)
  let cap := asBstr cR.length + idCred.length + cred.length + ead.length + thEnc.length
  Verif.Vla.byteArrayNew cfg.contextMacSize cap
  let c0 ← macCr cfg cR mem
  let c1 ← byteArrayAppend [] c0 cap
  let c2 ← byteArrayAppend c1 idCred cap
  let c3 ← byteArrayAppend c2 thEnc cap
  let c4 ← byteArrayAppend c3 cred cap
  byteArrayAppend c4 ead cap

/-- VLA build: signature_or_mac_msg.c:47-96 `mac` -/
def mac (cfg : ECfg) (C : ECrypto) (prk cR mem th idCred cred ead : Bytes) (label : Nat)
    (staticDh : Bool) (suite : Suite) : R Bytes := do
  let ctx ← macContext cfg cR mem th idCred cred ead
  edhocKdf cfg C prk label ctx (macLen staticDh suite)

/-- VLA build: signature_or_mac_msg.c:109-138 `signature_struct_gen`, edhoc_cose.c:66-90
`cose_sig_structure_encode` -/
def sigStruct (cfg : ECfg) (th idCred cred ead mac : Bytes) : R Bytes := do
  Verif.Vla.byteArrayNew cfg.sigStructSize (sigStructCap th idCred cred ead mac)
  let thEnc ← encodeBstr th (asBstr 32)
  Verif.Vla.byteArrayNew (cfg.credMaxSize + asBstr 32 + cfg.eadSize)
    (thEnc.length + cred.length + ead.length)
  cborOut (sigStructCap th idCred cred ead mac) .unexpected_result_from_ext_lib
    (cborArr 4 ++ cborTstr strSignature1 ++ cborBstr idCred ++
      cborBstr (thEnc ++ cred ++ ead) ++ cborBstr mac)

/-- VLA build: signature_or_mac_msg.c:148-178 `signature_or_mac(GENERATE, ...)` -/
def sigOrMacGen (cfg : ECfg) (C : ECrypto) (staticDh : Bool) (suite : Suite)
    (sk pk prk cR mem th idCred cred ead : Bytes) (label : Nat) : R Bytes := do
  let m ← mac cfg C prk cR mem th idCred cred ead label staticDh suite
  if staticDh then pure m
  else do
    let s ← sigStruct cfg th idCred cred ead m
    signMsg C suite.sign sk pk s

/-- VLA build: signature_or_mac_msg.c:179-225 `signature_or_mac(VERIFY, ...)` -/
def sigOrMacVerify (cfg : ECfg) (C : ECrypto) (staticDh : Bool) (suite : Suite)
    (pk prk cR mem th idCred cred ead : Bytes) (label : Nat) (received : Bytes) : R Unit := do
  let m ← mac cfg C prk cR mem th idCred cred ead label staticDh suite
  if staticDh then macCompare m received
  else do
    let s ← sigStruct cfg th idCred cred ead m
    let ok ← verifySig C suite.sign pk s received
    if ok then pure () else .err .signature_authentication_failed

/-- VLA build: ciphertext.c:89-118 `key_gen`, with the array sizes of the callers (ciphertext.c:128-136,
230-238): key and IV (no IV for ciphertext 2, whose key stream has the length `len`) -/
def keyGen (cfg : ECfg) (C : ECrypto) (ct : Ctxt) (prk th : Bytes) (len : Nat) :
    R (Bytes × Bytes) :=
  if ct = .c2 then do
    Verif.Vla.byteArrayNew cfg.plaintext2Size len
    let k ← edhocKdf cfg C prk (keyLabel .c2) th len
    pure (k, [])
  else do
    let k ← edhocKdf cfg C prk (keyLabel ct) th 16
    let iv ← edhocKdf cfg C prk (ivLabel ct) th 13
    pure (k, iv)

/-- VLA build: ciphertext.c:191-202: C_R in plaintext 2 -/
def crField (cfg : ECfg) (cR : Bytes) : R Bytes :=
  if isEncodedInt cR then pure cR
  else do
    Verif.Vla.byteArrayNew (asBstr cfg.cISize) (asBstr cR.length)
    encodeBstr cR (asBstr cR.length)

/-- VLA build: ciphertext.c:183-226: the plaintext, in a buffer of `cap` bytes.  Written per kind of message. -/
def plaintextGen (cfg : ECfg) (ct : Ctxt) (cR idCred sigOrMac ead : Bytes) (cap : Nat) :
    R Bytes := do
  Verif.Vla.byteArrayNew (asBstr sigOrMacSize) (asBstr sigOrMac.length)
  let sm ← encodeBstr sigOrMac (asBstr sigOrMac.length)
  match ct with
  | .c2 => do
    let c ← crField cfg cR
    let p1 ← byteArrayAppend [] c cap
    let id ← idField cfg idCred
    let p2 ← byteArrayAppend p1 id cap
    let p3 ← byteArrayAppend p2 sm cap
    byteArrayAppend p3 ead cap
  | .c3 => do
    let id ← idField cfg idCred
    let p2 ← byteArrayAppend [] id cap
    let p3 ← byteArrayAppend p2 sm cap
    byteArrayAppend p3 ead cap
  | .c4 => byteArrayAppend [] ead cap

/-- VLA build: ciphertext.c:184-271 `ciphertext_gen`: (ciphertext, plaintext) -/
def ciphertextGen (cfg : ECfg) (C : ECrypto) (ct : Ctxt) (suite : Suite)
    (cR idCred sigOrMac ead prk th : Bytes) (bufSize cap : Nat) : R (Bytes × Bytes) := do
  let ptxt ← plaintextGen cfg ct cR idCred sigOrMac ead cap
  let (key, iv) ← keyGen cfg C ct prk th ptxt.length
  let c ← ctxtEncrypt C ct suite key iv th ptxt bufSize
  pure (c, ptxt)

/-- VLA build: ciphertext.c:120-151: the plaintext.  `ptxtSize` is the size of the plaintext array: leaving it is `ub`; associated data is computed for ciphertext 2 too. -/
def ctxtDecrypt (cfg : ECfg) (C : ECrypto) (ct : Ctxt) (suite : Suite) (prk th ctxt : Bytes) (ptxtSize : Nat) :
    R Bytes := do
  let (key, iv) ← keyGen cfg C ct prk th ctxt.length
  let aad ← assocData th
  if ct = .c2 then (if ctxt.length > ptxtSize then .ub else pure (xorBytes ctxt key))
  else if ctxt.length < suite.aead.tagLen then .err .error_message_received
  else match C.aeadDec key iv aad suite.aead.tagLen ctxt with
    | some p => if p.length > ptxtSize then .ub else pure p
    | none => .err .unexpected_result_from_ext_lib

/-- VLA build: responder.c:152-168 `msg2_encode` -/
def msg2Encode (cfg : ECfg) (gY ctxt2 : Bytes) : R Bytes := do
  Verif.Vla.byteArrayNew cfg.gYCiphertext2 (gY.length + ctxt2.length)
  encodeBstr (gY ++ ctxt2) cfg.msgMaxSize

/-- VLA build: responder.c:212-228: Signature_or_MAC_2 and ciphertext 2.  (ciphertext_2, plaintext_2) -/
def ctxt2Gen (cfg : ECfg) (C : ECrypto) (c : RCtx) (suite : Suite) (staticDhR : Bool)
    (prk2e prk3e2m th2 : Bytes) : R (Bytes × Bytes) := do
  let sm ← sigOrMacGen cfg C staticDhR suite c.skR c.pkR prk3e2m c.cR c.cRMem th2 c.idCredR c.credR
    c.ead2 2
  let cap := asBstr c.cR.length + c.idCredR.length + asBstr sm.length + c.ead2.length
  Verif.Vla.byteArrayNew cfg.plaintext2Size cap
  ciphertextGen cfg C .c2 suite c.cR c.idCredR sm c.ead2 prk2e th2 cap cap

/-- VLA build: responder.c:189-244: message 2 from the parsed message 1 -/
def msg2Build (cfg : ECfg) (C : ECrypto) (c : RCtx) (msg1 : Bytes) (p : Parsed1) :
    R (Bytes × RState) := do
  let suite ← getSuite (p.suites.getLastD 0).toNat
  let (sI, sR) := authType p.method (false, false)
  let th2 ← th2Calc C (hash C msg1) c.gY
  let gxy ← sharedSecret C suite.ecdh c.y p.gX
  let prk2e := hkdfExtract C.toCrypto th2 gxy
  let prk3e2m ← prkDerive cfg C sR suite 1 th2 prk2e p.gX c.r
  let (c2, p2) ← ctxt2Gen cfg C c suite sR prk2e prk3e2m th2
  let msg2 ← msg2Encode cfg c.gY c2
  let th3 ← th34Calc cfg C th2 p2 c.credR
  pure (msg2, ⟨suite, sI, p.ead, prk3e2m, th3, p.cI⟩)

/-- VLA build: responder.c:170-244 `msg2_gen`: (message_2, state).  `cICap` is the size of the caller's C_I
buffer, `ead` the EAD array before. -/
def msg2Gen (cfg : ECfg) (C : ECrypto) (c : RCtx) (msg1 : Bytes) (cICap : Nat) (ead : Bytes) :
    R (Bytes × RState) := do
  let p ← msg1Parse cfg msg1 cICap ead
  if suiteSupported (p.suites.getLastD 0) c.suitesR = false then .err .error_message_sent
  else msg2Build cfg C c msg1 p

/-- VLA build: initiator.c:176-197: authentication of the responder, TH_3, PRK_4e3m.  `mem`: the memory behind
C_R in the caller's buffer. -/
def msg2Auth (cfg : ECfg) (C : ECrypto) (c : ICtx) (creds : List Cred) (suite : Suite)
    (sI sR : Bool) (gY th2 prk2e cR mem : Bytes) (s : Split) (ptxt : Bytes) : R IState := do
  let (credR, pk, gR) ← retrieveCred cfg C sR creds s.idCred cfg.credRSize
  let prk3e2m ← prkDerive cfg C sR suite 1 th2 prk2e gR c.x
  sigOrMacVerify cfg C sR suite pk prk3e2m cR mem th2 s.idCred credR s.ead 2 s.sigOrMac
  let th3 ← th34Calc cfg C th2 ptxt credR
  let prk4e3m ← prkDerive cfg C sI suite 5 th3 prk3e2m gY c.i
  pure ⟨cR, s.ead, th3, prk3e2m, prk4e3m⟩

/-- VLA build: initiator.c:129-200 `msg2_process`.  `crBuf`: the caller's C_R buffer before (its length is the
capacity), `ead`: the EAD array before. -/
def msg2Process (cfg : ECfg) (C : ECrypto) (c : ICtx) (creds : List Cred) (suite : Suite)
    (msg1Hash msg2 : Bytes) (sI sR : Bool) (crBuf ead : Bytes) : R IState := do
  Verif.Vla.byteArrayNew cfg.plaintext2Size (ctxt2Len msg2.length)
  let (gY, c2) ← msg2Parse cfg msg2 (ctxt2Len msg2.length)
  let gxy ← sharedSecret C suite.ecdh c.x gY
  let th2 ← th2Calc C msg1Hash gY
  let prk2e := hkdfExtract C.toCrypto th2 gxy
  let ptxt ← ctxtDecrypt cfg C .c2 suite prk2e th2 c2 (ctxt2Len msg2.length)
  let (cR, s) ← plaintext2Split cfg ptxt crBuf.length cfg.idCredRSize ead.length
  msg2Auth cfg C c creds suite sI sR gY th2 prk2e cR (crBuf.drop cR.length) s ptxt

/-- VLA build: initiator.c:202-228, up to the encoding: (message_3, plaintext_3).  `msgCap` is the length of
`rc->msg`, which is the length of the received message 2. -/
def msg3Build (cfg : ECfg) (C : ECrypto) (c : ICtx) (suite : Suite) (sI : Bool) (s : IState)
    (msgCap : Nat) : R (Bytes × Bytes) := do
  let cap := c.idCredI.length + asBstr sigOrMacSize + c.ead3.length
  Verif.Vla.byteArrayNew cfg.plaintext3Size cap
  Verif.Vla.byteArrayNew cfg.ciphertext3Size (asBstr cap + suite.aead.tagLen)
  let sm ← sigOrMacGen cfg C sI suite c.skI c.pkI s.prk4e3m [] [] s.th3 c.idCredI c.credI c.ead3 6
  let (c3, p3) ← ciphertextGen cfg C .c3 suite [] c.idCredI sm c.ead3 s.prk3e2m s.th3
    (asBstr cap + suite.aead.tagLen) cap
  let m ← encodeBstr c3 msgCap
  pure (m, p3)

/-- VLA build: initiator.c:202-238,254 `msg3_only_gen` and its call in `msg3_gen`, which ignores the returned
error: the effects up to the first error remain.  `msg2` is the message array before, `L` the length
of the caller's PRK_out buffer, TH_4 is zero before (`struct runtime_context rc = { 0 }`). -/
def msg3OnlyGen (cfg : ECfg) (C : ECrypto) (c : ICtx) (suite : Suite) (sI : Bool) (s : IState)
    (msg2 : Bytes) (L : Nat) : R M3Out :=
  match msg3Build cfg C c suite sI s msg2.length with
  | .ub => .ub
  | .err _ => .ok ⟨msg2, List.replicate 32 0, none⟩
  | .ok (m3, p3) =>
    match th34Calc cfg C s.th3 p3 c.credI with
    | .ub => .ub
    | .err _ => .ok ⟨m3, List.replicate 32 0, none⟩
    | .ok th4 =>
      match edhocKdf cfg C s.prk4e3m labelPrkOut th4 L with
      | .ub => .ub
      | .err _ => .ok ⟨m3, th4, none⟩
      | .ok prk => .ok ⟨m3, th4, some prk⟩

/-- VLA build: initiator.c:240-256 `msg3_gen` -/
def msg3Gen (cfg : ECfg) (C : ECrypto) (c : ICtx) (creds : List Cred) (suite : Suite)
    (msg1Hash msg2 crBuf ead : Bytes) (L : Nat) : R (IState × M3Out) := do
  let (sI, sR) := authType c.method (false, false)
  let s ← msg2Process cfg C c creds suite msg1Hash msg2 sI sR crBuf ead
  let o ← msg3OnlyGen cfg C c suite sI s msg2 L
  pure (s, o)

/-- VLA build: responder.c:276-308: authentication of the initiator, TH_4, PRK_out -/
def msg3Auth (cfg : ECfg) (C : ECrypto) (c : RCtx) (creds : List Cred) (rs : RState) (s : Split)
    (ptxt : Bytes) (L : Nat) : R R3Out := do
  let (credI, pk, gI) ← retrieveCred cfg C rs.staticDhI creds s.idCred cfg.credISize
  let prk4e3m ← prkDerive cfg C rs.staticDhI rs.suite 5 rs.th3 rs.prk3e2m gI c.y
  sigOrMacVerify cfg C rs.staticDhI rs.suite pk prk4e3m [] [] rs.th3 s.idCred credI s.ead 6 s.sigOrMac
  let th4 ← th34Calc cfg C rs.th3 ptxt credI
  let prk ← edhocKdf cfg C prk4e3m labelPrkOut th4 L
  pure ⟨s.ead, prk4e3m, th4, prk, pk⟩

/-- VLA build: responder.c:246-310 `msg3_process` (not _WIN32) -/
def msg3Process (cfg : ECfg) (C : ECrypto) (c : RCtx) (creds : List Cred) (rs : RState)
    (msg3 : Bytes) (L : Nat) : R R3Out := do
  Verif.Vla.byteArrayNew cfg.ciphertext3Size msg3.length
  let c3 ← decodeBstr cfg msg3 msg3.length
  Verif.Vla.byteArrayNew (cfg.plaintext3Size + rs.suite.aead.tagLen) c3.length
  let ptxt ← ctxtDecrypt cfg C .c3 rs.suite rs.prk3e2m rs.th3 c3 c3.length
  let s ← plaintext3Split cfg ptxt cfg.idCredISize rs.ead.length
  msg3Auth cfg C c creds rs s ptxt L

/-- VLA build: responder.c:313-332 `msg4_gen`; `msgCap` is the length of `rc->msg` (the received message 3).
The ciphertext array has CIPHERTEXT4_SIZE bytes. -/
def msg4Gen (cfg : ECfg) (C : ECrypto) (ead4 : Bytes) (suite : Suite) (prk4e3m th4 : Bytes)
    (msgCap : Nat) : R Bytes := do
  let (c4, _) ← ciphertextGen cfg C .c4 suite [] [] [] ead4 prk4e3m th4 cfg.plaintext4Size
    cfg.plaintext4Size
  encodeBstr c4 msgCap

/-- VLA build: initiator.c:259-274 `msg4_process`: EAD_4 -/
def msg4Process (cfg : ECfg) (C : ECrypto) (suite : Suite) (prk4e3m th4 msg4 : Bytes)
    (eadCap : Nat) : R Bytes := do
  let c4 ← decodeBstr cfg msg4 cfg.plaintext4Size
  Verif.Vla.byteArrayNew (cfg.plaintext4Size + suite.aead.tagLen) c4.length
  let ptxt ← ctxtDecrypt cfg C .c4 suite prk4e3m th4 c4 c4.length
  ead4Of cfg ptxt eadCap

/-- VLA build: src/edhoc/edhoc_exporter.c:23-29 `prk_out2exporter` -/
def prkOut2exporter (cfg : ECfg) (C : ECrypto) (prkOut : Bytes) (L : Nat) : R Bytes :=
  edhocKdf cfg C prkOut 10 [] L

/-- VLA build: src/edhoc/edhoc_exporter.c:31-37 `prk_out_update` -/
def prkOutUpdate (cfg : ECfg) (C : ECrypto) (prkOut context : Bytes) (L : Nat) : R Bytes :=
  edhocKdf cfg C prkOut 11 context L

/-- VLA build: src/edhoc/edhoc_exporter.c:39-43 `edhoc_exporter` -/
def edhocExporter (cfg : ECfg) (C : ECrypto) (label : Nat) (prkExporter : Bytes) (L : Nat) :
    R Bytes :=
  edhocKdf cfg C prkExporter label [] L

/-- VLA build: initiator.c:300-308, MESSAGE_4: receive and process message 4 -/
def initiatorMsg4 (cfg : ECfg) (C : ECrypto) (suite : Suite) (s : IState) (o : M3Out) : M Net Unit :=
  do
  let m4 ← netRx cfg.msgMaxSize
  let ead4 ← M.lift (msg4Process cfg C suite s.prk4e3m o.th4 m4 s.ead.length)
  netEad ead4

/-- VLA build: initiator.c:277-311 `edhoc_initiator_run_extended`.  `crBuf`: contents of the caller's C_R buffer
(its length is the capacity), `L`: length of the caller's PRK_out buffer.  `edhoc_initiator_run`
(initiator.c:313-325) is this function with an uninitialised C_R buffer of C_R_SIZE bytes. -/
def initiatorRun (cfg : ECfg) (C : ECrypto) (c : ICtx) (creds : List Cred) (crBuf : Bytes) (L : Nat) :
    M Net IOut := do
  let (m1, suite, h1) ← M.lift (msg1Gen cfg C c)
  netTx m1
  let m2 ← netRx cfg.msgMaxSize
  let (s, o) ← M.lift (msg3Gen cfg C c creds suite h1 m2 crBuf (List.replicate cfg.eadSize 0) L)
  netEad s.ead
  netTx o.msg
  if cfg.message4 then do
    initiatorMsg4 cfg C suite s o
    pure ⟨s.cR, o.prkOut, o.th4, s.prk4e3m⟩
  else pure ⟨s.cR, o.prkOut, o.th4, s.prk4e3m⟩

/-- VLA build: responder.c:360-364, MESSAGE_4: create and send message 4 -/
def responderMsg4 (cfg : ECfg) (C : ECrypto) (c : RCtx) (rs : RState) (o : R3Out) (m3 : Bytes) :
    M Net Unit := do
  let m4 ← M.lift (msg4Gen cfg C c.ead4 rs.suite o.prk4e3m o.th4 m3.length)
  netTx m4

/-- VLA build: responder.c:334-367 `edhoc_responder_run_extended`; `cICap`: size of the caller's C_I buffer, `L`:
length of the caller's PRK_out buffer -/
def responderRun (cfg : ECfg) (C : ECrypto) (c : RCtx) (creds : List Cred) (cICap L : Nat) :
    M Net ROut := do
  let m1 ← netRx cfg.msgMaxSize
  let (m2, rs) ← M.lift (msg2Gen cfg C c m1 cICap (List.replicate cfg.eadSize 0))
  netEad rs.ead
  netTx m2
  let m3 ← netRx cfg.msgMaxSize
  let o ← M.lift (msg3Process cfg C c creds rs m3 L)
  netEad o.ead
  if cfg.message4 then do
    responderMsg4 cfg C c rs o m3
    pure ⟨rs.cI, o.prkOut, o.pk, o.th4, o.prk4e3m⟩
  else pure ⟨rs.cI, o.prkOut, o.pk, o.th4, o.prk4e3m⟩

end Verif.Edhoc.VlaBuild
