import Verif.Model.Unprotect
/-
The OSCORE half of the library built with `#define VLA` (inc/common/byte_array.h:93-105): a local buffer is a variable
length array of exactly SIZE bytes, and a SIZE beyond the configured maximum gives `vla_insufficient_size` in place of
`buffer_to_small`.  Only the functions in which SIZE differs from BUF_SIZE change (coap2oscore.c:642, 648;
oscore2coap.c:357; oscore_coap.c:305; oscore_cose.c:69, 93) and the functions that call them; everything else is the model
of the default build.

Not modelled: a SIZE of 0 declares an array of no elements (inc/common/byte_array.h:99), which ISO C leaves undefined and
the compilers the project supports (GCC, Clang) define; the buffer is then unused (`NULL_ARRAY`, lines 100-101).
-/
namespace Verif.Vla

/-- inc/common/byte_array.h:94-97: the size test of `BYTE_ARRAY_NEW` -/
def byteArrayNew (bufSize size : Nat) : R Unit :=
  if bufSize < size then .err .vla_insufficient_size else .ok ()

/-- coap2oscore.c:201-244 `plaintext_setup`, with exactly `plen` bytes behind `plaintext->ptr` (line 642): the marker
(233) is written without a test, and `dest_size` (238) is a 32-bit difference that can wrap: `ub` when one of the two
leaves the array.  Announced bytes that are never written are indeterminate: `ub`. -/
def plaintextSetup (cfg : Cfg) (p : Pkt) (e : List Opt) (plen : Nat) : R Bytes := do
  let ser ← optionsSerialize e cfg.eOptBuf
  let ser ← memcpyS (plen - 1) ser
  if p.payload.length = 0 then
    if plen > 1 + ser.length then .ub else pure (p.code :: ser)
  else if 1 + ser.length ≥ plen then .ub
  else do
    let pl ← memcpyS (sub32 plen (1 + ser.length + 1)) p.payload
    let content := p.code :: ser ++ [0xFF] ++ pl
    if content.length > plen then .ub
    else if plen > content.length then .ub
    else pure content

/-- oscore_cose.c:34-60 `create_enc_structure` with the buffer of its callers (68-70, 92-94) -/
def encStructure (aad : Bytes) : R Bytes := do
  byteArrayNew 30 (aad.length + 16)
  cborOut (aad.length + 16) .unexpected_result_from_ext_lib
    (cborArr 3 ++ cborTstr strEncrypt0 ++ cborBstr [] ++ cborBstr aad)

/-- oscore_cose.c:62-84 `oscore_cose_decrypt` -/
def coseDecrypt (C : Crypto) (ct nonce aad key : Bytes) : R Bytes := do
  let a ← encStructure aad
  ofLib (C.aeadDec key nonce a tagLen ct)

/-- oscore_cose.c:85-112 `oscore_cose_encrypt` -/
def coseEncrypt (C : Crypto) (pt nonce aad key : Bytes) : R Bytes := do
  let a ← encStructure aad
  ofLib (C.aeadEnc key nonce a tagLen pt)

/-- oscore_coap.c:273-338 `coap_serialize`: the options are serialised in an array of `optBytesLen` bytes (305) -/
def coapSerialize (cfg : Cfg) (p : Pkt) (cap : Nat) : R Bytes :=
  if cap < 4 then .ub
  else do
    let tok ← memcpyS (cap - 4) p.token
    byteArrayNew cfg.maxCoapOptions (optBytesLen p.opts)
    let ob ← optionsSerialize p.opts (optBytesLen p.opts)
    let ob ← memcpyS (cap - (4 + tok.length)) ob
    if p.payload.length = 0 then
      pure (coapHeaderBytes p ++ tok ++ ob)
    else if 4 + tok.length + ob.length ≥ cap then .ub
    else do
      let pl ← memcpyS (cap - (4 + tok.length + ob.length + 1)) p.payload
      pure (coapHeaderBytes p ++ tok ++ ob ++ [0xFF] ++ pl)

/-- coap2oscore.c:506-575 `encrypt_wrapper` -/
def encryptWrapper (cfg : Cfg) (C : Crypto) (nvmW : Option Err) (pt : Bytes) (p : Pkt) :
    M World (Bytes × Bytes) := do
  let w ← M.get
  let ty := msgType p
  let new := needsNewPiv ty w.ctx.echo
  let (piv, kid, kctx, nonce) ← pickNonce cfg nvmW new
  let opt ← M.lift (oscoreOptionGenerate piv kid kctx)
  let (rp, rk) ← M.lift (readWrapper w.ctx.inter ty p.token (.ok (piv, kid)))
  let aad ← M.lift (createAad rk rp)
  let ct ← M.lift (coseEncrypt C pt nonce aad w.ctx.senderKey)
  M.modify (fun v => { v with
    log := { key := w.ctx.senderKey, nonce, aad, pt,
             newSsn := if new then some w.ctx.ssn else none } :: v.log })
  if new then M.modify (fun v => { v with ctx := { v.ctx with nonce := nonce } }) else pure ()
  let uri ← M.lift (uriPathCreate p.opts cfg.uriMax)
  let t ← M.lift (updateWrapper cfg w.ctx.inter ty p.token uri rp rk)
  M.modify (fun v => { v with ctx := { v.ctx with inter := t } })
  pure (ct, opt)

/-- coap2oscore.c:613-669: everything after the empty-ACK test.  The array for the ciphertext (648) has 8 bytes more than
the plaintext and a maximum 8 bytes larger (inc/oscore.h:50), so its test never fails after the one for the plaintext. -/
def protectPkt (cfg : Cfg) (C : Crypto) (nvmW : Option Err) (p : Pkt) (cap : Nat) : M World Bytes := do
  let s ← M.lift (optionSplit p)
  M.lift (byteArrayNew cfg.maxPlaintext (plaintextLen p s.eLen))
  let pt ← M.lift (plaintextSetup cfg p s.e (plaintextLen p s.eLen))
  M.lift (byteArrayNew (cfg.maxPlaintext + 8) (plaintextLen p s.eLen + 8))
  cacheEcho s.e
  let (ct, opt) ← encryptWrapper cfg C nvmW pt p
  M.lift (coapSerialize cfg (oscorePkgGenerate p s.u ct opt) cap)

/-- coap2oscore.c:590-669 `coap2oscore` -/
def coap2oscore (cfg : Cfg) (C : Crypto) (nvmW : Option Err) (inp : Bytes) (cap : Nat) : M World Bytes := do
  let w ← M.get
  M.lift (checkFreshness w.ctx)
  let p ← M.lift (coapDeserialize inp)
  if p.type = 2 ∧ p.code = 0 then
    M.lift (if cap < inp.length then .ub else .ok inp)
  else protectPkt cfg C nvmW p cap

/-- oscore2coap.c:253-325 `decrypt_wrapper` -/
def decryptWrapper (cfg : Cfg) (C : Crypto) (opt : Option OscOpt) (p : Pkt) : M Ctx (Pkt × Bytes) := do
  let c ← M.get
  let (rp, rk) ← M.lift (readWrapper c.inter (msgType p) p.token (decPivKid opt))
  let nonce ← M.lift (decNonce c opt)
  let aad ← M.lift (createAad rk rp)
  let pt ← M.lift (coseDecrypt C p.payload nonce aad c.recipientKey)
  if opt.isSome then M.modify (fun c => { c with nonce := nonce }) else pure ()
  let out ← M.lift (oCoapPkgGenerate pt p)
  let uri ← M.lift (uriPathCreate out.opts cfg.uriMax)
  let t ← M.lift (updateWrapper cfg c.inter (msgType out) p.token uri rp rk)
  M.modify (fun c => { c with inter := t })
  pure (out, pt)

/-- oscore2coap.c:367-423: incoming request -/
def unprotectRequest (cfg : Cfg) (C : Crypto) (o : OscOpt) (p : Pkt) : M Ctx Pkt := do
  let c ← M.get
  let m ← M.lift (kidMatches c o)
  if m = false then M.fail .oscore_kid_recipient_id_mismatch
  else do
    M.lift (checkReplay c o)
    let (out, pt) ← decryptWrapper cfg C (some o) p
    afterRequest o pt
    pure out

/-- oscore2coap.c:424-466: incoming response -/
def unprotectResponse (cfg : Cfg) (C : Crypto) (o : OscOpt) (p : Pkt) : M Ctx Pkt := do
  let c ← M.get
  if isObserve p.opts then
    if o.piv.len ≠ 0 then do
      let piv ← M.lift o.piv.read
      M.lift (checkNotification c piv)
      let (out, _) ← decryptWrapper cfg C (some o) p
      notificationUpdate piv
      pure out
    else M.fail .not_supported_feature
  else do
    let (out, _) ← decryptWrapper cfg C (if o.piv.len ≠ 0 then some o else none) p
    pure out

/-- oscore2coap.c:327-471 `oscore2coap`: the plaintext array (357) has exactly as many bytes as the AEAD writes (the
ciphertext without its 8-byte tag) -/
def oscore2coap (cfg : Cfg) (C : Crypto) (inp : Bytes) (cap : Nat) : M Ctx Bytes := do
  let c ← M.get
  M.lift (checkFreshness c)
  let (p, t) ← M.lift (coapParse inp)
  let o ← M.lift (oscoreOptionParser t)
  M.lift (byteArrayNew cfg.maxPlaintext (sub32 p.payload.length 8))
  let out ← if isRequest p then unprotectRequest cfg C o p else unprotectResponse cfg C o p
  M.lift (coapSerialize cfg out cap)

/-- run one call (inc/oscore.h:98-134) -/
def step (cfg : Cfg) (C : Crypto) (w : World) : Op → R Bytes × World
  | .protect inp cap nvmW => coap2oscore cfg C nvmW inp cap w
  | .unprotect inp cap =>
    let r := oscore2coap cfg C inp cap w.ctx
    (r.1, { w with ctx := r.2 })

/-- run a history, ignoring results (inc/oscore.h:98-134) -/
def run (cfg : Cfg) (C : Crypto) (w : World) (h : List Op) : World :=
  h.foldl (fun w op => (step cfg C w op).2) w

end Verif.Vla
