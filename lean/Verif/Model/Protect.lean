import Verif.Model.Context
import Verif.Model.Option
/-
src/oscore/coap2oscore.c
-/
namespace Verif

/-- One call of the AEAD encryption (a log kept for stating properties; not in the C code). Src/oscore/oscore_cose.c:85-112. -/
structure EncCall where
  key : Bytes
  nonce : Bytes
  aad : Bytes
  pt : Bytes
  /-- the sequence number taken for this message, if it has its own PIV -/
  newSsn : Option Nat
  deriving DecidableEq, Repr, Inhabited

/-- The world of one device: security context, the SSN stored in NVM by the user's
`nvm_write_ssn`, and the log of AEAD encryptions. Inc/oscore/security_context.h:95-100, src/oscore/nvm.c:20-35. -/
structure World where
  ctx : Ctx
  nvm : Nat
  log : List EncCall
  deriving DecidableEq, Repr

/-- Result of `inner_outer_option_split`. Out parameters of src/oscore/coap2oscore.c:43-190. -/
structure Split where
  e : List Opt
  u : List Opt
  eLen : Nat

/-- coap2oscore.c:65-187, the loop of `inner_outer_option_split`; `nr`, `eSum`, `uSum`, `eLen` are
16-bit accumulators. -/
def splitGo (req : Bool) : (nr eSum uSum eLen : Nat) → List Opt → Split
  | _, _, _, eLen, [] => { e := [], u := [], eLen }
  | nr, eSum, uSum, eLen, o :: os =>
    let extra := optExtraBytes o.delta + optExtraBytes o.len
    let nr' := (nr + o.delta) % 65536
    let dE := (nr' + 65536 - eSum) % 65536
    let dU := (nr' + 65536 - uSum) % 65536
    if nr' = optOBSERVE then
      let eOpt : Opt := { delta := dE, value := if req then o.value else [], num := nr' }
      let uOpt : Opt := { delta := dU, value := o.value, num := nr' }
      let eLen' := if req then (eLen + 1 + extra + o.len) % 65536 else (eLen + 1) % 65536
      let s := splitGo req nr' ((eSum + dE) % 65536) ((uSum + dU) % 65536) eLen' os
      { s with e := eOpt :: s.e, u := uOpt :: s.u }
    else if isClassE nr' then
      let eOpt : Opt := { delta := dE, value := o.value, num := nr' }
      let s := splitGo req nr' ((eSum + dE) % 65536) uSum ((eLen + 1 + extra + o.len) % 65536) os
      { s with e := eOpt :: s.e }
    else
      let uOpt : Opt := { delta := dU, value := o.value, num := nr' }
      let s := splitGo req nr' eSum ((uSum + dU) % 65536) eLen os
      { s with u := uOpt :: s.u }

/-- coap2oscore.c:43-190 `inner_outer_option_split` -/
def optionSplit (p : Pkt) : R Split :=
  if maxOptionCount < p.opts.length then .err .too_many_options
  else .ok (splitGo (isRequest p) 0 0 0 0 p.opts)

/-- coap2oscore.c:621-630: announced plaintext length -/
def plaintextLen (p : Pkt) (eLen : Nat) : Nat :=
  1 + eLen + (if p.payload.length = 0 then 0 else 1 + p.payload.length)

/-- coap2oscore.c:201-244 `plaintext_setup`; `plen` is `plaintext->len`, the memory behind it has
`cfg.maxPlaintext` bytes.  `dest_size` (238-239) is a 32-bit difference that can wrap when the
options used up the announced length.  Bytes announced but never written are indeterminate: `ub`. -/
def plaintextSetup (cfg : Cfg) (p : Pkt) (e : List Opt) (plen : Nat) : R Bytes := do
  let ser ← optionsSerialize e cfg.eOptBuf
  let ser ← memcpyS (plen - 1) ser
  if p.payload.length = 0 then
    if plen > 1 + ser.length then .ub else pure (p.code :: ser)
  else if 1 + ser.length ≥ cfg.maxPlaintext then .ub
  else do
    let pl ← memcpyS (sub32 plen (1 + ser.length + 1)) p.payload
    let content := p.code :: ser ++ [0xFF] ++ pl
    if content.length > cfg.maxPlaintext then .ub
    else if plen > content.length then .ub
    else pure (content.take plen)

/-- coap2oscore.c:253-267 `get_oscore_opt_val_len` -/
def oscoreOptValLen (piv kid kctx : Nat) : Nat :=
  let l := piv + kid + kctx
  (if l ≠ 0 then l + 1 else l) + (if kctx ≠ 0 then 1 else 0)

/-- coap2oscore.c:279-351 `oscore_option_generate`: the option value.  Simplification: the length is
cast to 8 bits (line 289); sums of 256 and more do not occur because `oscore_context_init` rejects
IDs and contexts that do not fit a 50-byte buffer (theorem `init_id_lengths`). -/
def oscoreOptionGenerate (piv kid kctx : Bytes) : R Bytes := do
  checkBufferSize 23 (oscoreOptValLen piv.length kid.length kctx.length)
  if oscoreOptValLen piv.length kid.length kctx.length = 0 then pure []
  else pure (byte (piv.length + (if kctx.length = 0 then 0 else 16) + 8) ::
    (piv ++ (if kctx.length = 0 then [] else byte kctx.length :: kctx) ++ kid))

/-- coap2oscore.c:412-439: outer options get new deltas; `sum` is an 8-bit accumulator -/
def outerDeltas : Nat → List Opt → List Opt
  | _, [] => []
  | sum, o :: os =>
    let d := (o.num + 65536 - sum) % 65536
    { o with delta := d } :: outerDeltas ((sum + d) % 256) os

/-- coap2oscore.c:364-445 `oscore_pkg_generate`; codes: inc/oscore/oscore_coap_defines.h
(POST 0.02, FETCH 0.05, CHANGED 2.04, CONTENT 2.05). -/
def oscorePkgGenerate (p : Pkt) (u : List Opt) (ct optVal : Bytes) : Pkt :=
  let observe := isObserve u
  { p with
    code := if isRequest p then (if observe then 0x05 else 0x02) else (if observe then 0x45 else 0x44)
    opts := outerDeltas 0 (u.takeWhile (fun o => o.num ≤ optOSCORE) ++
      [{ delta := 0, value := optVal, num := optOSCORE }] ++
      u.dropWhile (fun o => o.num ≤ optOSCORE))
    payload := ct }

/-- coap2oscore.c:453-474 `generate_new_ssn` and nvm.c:37-49 `ssn_store_in_nvm`.  `nvmW` is the
result of the user's `nvm_write_ssn` (`none` = ok), if it is called. -/
def generateNewSsn (cfg : Cfg) (nvmW : Option Err) : M World Unit := fun w =>
  let ssn := w.ctx.ssn + 1
  let w := { w with ctx := { w.ctx with ssn } }
  if w.ctx.fresh = false ∧ cfg.nvm ∧
      (ssn % cfg.kStore = 0 ∨ w.ctx.echo ≠ .synchronized) then
    match nvmW with
    | none => (.ok (), { w with nvm := ssn })
    | some e => (.err e, w)
  else (.ok (), w)

/-- coap2oscore.c:482-492 `needs_new_piv` -/
def needsNewPiv (ty : MsgType) (e : EchoState) : Bool := ty != .response || e == .verify

/-- coap2oscore.c:521-536: new PIV, nonce, KID and KID context; or the cached request nonce -/
def pickNonce (cfg : Cfg) (nvmW : Option Err) (new : Bool) :
    M World (Bytes × Bytes × Bytes × Bytes) := do
  let w ← M.get
  if new then
    let piv ← M.lift (ssn2piv w.ctx.ssn)
    generateNewSsn cfg nvmW
    let nonce ← M.lift (createNonce w.ctx.senderId piv w.ctx.commonIv)
    pure (piv, w.ctx.senderId, w.ctx.idContext, nonce)
  else pure ([], [], [], w.ctx.nonce)

/-- coap2oscore.c:506-575 `encrypt_wrapper`; returns ciphertext and OSCORE option value -/
def encryptWrapper (cfg : Cfg) (C : Crypto) (nvmW : Option Err) (pt : Bytes) (p : Pkt) :
    M World (Bytes × Bytes) := do
  let w ← M.get
  let ty := msgType p
  let new := needsNewPiv ty w.ctx.echo
  let (piv, kid, kctx, nonce) ← pickNonce cfg nvmW new
  let opt ← M.lift (oscoreOptionGenerate piv kid kctx)
  let (rp, rk) ← M.lift (readWrapper w.ctx.inter ty p.token (.ok (piv, kid)))
  let aad ← M.lift (createAad rk rp)
  let ct ← M.lift (coseEncrypt C pt nonce aad w.ctx.senderKey)
  M.modify (fun v => { v with
    log := { key := w.ctx.senderKey, nonce, aad, pt,
             newSsn := if new then some w.ctx.ssn else none } :: v.log })
  if new then M.modify (fun v => { v with ctx := { v.ctx with nonce := nonce } }) else pure ()
  let uri ← M.lift (uriPathCreate p.opts cfg.uriMax)
  let t ← M.lift (updateWrapper cfg w.ctx.inter ty p.token uri rp rk)
  M.modify (fun v => { v with ctx := { v.ctx with inter := t } })
  pure (ct, opt)

/-- coap2oscore.c:647-651: cache the Echo value of the challenge -/
def cacheEcho (e : List Opt) : M World Unit := do
  let w ← M.get
  if w.ctx.echo = .verify then
    let v ← M.lift (cacheEchoVal w.ctx.echoVal e)
    M.modify (fun w => { w with ctx := { w.ctx with echoVal := v } })
  else pure ()

/-- coap2oscore.c:613-669: everything after the empty-ACK test -/
def protectPkt (cfg : Cfg) (C : Crypto) (nvmW : Option Err) (p : Pkt) (cap : Nat) :
    M World Bytes := do
  let s ← M.lift (optionSplit p)
  M.lift (checkBufferSize cfg.maxPlaintext (plaintextLen p s.eLen))
  let pt ← M.lift (plaintextSetup cfg p s.e (plaintextLen p s.eLen))
  cacheEcho s.e
  let (ct, opt) ← encryptWrapper cfg C nvmW pt p
  M.lift (coapSerialize cfg (oscorePkgGenerate p s.u ct opt) cap)

/-- coap2oscore.c:590-669 `coap2oscore`; `cap` is `*buf_oscore_len` on entry.  An empty ACK is
copied without looking at `cap` (lines 604-611): `ub` when it does not fit. -/
def coap2oscore (cfg : Cfg) (C : Crypto) (nvmW : Option Err) (inp : Bytes) (cap : Nat) :
    M World Bytes := do
  let w ← M.get
  M.lift (checkFreshness w.ctx)
  let p ← M.lift (coapDeserialize inp)
  if p.type = 2 ∧ p.code = 0 then
    M.lift (if cap < inp.length then .ub else .ok inp)
  else protectPkt cfg C nvmW p cap

end Verif
