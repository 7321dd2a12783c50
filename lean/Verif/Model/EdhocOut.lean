import Verif.Model.EdhocRun
/-
The caller's output parameters of edhoc_initiator_run_extended and edhoc_responder_run_extended: which
buffer is written when, also if the run fails afterwards.  `Model/EdhocRun` gives the same runs without
the buffers (`C71_refines_*`).
-/
namespace Verif.Edhoc
open Verif

/-- a `struct byte_array` of the caller (inc/common/byte_array.h:23-26): the object `ptr` points to and
`len` -/
structure ByteArr where
  mem : Bytes
  len : Nat
  deriving DecidableEq, Repr

/-- `memcpy` to the start of an object that is large enough (src/common/memcpy_s.c:26-38) -/
def overwrite (mem v : Bytes) : Bytes := v ++ mem.drop v.length

/-- the output parameters of `edhoc_initiator_run_extended` (inc/edhoc.h:119-126): `c_r_bytes`,
`prk_out`.  `err_msg` is never used by the code. -/
structure IBufs where
  cR : ByteArr
  prk : Bytes
  deriving DecidableEq, Repr

/-- the output parameters of `edhoc_responder_run_extended` (inc/edhoc.h:171-178): `c_i_bytes`,
`prk_out`, `initiator_pk` (`none`: NULL or an array with the pointer NULL).  `err_msg` is never used. -/
structure RBufs where
  cI : ByteArr
  prk : Bytes
  pk : Option ByteArr
  deriving DecidableEq, Repr

/-- a step that only concerns the callbacks (auxiliary, no counterpart in the C code) -/
def onNet {β α : Type} (m : M Net α) : M (Net × β) α := fun s => ((m s.1).1, ((m s.1).2, s.2))
/-- a step that only concerns the caller's buffers (auxiliary, no counterpart in the C code) -/
def onBuf {β α : Type} (m : M β α) : M (Net × β) α := fun s => ((m s.2).1, (s.1, (m s.2).2))

/-! ### Responder -/

/-- responder.c:106-114: C_I is stored in the caller's array -/
def storeCI (c : Bytes) (b : RBufs) : RBufs := { b with cI := ⟨overwrite b.cI.mem c, c.length⟩ }

/-- responder.c:55-124 `msg1_parse` with the caller's C_I array -/
def msg1ParseO (cfg : ECfg) (msg1 : Bytes) (ead : Bytes) : M RBufs Parsed1 :=
  match decMsg1 cfg.strictCbor msg1 with
  | none => M.fail .unexpected_result_from_ext_lib
  | some m =>
    if m.method > 3 ∨ m.method < 0 then M.fail .wrong_parameter
    else do
      let s ← M.lift (suitesOf cfg m.suites)
      let g ← M.lift (memcpyS 32 m.gX)
      let b ← M.get
      let c ← M.lift (cIOf m.cI b.cI.len)
      M.modify (storeCI c)
      let e ← M.lift (ead1Of m.ead1 ead)
      pure ⟨m.method, s, g, c, e⟩

/-- responder.c:170-244 `msg2_gen` with the caller's C_I array -/
def msg2GenO (cfg : ECfg) (C : ECrypto) (c : RCtx) (msg1 ead : Bytes) : M RBufs (Bytes × RState) := do
  let p ← msg1ParseO cfg msg1 ead
  if suiteSupported (p.suites.getLastD 0) c.suitesR = false then M.fail .error_message_sent
  else M.lift (msg2Build cfg C c msg1 p)

/-- responder.c:284-288: the initiator's key is copied if it fits, its length is stored in any case -/
def exportPk (pk : Bytes) (b : RBufs) : RBufs :=
  match b.pk with
  | none => b
  | some a => { b with pk := some ⟨if pk.length ≤ a.len then overwrite a.mem pk else a.mem, pk.length⟩ }

/-- responder.c:276-308 with the caller's arrays -/
def msg3AuthO (cfg : ECfg) (C : ECrypto) (c : RCtx) (creds : List Cred) (rs : RState) (s : Split)
    (ptxt : Bytes) : M RBufs R3Out := do
  let (credI, pk, gI) ← M.lift (retrieveCred cfg C rs.staticDhI creds s.idCred cfg.credISize)
  M.modify (exportPk pk)
  let prk4e3m ← M.lift (prkDerive cfg C rs.staticDhI rs.suite 5 rs.th3 rs.prk3e2m gI c.y)
  M.lift (sigOrMacVerify cfg C rs.staticDhI rs.suite pk prk4e3m [] [] rs.th3 s.idCred credI s.ead 6
    s.sigOrMac)
  let th4 ← M.lift (th34Calc cfg C rs.th3 ptxt credI)
  let b ← M.get
  let prk ← M.lift (edhocKdf cfg C prk4e3m labelPrkOut th4 b.prk.length)
  M.modify (fun b => { b with prk := prk })
  pure ⟨s.ead, prk4e3m, th4, prk, pk⟩

/-- responder.c:246-310 `msg3_process` (not _WIN32) with the caller's arrays -/
def msg3ProcessO (cfg : ECfg) (C : ECrypto) (c : RCtx) (creds : List Cred) (rs : RState)
    (msg3 : Bytes) : M RBufs R3Out := do
  M.lift (checkBufferSize cfg.ciphertext3Size msg3.length)
  let c3 ← M.lift (decodeBstr cfg msg3 msg3.length)
  M.lift (checkBufferSize (cfg.plaintext3Size + rs.suite.aead.tagLen) c3.length)
  let ptxt ← M.lift (ctxtDecrypt cfg C .c3 rs.suite rs.prk3e2m rs.th3 c3)
  let s ← M.lift (plaintext3Split cfg ptxt cfg.idCredISize rs.ead.length)
  msg3AuthO cfg C c creds rs s ptxt

/-- responder.c:334-367 `edhoc_responder_run_extended` with the caller's arrays -/
def responderRunO (cfg : ECfg) (C : ECrypto) (c : RCtx) (creds : List Cred) :
    M (Net × RBufs) ROut := do
  let m1 ← onNet (netRx cfg.msgMaxSize)
  let (m2, rs) ← onBuf (msg2GenO cfg C c m1 (List.replicate cfg.eadSize 0))
  onNet (netEad rs.ead)
  onNet (netTx m2)
  let m3 ← onNet (netRx cfg.msgMaxSize)
  let o ← onBuf (msg3ProcessO cfg C c creds rs m3)
  onNet (netEad o.ead)
  if cfg.message4 then do
    onNet (responderMsg4 cfg C c rs o m3)
    pure ⟨rs.cI, o.prkOut, o.pk, o.th4, o.prk4e3m⟩
  else pure ⟨rs.cI, o.prkOut, o.pk, o.th4, o.prk4e3m⟩

/-- responder.c:369-380 `edhoc_responder_run`: a C_I array of its own (`junk`, C_I_SIZE bytes), no key
array.  Returns what it leaves in `prk_out`. -/
def responderRunPlain (cfg : ECfg) (C : ECrypto) (c : RCtx) (creds : List Cred) (junk : Bytes) :
    M (Net × Bytes) ROut := fun s =>
  let r := responderRunO cfg C c creds (s.1, ⟨⟨junk, junk.length⟩, s.2, none⟩)
  (r.1, (r.2.1, r.2.2.prk))

/-! ### Initiator -/

/-- plaintext_decode.c:90-99: C_R is stored in the caller's array -/
def storeCR (c : Bytes) (b : IBufs) : IBufs := { b with cR := ⟨overwrite b.cR.mem c, c.length⟩ }

/-- plaintext_decode.c:81-156 `plaintext2_split` with the caller's C_R array -/
def plaintext2SplitO (cfg : ECfg) (ptxt : Bytes) (idCap eadCap : Nat) : M IBufs (Bytes × Split) :=
  match decPtxt2 cfg.strictCbor ptxt with
  | none => M.fail .unexpected_result_from_ext_lib
  | some (c, p) => do
    let b ← M.get
    let cR ← M.lift (crOf c b.cR.len)
    M.modify (storeCR cR)
    let s ← M.lift (splitFields p idCap eadCap)
    pure (cR, s)

/-- initiator.c:129-200 `msg2_process` with the caller's C_R array; the memory behind C_R is the rest of
that array. -/
def msg2ProcessO (cfg : ECfg) (C : ECrypto) (c : ICtx) (creds : List Cred) (suite : Suite)
    (msg1Hash msg2 : Bytes) (sI sR : Bool) (ead : Bytes) : M IBufs IState := do
  M.lift (checkBufferSize cfg.plaintext2Size (ctxt2Len msg2.length))
  let (gY, c2) ← M.lift (msg2Parse cfg msg2 (ctxt2Len msg2.length))
  let gxy ← M.lift (sharedSecret C suite.ecdh c.x gY)
  let th2 ← M.lift (th2Calc C msg1Hash gY)
  let prk2e := hkdfExtract C.toCrypto th2 gxy
  let ptxt ← M.lift (ctxtDecrypt cfg C .c2 suite prk2e th2 c2)
  let (cR, s) ← plaintext2SplitO cfg ptxt cfg.idCredRSize ead.length
  let b ← M.get
  M.lift (msg2Auth cfg C c creds suite sI sR gY th2 prk2e cR (b.cR.mem.drop cR.length) s ptxt)

/-- initiator.c:235-237: PRK_out is written to the caller's buffer if `msg3_only_gen` got that far -/
def storePrk (k : Option Bytes) (b : IBufs) : IBufs :=
  match k with
  | some k => { b with prk := k }
  | none => b

/-- initiator.c:240-256 `msg3_gen` with the caller's arrays -/
def msg3GenO (cfg : ECfg) (C : ECrypto) (c : ICtx) (creds : List Cred) (suite : Suite)
    (msg1Hash msg2 ead : Bytes) : M IBufs (IState × M3Out) := do
  let (sI, sR) := authType c.method (false, false)
  let s ← msg2ProcessO cfg C c creds suite msg1Hash msg2 sI sR ead
  let b ← M.get
  let o ← M.lift (msg3OnlyGen cfg C c suite sI s msg2 b.prk.length)
  M.modify (storePrk o.prkOut)
  pure (s, o)

/-- initiator.c:277-311 `edhoc_initiator_run_extended` with the caller's arrays -/
def initiatorRunO (cfg : ECfg) (C : ECrypto) (c : ICtx) (creds : List Cred) :
    M (Net × IBufs) IOut := do
  let (m1, suite, h1) ← M.lift (msg1Gen cfg C c)
  onNet (netTx m1)
  let m2 ← onNet (netRx cfg.msgMaxSize)
  let (s, o) ← onBuf (msg3GenO cfg C c creds suite h1 m2 (List.replicate cfg.eadSize 0))
  onNet (netEad s.ead)
  onNet (netTx o.msg)
  if cfg.message4 then do
    onNet (initiatorMsg4 cfg C suite s o)
    pure ⟨s.cR, o.prkOut, o.th4, s.prk4e3m⟩
  else pure ⟨s.cR, o.prkOut, o.th4, s.prk4e3m⟩

/-- initiator.c:313-325 `edhoc_initiator_run`: a C_R array of its own (`junk`, C_R_SIZE bytes).
Returns what it leaves in `prk_out`. -/
def initiatorRunPlain (cfg : ECfg) (C : ECrypto) (c : ICtx) (creds : List Cred) (junk : Bytes) :
    M (Net × Bytes) IOut := fun s =>
  let r := initiatorRunO cfg C c creds (s.1, ⟨⟨junk, junk.length⟩, s.2⟩)
  (r.1, (r.2.1, r.2.2.prk))

end Verif.Edhoc
