import Verif.Model.EdhocMsg
/-
edhoc_initiator_run_extended and edhoc_responder_run_extended with their callbacks.
-/
namespace Verif.Edhoc
open Verif

/-- What the callbacks `rx`, `tx` and `ead_process` will answer, and what they were given.
Assumptions on the callbacks: `rx` writes at most the array's length and sets it to the received
length, `tx` and `ead_process` do not change their argument. Callbacks of inc/edhoc.h:110-116, 152-158. -/
structure Net where
  /-- results of the following calls of `rx`; an empty list means an error -/
  rxq : List (Err ⊕ Bytes)
  /-- results of the following calls of `tx` (`none`: ok); an empty list means ok -/
  txq : List (Option Err)
  /-- results of the following calls of `ead_process` -/
  eadq : List (Option Err)
  /-- messages given to `tx`, oldest first -/
  sent : List Bytes
  /-- EAD given to `ead_process`, oldest first -/
  eads : List Bytes
  deriving DecidableEq, Repr

/-- callback `tx` (inc/edhoc.h:116) -/
def netTx (m : Bytes) : M Net Unit := fun n =>
  match n.txq with
  | some e :: q => (.err e, { n with txq := q, sent := n.sent ++ [m] })
  | _ => (.ok (), { n with txq := n.txq.tail, sent := n.sent ++ [m] })

/-- callback `rx` (inc/edhoc.h:117) with an array of `cap` bytes -/
def netRx (cap : Nat) : M Net Bytes := fun n =>
  match n.rxq with
  | [] => (.err .transport_deinitialized, n)
  | .inl e :: q => (.err e, { n with rxq := q })
  | .inr m :: q =>
    if m.length ≤ cap then (.ok m, { n with rxq := q })
    else (.err .buffer_to_small, { n with rxq := q })

/-- callback `ead_process` (inc/edhoc.h:118) -/
def netEad (ead : Bytes) : M Net Unit := fun n =>
  match n.eadq with
  | some e :: q => (.err e, { n with eadq := q, eads := n.eads ++ [ead] })
  | _ => (.ok (), { n with eadq := n.eadq.tail, eads := n.eads ++ [ead] })

/-- results of the initiator: C_R, PRK_out (`none`: the caller's buffer was not written), TH_4 and
PRK_4e3m (internal) (out parameters of inc/edhoc.h:110-116) -/
structure IOut where
  cR : Bytes
  prkOut : Option Bytes
  th4 : Bytes
  prk4e3m : Bytes
  deriving DecidableEq, Repr

/-- initiator.c:300-308, MESSAGE_4: receive and process message 4 -/
def initiatorMsg4 (cfg : ECfg) (C : ECrypto) (suite : Suite) (s : IState) (o : M3Out) : M Net Unit :=
  do
  let m4 ← netRx cfg.msgMaxSize
  let ead4 ← M.lift (msg4Process cfg C suite s.prk4e3m o.th4 m4 s.ead.length)
  netEad ead4

/-- initiator.c:277-311 `edhoc_initiator_run_extended`.  `crBuf`: contents of the caller's C_R buffer
(its length is the capacity), `L`: length of the caller's PRK_out buffer.  `edhoc_initiator_run`
(initiator.c:313-325) is this function with an uninitialised C_R buffer of C_R_SIZE bytes. -/
def initiatorRun (cfg : ECfg) (C : ECrypto) (c : ICtx) (creds : List Cred) (crBuf : Bytes) (L : Nat) :
    M Net IOut := do
  let (m1, suite, h1) ← M.lift (msg1Gen cfg C c)
  netTx m1
  let m2 ← netRx cfg.msgMaxSize
  let (s, o) ← M.lift (msg3Gen cfg C c creds suite h1 m2 crBuf (List.replicate cfg.eadSize 0) L)
  netEad s.ead
  netTx o.msg
  if cfg.message4 then do
    initiatorMsg4 cfg C suite s o
    pure ⟨s.cR, o.prkOut, o.th4, s.prk4e3m⟩
  else pure ⟨s.cR, o.prkOut, o.th4, s.prk4e3m⟩

/-- results of the responder: C_I, PRK_out, the initiator's signature key, TH_4 and PRK_4e3m
(internal) (out parameters of inc/edhoc.h:152-158) -/
structure ROut where
  cI : Bytes
  prkOut : Bytes
  pk : Bytes
  th4 : Bytes
  prk4e3m : Bytes
  deriving DecidableEq, Repr

/-- responder.c:360-364, MESSAGE_4: create and send message 4 -/
def responderMsg4 (cfg : ECfg) (C : ECrypto) (c : RCtx) (rs : RState) (o : R3Out) (m3 : Bytes) :
    M Net Unit := do
  let m4 ← M.lift (msg4Gen cfg C c.ead4 rs.suite o.prk4e3m o.th4 m3.length)
  netTx m4

/-- responder.c:334-367 `edhoc_responder_run_extended`; `cICap`: size of the caller's C_I buffer, `L`:
length of the caller's PRK_out buffer -/
def responderRun (cfg : ECfg) (C : ECrypto) (c : RCtx) (creds : List Cred) (cICap L : Nat) :
    M Net ROut := do
  let m1 ← netRx cfg.msgMaxSize
  let (m2, rs) ← M.lift (msg2Gen cfg C c m1 cICap (List.replicate cfg.eadSize 0))
  netEad rs.ead
  netTx m2
  let m3 ← netRx cfg.msgMaxSize
  let o ← M.lift (msg3Process cfg C c creds rs m3 L)
  netEad o.ead
  if cfg.message4 then do
    responderMsg4 cfg C c rs o m3
    pure ⟨rs.cI, o.prkOut, o.pk, o.th4, o.prk4e3m⟩
  else pure ⟨rs.cI, o.prkOut, o.pk, o.th4, o.prk4e3m⟩

end Verif.Edhoc
