import Verif.Model.Unprotect
/-
A device that lives through reboots and crashes: src/oscore/nvm.c, security_context.c:104-165,
coap2oscore.c:446-474.
-/
namespace Verif

/-- A device with non-volatile memory.  `w.nvm` survives a reboot, `w.ctx` does not; `w.log` is the
ghost log of encryptions of all sessions.  The last two fields are ghosts used to state what a
"failed write" is: whether NVM was written in this session, and how many writes failed since. Src/oscore/nvm.c. -/
structure Dev where
  w : World
  up : Bool
  wrote : Bool
  fails : Nat
  deriving DecidableEq, Repr

/-- What can happen to a device. Inc/oscore.h:93-160. -/
inductive DevOp where
  /-- a completed API call -/
  | call (op : Op)
  /-- power loss during an API call, before it returns (so nothing is sent), and restart;
  `written`: the crash was after the NVM write of that call, if there is one -/
  | crash (op : Op) (written : Bool) (junkNonce junkEcho : Bytes)
  /-- power loss between calls, and restart; the buffers hold arbitrary bytes -/
  | reboot (junkNonce junkEcho : Bytes)
  deriving DecidableEq, Repr

/-- Restart: `oscore_context_init` (security_context.c:104-165) with the same parameters, reading the
SSN back from NVM (nvm.c:52-73).  Simplification: an NVM write is atomic and reading it succeeds. -/
def devBoot (cfg : Cfg) (C : Crypto) (prm : InitParams) (jn je : Bytes) (d : Dev) : Dev :=
  match contextInit cfg C prm (.ok d.w.nvm) jn je with
  | .ok c => { w := { d.w with ctx := c }, up := true, wrote := false, fails := 0 }
  | _ => { d with up := false }

/-- ghost: the call tried to write NVM and the write failed (nvm.c:37-49) -/
def writeFailed (cfg : Cfg) (w w' : World) : Op → Bool
  | .protect _ _ (some _) =>
    decide (w'.ctx.ssn ≠ w.ctx.ssn ∧ w.ctx.fresh = false ∧ cfg.nvm = true ∧
      ((w.ctx.ssn + 1) % cfg.kStore = 0 ∨ w.ctx.echo ≠ .synchronized))
  | _ => false

/-- one event (see `DevOp`); a completed call is `step` (coap2oscore.c:590-669, oscore2coap.c:327-471),
an interrupted one leaves at most its NVM write (coap2oscore.c:453-474) behind -/
def devStep (cfg : Cfg) (C : Crypto) (prm : InitParams) (d : Dev) : DevOp → Dev
  | .call op =>
    if d.up then
      let w' := (step cfg C d.w op).2
      { w := w', up := true, wrote := d.wrote || decide (w'.nvm ≠ d.w.nvm),
        fails := if w'.nvm ≠ d.w.nvm then 0
          else if writeFailed cfg d.w w' op then d.fails + 1 else d.fails }
    else d
  | .crash op written jn je =>
    if d.up then
      devBoot cfg C prm jn je
        { d with w := { d.w with nvm := if written then (step cfg C d.w op).2.nvm else d.w.nvm } }
    else d
  | .reboot jn je => devBoot cfg C prm jn je d

/-- a whole life (inc/oscore.h:98-134) -/
def devRun (cfg : Cfg) (C : Crypto) (prm : InitParams) (d : Dev) (h : List DevOp) : Dev :=
  h.foldl (devStep cfg C prm) d

end Verif
