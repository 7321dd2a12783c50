import Verif.Model.Protect
/-
src/oscore/oscore2coap.c
-/
namespace Verif

/-- A `byte_array` produced by the option parser: a length and the bytes of the packet from the
pointer on.  The parser does not check that the field lies inside the packet. Inc/common/byte_array.h:23-26. -/
structure Fld where
  len : Nat
  avail : Bytes
  deriving DecidableEq, Repr

/-- Reading the field: leaving the packet is `ub`. Inc/common/byte_array.h:23-26. -/
def Fld.read (f : Fld) : R Bytes := if f.len ≤ f.avail.length then .ok (f.avail.take f.len) else .ub

/-- inc/oscore/oscore_coap.h `struct compressed_oscore_option` (flags left out, unused later) -/
structure OscOpt where
  piv : Fld
  kidCtx : Fld
  kid : Fld
  deriving DecidableEq, Repr

/-- NULL array (inc/common/byte_array.h:37) -/
def Fld.null : Fld := { len := 0, avail := [] }

/-- oscore2coap.c:54-127: one OSCORE option value.  `len` is the option length, `tail` the packet
from the value on.  Lengths are 8-bit differences (lines 97, 111). -/
def parseOscoreValue (len : Nat) (tail : Bytes) : R OscOpt :=
  if len = 0 then .ok { piv := .null, kidCtx := .null, kid := .null }
  else
    match tail with
    | [] => .ub
    | f :: v1 =>
      let n := f.toNat % 8
      let k := f.toNat / 8 % 2
      let h := f.toNat / 16 % 2
      if n = 6 ∨ n = 7 then .err .oscore_inpkt_invalid_piv
      else
        let piv : Fld := if n = 0 then .null else { len := n, avail := v1 }
        let v2 := v1.drop n
        let kl := if n = 0 then len - 1 else (len + 255 - n) % 256
        if h = 0 then
          .ok { piv, kidCtx := .null, kid := if k = 0 then .null else { len := kl, avail := v2 } }
        else
          match v2 with
          | [] => .ub
          | s :: v3 =>
            .ok { piv, kidCtx := { len := s.toNat, avail := v3 },
                  kid := if k = 0 then .null
                    else { len := (kl + 512 - (s.toNat + 1)) % 256, avail := v3.drop s.toNat } }

/-- oscore2coap.c:43-133 `oscore_option_parser`: every OSCORE option is parsed, the last one counts;
none: `not_oscore_pkt`. -/
def oscoreOptionParserGo : Option OscOpt → List (Opt × Bytes) → R OscOpt
  | some o, [] => .ok o
  | none, [] => .err .not_oscore_pkt
  | acc, (o, tail) :: os =>
    if o.num = optOSCORE then do
      let v ← parseOscoreValue o.len tail
      oscoreOptionParserGo (some v) os
    else oscoreOptionParserGo acc os

/-- oscore2coap.c:43-133 `oscore_option_parser` -/
def oscoreOptionParser (opts : List (Opt × Bytes)) : R OscOpt := oscoreOptionParserGo none opts

/-- oscore2coap.c:174-184: inner loop of the exchange sort for one `i`; `x` is `out[i]`, the list is
`out[i+1..]`. -/
def exPass : Opt → List Opt → Opt × List Opt
  | x, [] => (x, [])
  | x, y :: ys =>
    if x.num > y.num then
      let (m, r) := exPass y ys
      (m, x :: r)
    else
      let (m, r) := exPass x ys
      (m, y :: r)

/-- oscore2coap.c:172-188: outer loop (the first argument is the number of iterations left) -/
def exSort : Nat → List Opt → List Opt
  | 0, l => l
  | _ + 1, [] => []
  | n + 1, x :: xs =>
    let (m, r) := exPass x xs
    m :: exSort n r

/-- oscore2coap.c:171, 185-187: new deltas (16 bits) -/
def redelta : Nat → List Opt → List Opt
  | _, [] => []
  | prev, o :: os => { o with delta := (o.num + 65536 - prev) % 65536 } :: redelta o.num os

/-- oscore2coap.c:144-191 `options_reorder` -/
def optionsReorder (u e : List Opt) : R (List Opt) := do
  checkBufferSize maxOptionCount ((u.length + e.length + 255) % 256)
  let all := u.filter (fun o => o.num != optOSCORE && o.num != optOBSERVE) ++ e
  pure (redelta 0 (exSort all.length all))

/-- oscore2coap.c:200-236 `o_coap_pkg_generate` -/
def oCoapPkgGenerate (pt : Bytes) (p : Pkt) : R Pkt := do
  let (code, e, payload) ← payloadParser pt
  let opts ← optionsReorder p.opts e
  pure { p with code, opts, payload }

/-- the (PIV, KID) fields of an OSCORE option, read (inc/oscore/oscore_coap.h:107-116) -/
def OscOpt.read (o : OscOpt) : R (Bytes × Bytes) := do
  let piv ← o.piv.read
  let kid ← o.kid.read
  pure (piv, kid)

/-- oscore2coap.c:262-270: request PIV and KID are those of the option (unused for responses) -/
def decPivKid : Option OscOpt → R (Bytes × Bytes)
  | some o => o.read
  | none => .ub

/-- oscore2coap.c:277-287: new nonce from the option, or the nonce of the request -/
def decNonce (c : Ctx) : Option OscOpt → R Bytes
  | some o => do
    let (piv, kid) ← o.read
    createNonce kid piv c.commonIv
  | none => .ok c.nonce

/-- oscore2coap.c:253-325 `decrypt_wrapper`; `opt = none` means "use the nonce of the request".
Returns the CoAP packet and the plaintext. -/
def decryptWrapper (cfg : Cfg) (C : Crypto) (opt : Option OscOpt) (p : Pkt) :
    M Ctx (Pkt × Bytes) := do
  let c ← M.get
  let (rp, rk) ← M.lift (readWrapper c.inter (msgType p) p.token (decPivKid opt))
  let nonce ← M.lift (decNonce c opt)
  let aad ← M.lift (createAad rk rp)
  let pt ← M.lift (coseDecrypt C p.payload nonce aad c.recipientKey)
  if opt.isSome then M.modify (fun c => { c with nonce := nonce }) else pure ()
  let out ← M.lift (oCoapPkgGenerate pt p)
  let uri ← M.lift (uriPathCreate out.opts cfg.uriMax)
  let t ← M.lift (updateWrapper cfg c.inter (msgType out) p.token uri rp rk)
  M.modify (fun c => { c with inter := t })
  pure (out, pt)

/-- oscore2coap.c:375-377: `array_equals(recipient_id, kid)`.  Simplification: the byte comparison
reads the whole field before comparing (the C loop stops at the first difference). -/
def kidMatches (c : Ctx) (o : OscOpt) : R Bool :=
  if o.kid.len ≠ c.recipientId.length then .ok false
  else do
    let k ← o.kid.read
    pure (arrayEquals c.recipientId k)

/-- replay_protection.c:126-141 `replay_protection_check_notification` -/
def checkNotification (c : Ctx) (piv : Bytes) : R Unit := do
  let ssn ← piv2ssn piv
  if c.notifInit ∧ c.notifNum ≥ ssn then .err .oscore_replay_notification_protection_error
  else .ok ()

/-- replay_protection.c:143-150 `notification_number_update` -/
def notificationUpdate (piv : Bytes) : M Ctx Unit := do
  let n ← M.lift (piv2ssn piv)
  M.modify (fun c => { c with notifNum := n, notifInit := true })

/-- oscore2coap.c:382-391: replay check of a synchronised server.  The return value of `piv2ssn` is
ignored; the parser guarantees at most 5 bytes. -/
def checkReplay (c : Ctx) (o : OscOpt) : R Unit :=
  if c.echo = .synchronized then do
    let piv ← o.piv.read
    if c.window.valid (beVal piv) then .ok () else .err .oscore_replay_window_protection_error
  else .ok ()

/-- oscore2coap.c:397-423: what happens to the Echo state and the replay window after decryption.
Line 420 passes only the first byte of the PIV to the window (NULL dereference when there is
none). -/
def afterRequest (o : OscOpt) (pt : Bytes) : M Ctx Unit := do
  let c ← M.get
  match c.echo with
  | .reboot =>
    M.modify (fun c => { c with echo := .verify })
    M.fail .first_request_after_reboot
  | .verify =>
    match echoValIsFresh c.echoVal pt with
    | .ok _ =>
      let piv ← M.lift o.piv.read
      M.modify (fun c => { c with window := c.window.reinit (beVal piv), echo := .synchronized })
    | .err _ => M.fail .echo_validation_failed
    | .ub => M.lift .ub
  | .synchronized =>
    let piv ← M.lift o.piv.read
    match piv with
    | [] => M.lift .ub
    | b :: _ => M.modify (fun c => { c with window := (c.window.update b.toNat).2 })

/-- oscore2coap.c:367-423: incoming request -/
def unprotectRequest (cfg : Cfg) (C : Crypto) (o : OscOpt) (p : Pkt) : M Ctx Pkt := do
  let c ← M.get
  let m ← M.lift (kidMatches c o)
  if m = false then M.fail .oscore_kid_recipient_id_mismatch
  else do
    M.lift (checkReplay c o)
    let (out, pt) ← decryptWrapper cfg C (some o) p
    afterRequest o pt
    pure out

/-- oscore2coap.c:424-466: incoming response -/
def unprotectResponse (cfg : Cfg) (C : Crypto) (o : OscOpt) (p : Pkt) : M Ctx Pkt := do
  let c ← M.get
  if isObserve p.opts then
    if o.piv.len ≠ 0 then do
      let piv ← M.lift o.piv.read
      M.lift (checkNotification c piv)
      let (out, _) ← decryptWrapper cfg C (some o) p
      notificationUpdate piv
      pure out
    else M.fail .not_supported_feature
  else do
    let (out, _) ← decryptWrapper cfg C (if o.piv.len ≠ 0 then some o else none) p
    pure out

/-- oscore2coap.c:327-471 `oscore2coap`; `cap` is `*buf_out_len` on entry.  The plaintext length is
a 32-bit difference (line 357). -/
def oscore2coap (cfg : Cfg) (C : Crypto) (inp : Bytes) (cap : Nat) : M Ctx Bytes := do
  let c ← M.get
  M.lift (checkFreshness c)
  let (p, t) ← M.lift (coapParse inp)
  let o ← M.lift (oscoreOptionParser t)
  M.lift (checkBufferSize cfg.maxPlaintext (sub32 p.payload.length 8))
  let out ← if isRequest p then unprotectRequest cfg C o p else unprotectResponse cfg C o p
  M.lift (coapSerialize cfg out cap)

/-! ### histories of calls on one device -/

/-- One API call on a context. Inc/oscore.h:93-160. -/
inductive Op where
  /-- `coap2oscore(inp)` with an output buffer of `cap` bytes; `nvmW` is what `nvm_write_ssn` would
  return (`none` = ok) -/
  | protect (inp : Bytes) (cap : Nat) (nvmW : Option Err)
  /-- `oscore2coap(inp)` with an output buffer of `cap` bytes -/
  | unprotect (inp : Bytes) (cap : Nat)
  deriving DecidableEq, Repr

/-- run one call (inc/oscore.h:98-134) -/
def step (cfg : Cfg) (C : Crypto) (w : World) : Op → R Bytes × World
  | .protect inp cap nvmW => coap2oscore cfg C nvmW inp cap w
  | .unprotect inp cap =>
    let r := oscore2coap cfg C inp cap w.ctx
    (r.1, { w with ctx := r.2 })

/-- run a history, ignoring results (inc/oscore.h:98-134) -/
def run (cfg : Cfg) (C : Crypto) (w : World) (h : List Op) : World :=
  h.foldl (fun w op => (step cfg C w op).2) w

end Verif
