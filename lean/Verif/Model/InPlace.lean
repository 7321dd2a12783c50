import Verif.Model.KeyUpdate
import Verif.Model.Unprotect
/-
The OSCORE calls on the memory of the caller: `coap2oscore` and `oscore2coap` with an input buffer and an output buffer that
may be the same or overlap.

A parsed packet holds pointers: the token and the values of the outer options point into the input buffer, and are read again
when the result is written (oscore_coap.c:273-338).  Everything before `coap_serialize` only reads the caller's buffers; it
works on local buffers (plaintext, ciphertext, OSCORE option) and on the context, and is the model of `Model/Protect.lean` and
`Model/Unprotect.lean`.  Simplified: the security context and the buffers it refers to are outside this memory.
-/
namespace Verif.InPlace
open Verif

/-- inc/common/byte_array.h:23-26: a span of the memory -/
abbrev Span := Verif.Edhoc.Span

/-- where the bytes of an option value or of a payload are: in the caller's memory, or in a local buffer
(oscore2coap.c:356-358 `plaintext`, coap2oscore.c:641-643 `ciphertext`, coap2oscore.c:653 `oscore_option`) -/
inductive Src where
  | mem (s : Span)
  | loc (b : Bytes)
  deriving DecidableEq, Repr

/-- the bytes read through the pointer now (auxiliary, no counterpart in the C code) -/
def Src.read (m : Bytes) : Src → Bytes
  | .mem s => Edhoc.peek m s
  | .loc b => b

/-- inc/oscore/oscore_coap.h:84-89 `struct o_coap_option`, with the pointer `value` -/
structure OptP where
  delta : Nat
  num : Nat
  val : Src
  deriving DecidableEq, Repr

/-- inc/oscore/oscore_coap.h:84-89: the option as it reads now -/
def OptP.read (m : Bytes) (o : OptP) : Opt := { delta := o.delta, value := o.val.read m, num := o.num }

/-- inc/oscore/oscore_coap.h:76-105 `struct o_coap_packet`, with the pointers `token` and `payload` -/
structure PktP where
  ver : Nat
  type : Nat
  code : UInt8
  mid : Nat
  token : Span
  opts : List OptP
  payload : Bytes
  deriving DecidableEq, Repr

/-- inc/oscore/oscore_coap.h:99-105: the packet as it reads now -/
def PktP.read (m : Bytes) (q : PktP) : Pkt :=
  { ver := q.ver, type := q.type, code := q.code, mid := q.mid, token := Edhoc.peek m q.token, opts := q.opts.map (OptP.read m), payload := q.payload }

/-- oscore_coap.c:203-209: the options found in the input buffer `i`, with their `value` pointers -/
def optPtr (i : Span) (x : Opt × Bytes) : OptP :=
  { delta := x.1.delta, num := x.1.num, val := .mem ⟨i.ptr + (i.len - x.2.length), x.1.len⟩ }

/-- `memcpy` to the output buffer (src/common/memcpy_s.c:26-38): `buffer_to_small` before anything is written -/
def copyTo (dest destLen : Nat) (v : Bytes) : M Bytes Unit := do
  let v ← M.lift (memcpyS destLen v)
  M.modify (fun m => Edhoc.blit m dest v)

/-- oscore_coap.c:273-338 `coap_serialize` into `cap` bytes at `out`; returns the length.  The token is copied first, the
options are read after that, into a local buffer. -/
def serializeMem (cfg : Cfg) (q : PktP) (out cap : Nat) : M Bytes Nat :=
  if cap < 4 then M.lift .ub
  else do
    M.modify (fun m => Edhoc.blit m out [byte (q.ver * 64 + q.type * 16 + q.token.len), q.code, byte (q.mid / 256), byte (q.mid % 256)])
    let m ← M.get
    copyTo (out + 4) (cap - 4) (Edhoc.peek m q.token)
    let m ← M.get
    let opts := q.opts.map (OptP.read m)
    M.lift (checkBufferSize cfg.maxCoapOptions (optBytesLen opts))
    let ob ← M.lift (optionsSerialize opts (optBytesLen opts))
    copyTo (out + 4 + q.token.len) (cap - (4 + q.token.len)) ob
    if q.payload.length = 0 then pure (4 + q.token.len + ob.length)
    else if 4 + q.token.len + ob.length ≥ cap then M.lift .ub
    else do
      M.modify (fun m => Edhoc.blit m (out + 4 + q.token.len + ob.length) [0xFF])
      copyTo (out + 4 + q.token.len + ob.length + 1) (cap - (4 + q.token.len + ob.length + 1)) q.payload
      pure (4 + q.token.len + ob.length + 1 + q.payload.length)

/-- a step that works on local buffers and the context only (auxiliary, no counterpart in the C code) -/
def onW {σ α : Type} (m : M σ α) : M (σ × Bytes) α := fun s => ((m s.1).1, ((m s.1).2, s.2))
/-- a step that works on the caller's buffers (auxiliary, no counterpart in the C code) -/
def onB {σ α : Type} (m : M Bytes α) : M (σ × Bytes) α := fun s => ((m s.2).1, (s.1, (m s.2).2))

/-! ### coap2oscore -/

/-- coap2oscore.c:65-187: the outer options, with their pointers -/
def splitUP : (nr uSum : Nat) → List OptP → List OptP
  | _, _, [] => []
  | nr, uSum, o :: os =>
    let nr' := (nr + o.delta) % 65536
    let dU := (nr' + 65536 - uSum) % 65536
    if nr' = optOBSERVE ∨ isClassE nr' = false then
      { o with delta := dU, num := nr' } :: splitUP nr' ((uSum + dU) % 65536) os
    else splitUP nr' uSum os

/-- coap2oscore.c:412-439 -/
def outerDeltasP : Nat → List OptP → List OptP
  | _, [] => []
  | sum, o :: os =>
    let d := (o.num + 65536 - sum) % 65536
    { o with delta := d } :: outerDeltasP ((sum + d) % 256) os

/-- coap2oscore.c:364-445 `oscore_pkg_generate` -/
def oscorePkgGenerateP (p : Pkt) (token : Span) (u : List OptP) (ct optVal : Bytes) : PktP :=
  let observe := u.any (fun o => o.num == optOBSERVE)
  { ver := p.ver, type := p.type, mid := p.mid, token
    code := if isRequest p then (if observe then 0x05 else 0x02) else (if observe then 0x45 else 0x44)
    opts := outerDeltasP 0 (u.takeWhile (fun o => o.num ≤ optOSCORE) ++
      [{ delta := 0, val := .loc optVal, num := optOSCORE }] ++
      u.dropWhile (fun o => o.num ≤ optOSCORE))
    payload := ct }

/-- coap2oscore.c:613-655: from the packet to the ciphertext and the OSCORE option -/
def protectMid (cfg : Cfg) (C : Crypto) (nvmW : Option Err) (p : Pkt) : M World (Bytes × Bytes) := do
  let s ← M.lift (optionSplit p)
  M.lift (checkBufferSize cfg.maxPlaintext (plaintextLen p s.eLen))
  let pt ← M.lift (plaintextSetup cfg p s.e (plaintextLen p s.eLen))
  cacheEcho s.e
  encryptWrapper cfg C nvmW pt p

/-- coap2oscore.c:590-669 `coap2oscore(&mem[i.ptr], i.len, &mem[out], cap)`; returns `*buf_oscore_len` -/
def coap2oscoreMem (cfg : Cfg) (C : Crypto) (nvmW : Option Err) (i : Span) (out cap : Nat) : M (World × Bytes) Nat := do
  let s ← M.get
  onW (M.lift (checkFreshness s.1.ctx))
  let (p, t) ← onW (M.lift (coapParse (Edhoc.peek s.2 i)))
  if p.type = 2 ∧ p.code = 0 then
    if cap < i.len then M.lift .ub
    else do
      onB (copyTo out i.len (Edhoc.peek s.2 i))
      pure i.len
  else do
    let (ct, opt) ← onW (protectMid cfg C nvmW p)
    onB (serializeMem cfg (oscorePkgGenerateP p ⟨i.ptr + 4, p.token.length⟩ (splitUP 0 0 (t.map (optPtr i))) ct opt) out cap)

/-! ### oscore2coap -/

/-- oscore2coap.c:174-184 -/
def exPassP : OptP → List OptP → OptP × List OptP
  | x, [] => (x, [])
  | x, y :: ys =>
    if x.num > y.num then
      let (m, r) := exPassP y ys
      (m, x :: r)
    else
      let (m, r) := exPassP x ys
      (m, y :: r)

/-- oscore2coap.c:172-188 -/
def exSortP : Nat → List OptP → List OptP
  | 0, l => l
  | _ + 1, [] => []
  | n + 1, x :: xs =>
    let (m, r) := exPassP x xs
    m :: exSortP n r

/-- oscore2coap.c:171, 185-187 -/
def redeltaP : Nat → List OptP → List OptP
  | _, [] => []
  | prev, o :: os => { o with delta := (o.num + 65536 - prev) % 65536 } :: redeltaP o.num os

/-- oscore2coap.c:144-191 `options_reorder` -/
def optionsReorderP (u e : List OptP) : R (List OptP) := do
  checkBufferSize maxOptionCount ((u.length + e.length + 255) % 256)
  let all := u.filter (fun o => o.num != optOSCORE && o.num != optOBSERVE) ++ e
  pure (redeltaP 0 (exSortP all.length all))

/-- oscore2coap.c:200-236 `o_coap_pkg_generate`: the inner options and the payload point into the local plaintext -/
def oCoapPkgGenerateP (pt : Bytes) (p : Pkt) (token : Span) (u : List OptP) : R PktP := do
  let (code, e, payload) ← payloadParser pt
  let opts ← optionsReorderP u (e.map fun o => { delta := o.delta, num := o.num, val := .loc o.value })
  pure { ver := p.ver, type := p.type, mid := p.mid, token, code, opts, payload }

/-- oscore2coap.c:362-466: from the packet to the plaintext, with all checks and updates of the context.  Simplified: the
packet with pointers is made from the plaintext afterwards (`oCoapPkgGenerateP`), the one with values inside. -/
def unprotectMid (cfg : Cfg) (C : Crypto) (o : OscOpt) (p : Pkt) : M Ctx Bytes := do
  let c ← M.get
  if isRequest p then
    let m ← M.lift (kidMatches c o)
    if m = false then M.fail .oscore_kid_recipient_id_mismatch
    else do
      M.lift (checkReplay c o)
      let (_, pt) ← decryptWrapper cfg C (some o) p
      afterRequest o pt
      pure pt
  else if isObserve p.opts then
    if o.piv.len ≠ 0 then do
      let piv ← M.lift o.piv.read
      M.lift (checkNotification c piv)
      let (_, pt) ← decryptWrapper cfg C (some o) p
      notificationUpdate piv
      pure pt
    else M.fail .not_supported_feature
  else do
    let (_, pt) ← decryptWrapper cfg C (if o.piv.len ≠ 0 then some o else none) p
    pure pt

/-- oscore2coap.c:327-471 `oscore2coap(&mem[i.ptr], i.len, &mem[out], cap)`; returns `*buf_out_len` -/
def oscore2coapMem (cfg : Cfg) (C : Crypto) (i : Span) (out cap : Nat) : M (Ctx × Bytes) Nat := do
  let s ← M.get
  onW (M.lift (checkFreshness s.1))
  let (p, t) ← onW (M.lift (coapParse (Edhoc.peek s.2 i)))
  let o ← onW (M.lift (oscoreOptionParser t))
  onW (M.lift (checkBufferSize cfg.maxPlaintext (sub32 p.payload.length 8)))
  let pt ← onW (unprotectMid cfg C o p)
  let q ← onW (M.lift (oCoapPkgGenerateP pt p ⟨i.ptr + 4, p.token.length⟩ (t.map (optPtr i))))
  onB (serializeMem cfg q out cap)

/-! ### histories -/

/-- inc/oscore.h:98-134: one call on the memory; before it the application writes what it likes (`fill`) -/
structure MemCall where
  fill : Bytes → Bytes
  /-- `coap2oscore` if true, with what `nvm_write_ssn` would return; else `oscore2coap` -/
  protect : Bool
  nvmW : Option Err
  i : Span
  out : Nat
  cap : Nat

/-- inc/oscore.h:98-134 -/
def memStep (cfg : Cfg) (C : Crypto) (s : World × Bytes) (k : MemCall) : R Nat × (World × Bytes) :=
  if k.protect then coap2oscoreMem cfg C k.nvmW k.i k.out k.cap (s.1, k.fill s.2)
  else
    let r := oscore2coapMem cfg C k.i k.out k.cap (s.1.ctx, k.fill s.2)
    (r.1, ({ s.1 with ctx := r.2.1 }, r.2.2))

/-- inc/oscore.h:98-134: a history of calls on one device -/
def memRun (cfg : Cfg) (C : Crypto) (s : World × Bytes) (h : List MemCall) : World × Bytes :=
  h.foldl (fun s k => (memStep cfg C s k).2) s

end Verif.InPlace
