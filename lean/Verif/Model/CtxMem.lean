import Verif.Model.Unprotect
/-
`struct context` as an object in memory (inc/oscore/security_context.h:52-110): which of its fields
are *pointers*, what they point to after `oscore_context_init` (src/oscore/security_context.c:104-165),
and a program that owns several such objects, its own parameter buffers and the non-volatile storage.
-/
namespace Verif.Own

/-- The byte buffers that lie inside one `struct context` and are reached through a pointer:
`common_iv_buf`, `sender_key_buf`, `recipient_key_buf`, `recipient_id_buf`, `nonce_buf`,
`echo_opt_val_buf` (security_context.h:60, 68, 76, 77, 88, 93).  `sender_id_buf[7]` (line 66) exists
but no function uses it. -/
inductive Buf where
  | commonIv | senderKey | recipientKey | recipientId | nonce | echo
  deriving DecidableEq, Repr

/-- A memory object: the `n`-th object of the calling program, or a buffer inside context `k`.
Inc/oscore/security_context.h:33-100. -/
inductive Obj where
  | caller (n : Nat)
  | inside (k : Nat) (b : Buf)
  deriving DecidableEq, Repr

/-- contents of the memory objects (auxiliary, no counterpart in the C code) -/
abbrev Mem := Obj → Bytes

/-- inc/common/byte_array.h:20-24 `struct byte_array`: a pointer to the start of an object and a
length.  (Pointers into the middle of an object: name the tail as an object of its own.) -/
structure Ref where
  obj : Obj
  len : Nat
  deriving DecidableEq, Repr

/-- the bytes a `struct byte_array` denotes now.  Simplified: reading past the end of the object
(undefined in C) gives the bytes that are there. Inc/common/byte_array.h:23-26. -/
def Ref.read (m : Mem) (r : Ref) : Bytes := (m r.obj).take r.len

/-- change one object (auxiliary, no counterpart in the C code) -/
def Mem.set (m : Mem) (o : Obj) (b : Bytes) : Mem := fun x => if x = o then b else m x

/-- `memcpy(o, b, len)`: the start of the object is overwritten, the rest stays (`_memcpy_s`, src/common/memcpy_s.c:26-38) -/
def Mem.put (m : Mem) (o : Obj) (b : Bytes) : Mem := m.set o (b ++ (m o).drop b.length)

/-- inc/oscore/security_context.h:52-110 `struct context` as it lies in memory: byte strings are
`struct byte_array` values, i.e. references.  Left out: the algorithm identifiers, and the references
to master secret and salt, which no function reads after the initialisation. -/
structure CtxObj where
  fresh : Bool
  idContext : Ref
  commonIv : Ref
  senderId : Ref
  senderKey : Ref
  ssn : Nat
  recipientId : Ref
  recipientKey : Ref
  window : ReplayWindow
  notifNum : Nat
  notifInit : Bool
  nonce : Ref
  inter : Table
  echoVal : Ref
  echo : EchoState
  deriving DecidableEq, Repr

/-- inc/oscore.h:66-108 `struct oscore_init_params`: the byte strings are references -/
structure ParamRefs where
  masterSecret : Ref
  masterSalt : Ref
  senderId : Ref
  recipientId : Ref
  idContext : Ref
  aeadAlg : Int := 10
  hkdf : Int := -10
  fresh : Bool
  deriving DecidableEq, Repr

/-- the parameter values the references denote now (inc/oscore.h:69-91) -/
def ParamRefs.vals (p : ParamRefs) (m : Mem) : InitParams :=
  { masterSecret := p.masterSecret.read m, masterSalt := p.masterSalt.read m
    senderId := p.senderId.read m, recipientId := p.recipientId.read m
    idContext := p.idContext.read m, aeadAlg := p.aeadAlg, hkdf := p.hkdf, fresh := p.fresh }

/-- what the functions of the library see in the object: every byte string is what its reference
denotes now (inc/oscore/security_context.h:33-100) -/
def view (o : CtxObj) (m : Mem) : Ctx :=
  { fresh := o.fresh, idContext := o.idContext.read m, commonIv := o.commonIv.read m
    senderId := o.senderId.read m, senderKey := o.senderKey.read m, ssn := o.ssn
    recipientId := o.recipientId.read m, recipientKey := o.recipientKey.read m
    window := o.window, notifNum := o.notifNum, notifInit := o.notifInit
    nonce := o.nonce.read m, inter := o.inter, echoVal := o.echoVal.read m, echo := o.echo }

/-- inc/oscore/nvm.h:23-27 `struct nvm_key_t`: sender ID, recipient ID, ID Context (the master secret
is not part of it) -/
abbrev NvmKey := Bytes × Bytes × Bytes

/-- coap2oscore.c:462-464 and security_context.c:145-147: the key under which the sequence number of
a context is stored -/
def nvmKeyOf (c : Ctx) : NvmKey := (c.senderId, c.recipientId, c.idContext)

/-- security_context.c:104-165 `oscore_context_init` on the object of context `k`, statement by
statement.  The state is the memory; on success the pointers and scalars of the object are returned.
`nvmRead` is the user's `nvm_read_ssn`. -/
def initObj (cfg : Cfg) (C : Crypto) (k : Nat) (p : ParamRefs) (nvmRead : NvmKey → R Nat) :
    M Mem CtxObj := do
  if p.aeadAlg ≠ 10 then M.fail .oscore_invalid_algorithm_aead
  else if p.hkdf ≠ -10 then M.fail .oscore_invalid_algorithm_hkdf
  else do
    -- security_context.c:122-128: id_context is a copy of the caller's byte_array, i.e. of the pointer
    let m ← M.get
    let iv ← M.lift (derive cfg C (p.vals m) [] .iv)
    M.modify (·.put (.inside k .commonIv) iv)
    -- security_context.c:131-139: the recipient ID is copied (memcpy without a check, 8 bytes)
    let m ← M.get
    if p.recipientId.len > 8 then M.lift .ub
    else do
      M.modify (·.put (.inside k .recipientId) (p.recipientId.read m))
      let rid : Ref := ⟨.inside k .recipientId, p.recipientId.len⟩
      let m ← M.get
      let rk ← M.lift (derive cfg C (p.vals m) (rid.read m) .key)
      M.modify (·.put (.inside k .recipientKey) rk)
      -- security_context.c:142-151: sender_id is a copy of the caller's pointer
      let m ← M.get
      let ssn ← M.lift (ssnInit cfg
        (nvmRead (p.senderId.read m, rid.read m, p.idContext.read m)) p.fresh)
      let sk ← M.lift (derive cfg C (p.vals m) (p.senderId.read m) .key)
      M.modify (·.put (.inside k .senderKey) sk)
      -- security_context.c:153-164
      pure { fresh := p.fresh, idContext := p.idContext, commonIv := ⟨.inside k .commonIv, 13⟩
             senderId := p.senderId, senderKey := ⟨.inside k .senderKey, 16⟩, ssn := ssn
             recipientId := rid, recipientKey := ⟨.inside k .recipientKey, 16⟩
             window := ReplayWindow.init cfg.windowSize, notifNum := 0, notifInit := false
             nonce := ⟨.inside k .nonce, 13⟩, inter := Table.init cfg.interactions
             echoVal := ⟨.inside k .echo, 12⟩
             echo := if p.fresh then .synchronized else .reboot }

/-- A program that uses the library: its memory, its context objects (`none`: not initialised, or the
initialisation failed), the non-volatile storage of its `nvm_write_ssn`/`nvm_read_ssn` (one cell per
`nvm_key_t`), and per context the encryptions done with it. Inc/oscore.h. -/
structure Prog where
  mem : Mem
  ctx : Nat → Option CtxObj
  nvm : NvmKey → Nat
  log : Nat → List EncCall

/-- update of a function at one point (auxiliary, no counterpart in the C code) -/
def upd {α β : Type} [DecidableEq α] (f : α → β) (a : α) (b : β) : α → β := fun x => if x = a then b else f x

/-- what a call on context `k` (object `o`) works on (auxiliary, no counterpart in the C code) -/
def Prog.world (s : Prog) (k : Nat) (o : CtxObj) : World :=
  ⟨view o s.mem, s.nvm (nvmKeyOf (view o s.mem)), s.log k⟩

/-- coap2oscore.c:562, oscore2coap.c:306 (`byte_array_cpy(&c->rrc.nonce, …)`: the bytes go to where
the reference points, the length is set), option.c:81-94 `cache_echo_val` (the same for the
Echo value) and the scalar fields.  The other byte strings are never written by a call
(`step_identity`). -/
def storeObj (o : CtxObj) (c : Ctx) : CtxObj :=
  { o with ssn := c.ssn, window := c.window, notifNum := c.notifNum, notifInit := c.notifInit,
           nonce := ⟨o.nonce.obj, c.nonce.length⟩, inter := c.inter,
           echoVal := ⟨o.echoVal.obj, c.echoVal.length⟩, echo := c.echo }

/-- the memory after a call: nonce and Echo value written through their references
(the writes through the pointers of inc/oscore/security_context.h:33-100) -/
def storeMem (m : Mem) (o : CtxObj) (c : Ctx) : Mem :=
  (m.put o.nonce.obj c.nonce).put o.echoVal.obj c.echoVal

/-- the program's `nvm_read_ssn` (nvm.c:52-73 calls it): an error, or the stored number -/
def readNvm (s : Prog) (nvmR : Option Err) (key : NvmKey) : R Nat :=
  match nvmR with | some e => .err e | none => .ok (s.nvm key)

/-- What the program does: initialise a context, call `coap2oscore`/`oscore2coap` with it, write to
one of its own objects (also: free it and let it be reused), copy one `struct context` over another
(`*dst = *src`). The functions of inc/oscore.h:98-134. -/
inductive Ev where
  | init (k : Nat) (p : ParamRefs) (nvmR : Option Err)
  | call (k : Nat) (op : Op)
  | write (n : Nat) (b : Bytes)
  | copy (src dst : Nat)
  deriving DecidableEq, Repr

/-- one event: result of the call (if it is one) and the state after it (inc/oscore.h:98-134) -/
def Prog.step (cfg : Cfg) (C : Crypto) (s : Prog) : Ev → R Bytes × Prog
  | .init k p nvmR =>
    match initObj cfg C k p (readNvm s nvmR) s.mem with
    | (.ok o, m) => (.ok [], { s with mem := m, ctx := upd s.ctx k (some o) })
    | (.err e, m) => (.err e, { s with mem := m, ctx := upd s.ctx k none })
    | (.ub, m) => (.ub, { s with mem := m, ctx := upd s.ctx k none })
  | .call k op =>
    match s.ctx k with
    | none => (.ub, s)
    | some o =>
      let w := s.world k o
      let r := Verif.step cfg C w op
      (r.1, { mem := storeMem s.mem o r.2.ctx, ctx := upd s.ctx k (some (storeObj o r.2.ctx)),
              nvm := upd s.nvm (nvmKeyOf w.ctx) r.2.nvm, log := upd s.log k r.2.log })
  | .write n b => (.ok [], { s with mem := s.mem.set (.caller n) b })
  | .copy src dst =>
    (.ok [], { s with
      mem := fun x => match x with
        | .inside k b => if k = dst then s.mem (.inside src b) else s.mem x
        | .caller _ => s.mem x
      ctx := upd s.ctx dst (s.ctx src) })

/-- a history of the program (inc/oscore.h:98-134) -/
def Prog.run (cfg : Cfg) (C : Crypto) (s : Prog) (h : List Ev) : Prog :=
  h.foldl (fun s e => (s.step cfg C e).2) s

/-- the results of the calls made with context `k`, in order (inc/oscore.h:98-134) -/
def Prog.results (cfg : Cfg) (C : Crypto) (k : Nat) : Prog → List Ev → List (R Bytes)
  | _, [] => []
  | s, e :: h =>
    (match e with
      | .call j _ => if j = k then [(s.step cfg C e).1] else []
      | _ => []) ++ Prog.results cfg C k (s.step cfg C e).2 h

end Verif.Own
