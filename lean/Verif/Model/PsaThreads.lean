import Verif.Model.PsaStore
/-
src/common/crypto_wrapper.c (MBEDTLS configuration) used by several threads at once: the functions of
`Model/PsaStore.lean` as programs that are interrupted after every call of the PSA API, and the
interleavings of such programs.  A single call of the PSA API is atomic (MBEDTLS_THREADING_C), everything
between two calls touches only the stack of the thread (src/common/crypto_wrapper.c has no static data
outside the mock code).
-/
namespace Verif.Psa
open Verif Verif.Edhoc

/-- The rest of a function: it has returned, or its next call of the PSA API and what it does with the
outcome. Auxiliary, no counterpart in the C code. -/
inductive Prog (α : Type) : Type 1 where
  | done (r : R α)
  | call {β : Type} (x : Psa β) (k : Option β → Prog α)

namespace Prog
variable {α β : Type}

/-- `TRY` (inc/common/oscore_edhoc_error.h:86-93) -/
def bind : Prog α → (α → Prog β) → Prog β
  | done (.ok a), f => f a
  | done (.err er), _ => done (.err er)
  | done .ub, _ => done .ub
  | call x k, f => call x fun r => (k r).bind f

instance : Monad Prog where
  pure a := done (.ok a)
  bind := Prog.bind

/-- the function run without interruption (auxiliary, no counterpart in the C code) -/
def alone : Prog α → M St α
  | done r => M.lift r
  | call x k => fun s => (k (x s).1).alone (x s).2

/-- the function up to and including its next call of the PSA API (auxiliary, no counterpart in the C code) -/
def next : Prog α → St → Prog α × St
  | done r, s => (done r, s)
  | call x k, s => (k (x s).1, (x s).2)

/-- the function has returned (auxiliary, no counterpart in the C code) -/
def result : Prog α → Option (R α)
  | done r => some r
  | call _ _ => none
end Prog

/-- crypto_wrapper.c:61-72 `TRY_EXPECT_PSA` -/
def tryPsaP (e : Env) (kid : Nat) (er : Err) (x : Psa α) : Prog α :=
  .call x fun r => match r with
    | some a => .done (.ok a)
    | none => if kid ≠ 0 then .call (psaDestroy e kid) fun _ => .done (.err er) else .done (.err er)

/-- inc/common/oscore_edhoc_error.h:96-104 `TRY_EXPECT` around a PSA call -/
def tryExpectP (x : Psa α) : Prog α :=
  .call x fun r => match r with
    | some a => .done (.ok a)
    | none => .done (.err .unexpected_result_from_ext_lib)

/-- crypto_wrapper.c:61-72 `TRY_EXPECT_PSA` around a value that is not the status of a PSA call -/
def checkP (e : Env) (kid : Nat) (er : Err) (b : Bool) : Prog Unit :=
  if b then .done (.ok ())
  else if kid ≠ 0 then .call (psaDestroy e kid) fun _ => .done (.err er) else .done (.err er)

/-- crypto_wrapper.c:173-254 `aead`, ENCRYPT -/
def aeadEncryptP (e : Env) (key nonce aad : Bytes) (t : Nat) (pt : Bytes) (outCap : Nat) : Prog (Bytes × Bytes) := do
  tryPsaP e 0 ext (psaInit e)
  let kid ← tryPsaP e 0 ext (psaImport e (.aes (key.length * 8) t) key)
  let c ← tryPsaP e kid ext (psaUse e kid (useAeadEnc e nonce aad t pt ((pt.length + t) % 2 ^ 32)))
  let tag ← .done (tagOf c t outCap)
  tryExpectP (psaDestroy e kid)
  pure (c, tag)

/-- crypto_wrapper.c:173-254 `aead`, DECRYPT -/
def aeadDecryptP (e : Env) (key nonce aad : Bytes) (t : Nat) (ct out : Bytes) : Prog Bytes := do
  tryPsaP e 0 ext (psaInit e)
  let kid ← tryPsaP e 0 ext (psaImport e (.aes (key.length * 8) t) key)
  let p ← tryPsaP e kid ext (psaUse e kid (useAeadDec e nonce aad t ct out.length))
  tryExpectP (psaDestroy e kid)
  pure (p ++ out.drop p.length)

/-- crypto_wrapper.c:275-356 `sign`, branch ES256 -/
def signP256P (e : Env) (sk msg : Bytes) : Prog Bytes := do
  tryPsaP e 0 ext (psaInit e)
  let kid ← tryPsaP e 0 ext (psaImport e (.signPair (sk.length * 8)) sk)
  let s ← tryPsaP e kid ext (psaUse e kid (useSign e msg))
  checkP e kid .sign_failed (s.length == 64)
  tryExpectP (psaDestroy e kid)
  pure s

/-- crypto_wrapper.c:275-356 `sign`; the EdDSA branch makes no PSA call -/
def signP (e : Env) (a : SignAlg) (sk pk msg : Bytes) : Prog Bytes :=
  match a with
  | .eddsa =>
    if e.compact then .done (if sk.length < 32 ∨ pk.length < 32 then .ub else .ok (e.lib.edSign sk pk msg))
    else .done (.err .unsupported_ecdh_curve)
  | .es256 => signP256P e sk msg

/-- crypto_wrapper.c:358-430 `verify`, branch ES256: any status but PSA_SUCCESS means "not verified" -/
def verifyP256P (e : Env) (pk msg sgn : Bytes) : Prog Bool := do
  tryPsaP e 0 ext (psaInit e)
  let kid ← tryPsaP e 0 ext (psaImport e (.verifyKey 256) pk)
  let r ← Prog.call (psaUse e kid (useVerify e msg sgn)) fun r => .done (.ok r.isSome)
  tryExpectP (psaDestroy e kid)
  pure r

/-- crypto_wrapper.c:358-430 `verify` -/
def verifyP (e : Env) (a : SignAlg) (pk msg sgn : Bytes) : Prog Bool :=
  match a with
  | .eddsa =>
    if e.compact then .done (if sgn.length < 64 ∨ pk.length < 32 then .ub else .ok (e.lib.edVerify pk msg sgn))
    else .done (.err .crypto_operation_not_implemented)
  | .es256 => verifyP256P e pk msg sgn

/-- crypto_wrapper.c:432-490 `hkdf_extract` (SHA_256) -/
def hkdfExtractP (e : Env) (salt ikm : Bytes) : Prog Bytes := do
  tryPsaP e 0 ext (psaInit e)
  let kid ← tryPsaP e 0 ext (psaImport e .hmac (saltKey salt))
  let p ← tryPsaP e kid ext (psaUse e kid (useMac e ikm))
  tryExpectP (psaDestroy e kid)
  pure p

/-- crypto_wrapper.c:553-570: the loop of `hkdf_expand` -/
def expandLoopP (e : Env) (kid : Nat) (info : Bytes) (L : Nat) : Nat → Nat → Bytes → Bool → Bytes → Prog Bytes
  | 0, _, _, _, out => pure out
  | n + 1, i, t, first, out => do
    let t' ← tryPsaP e kid ext (psaUse e kid (useMac e ((if first then [] else t) ++ info ++ [byte i])))
    expandLoopP e kid info L n (i + 1) t' false (out ++ (if L < i * 32 then t'.take (L % 32) else t'))

/-- crypto_wrapper.c:528-572: `hkdf_expand` after the checks of the output length -/
def expandBodyP (cfg : Cfg) (e : Env) (prk info : Bytes) (L iterations : Nat) : Prog Bytes := do
  tryPsaP e 0 ext (psaInit e)
  let kid ← tryPsaP e 0 ext (psaImport e .hmac prk)
  checkP e kid ext (decide (32 + info.length + 1 ≤ cfg.infoMax + 32 + 1))
  let out ← expandLoopP e kid info L iterations 1 (List.replicate 32 0) true []
  tryExpectP (psaDestroy e kid)
  pure out

/-- crypto_wrapper.c:492-573 `hkdf_expand` (SHA_256), `L` = `out->len` -/
def hkdfExpandP (cfg : Cfg) (e : Env) (prk info : Bytes) (L : Nat) : Prog Bytes :=
  if (L + 31) % 2 ^ 32 / 32 > 255 then .done (.err .hkdf_failed)
  else expandBodyP cfg e prk info L ((L + 31) % 2 ^ 32 / 32)

/-- crypto_wrapper.c:575-583 `hkdf_sha_256` -/
def hkdfSha256P (cfg : Cfg) (e : Env) (secret salt info : Bytes) (L : Nat) : Prog Bytes := do
  let prk ← hkdfExtractP e salt secret
  hkdfExpandP cfg e prk info L

/-- crypto_wrapper.c:646-665: decompression of the peer's key (on the stack) and `psa_raw_key_agreement` -/
def agreeStepP (e : Env) (kid : Nat) (junk : P256.Limbs) (pk : Bytes) (size : Nat) : Prog (Option Bytes) :=
  match P256.uncompressPoint junk pk 65 with
  | .ub => .done .ub
  | .err _ => .done (.ok none)
  | .ok q => .call (psaUse e kid (useAgree e q size)) fun r => .done (.ok r)

/-- crypto_wrapper.c:666-668 `cleanup:` -/
def cleanupP (e : Env) (kid : Nat) : Prog Unit :=
  if kid ≠ 0 then tryExpectP (psaDestroy e kid) else .done (.ok ())

/-- crypto_wrapper.c:622-671 `shared_secret_derive`, branch P256 -/
def sharedP256P (e : Env) (junk : P256.Limbs) (sk pk : Bytes) : Prog Bytes := do
  tryPsaP e 0 ext (psaInit e)
  let kid ← tryPsaP e 0 ext (psaImport e (.dhPair 0) sk)
  let r ← agreeStepP e kid junk pk sk.length
  cleanupP e kid
  .done (resultOf r)

/-- crypto_wrapper.c:585-672 `shared_secret_derive` -/
def sharedSecretP (e : Env) (junk : P256.Limbs) (a : EcdhAlg) (sk pk : Bytes) : Prog Bytes :=
  match a with
  | .x25519 =>
    if e.compact then .done (if sk.length < 32 ∨ pk.length < 32 then .ub else .ok (e.lib.x25519 sk pk))
    else .done (.err .crypto_operation_not_implemented)
  | .p256 => sharedP256P e junk sk pk

/-- crypto_wrapper.c:687-702 `ephemeral_dh_key_gen`, branch X25519 with COMPACT25519 -/
def keyGenX25519P (e : Env) (seed : UInt32) (junk : Bytes) : Prog (Bytes × Bytes) := do
  let h ← tryExpectP (psaHash e (KeyGen.seedBytes seed))
  if h.length ≠ 32 then .done (.err .sha_failed) else pure (e.lib.x25519Gen junk)

/-- crypto_wrapper.c:728-763 `ephemeral_dh_key_gen`, branch P256 after the check of `pk->len` -/
def keyGenP256P (e : Env) : Prog (Bytes × Bytes) := do
  tryPsaP e 0 ext (psaInit e)
  let kid ← tryPsaP e 0 ext (psaGenerate e (.dhPair 256))
  let sk ← tryPsaP e kid ext (psaUse e kid useExport)
  let pub ← tryPsaP e kid ext (psaUse e kid (usePub e))
  checkP e kid ext (pub.length == 65)
  tryExpectP (psaDestroy e kid)
  pure (sk, (pub.drop 1).take 32)

/-- crypto_wrapper.c:674-768 `ephemeral_dh_key_gen` -/
def keyGenP (e : Env) (a : EcdhAlg) (seed : UInt32) (junk sk0 pk0 : Bytes) : Prog (Bytes × Bytes) :=
  match a with
  | .x25519 => if e.compact then keyGenX25519P e seed junk else .done (.ok (sk0, pk0))
  | .p256 => if pk0.length < 32 then .done (.err .buffer_to_small) else keyGenP256P e

/-- crypto_wrapper.c:770-797 `hash` (SHA_256) -/
def hashP (e : Env) (m : Bytes) : Prog Bytes := do
  let h ← tryExpectP (psaHash e m)
  if h.length ≠ 32 then .done (.err .sha_failed) else pure h

/-- result of a call as `Out` (auxiliary, no counterpart in the C code) -/
def outP (f : α → Out) (p : Prog α) : Prog Out := p >>= fun a => pure (f a)

/-- the functions of inc/common/crypto_wrapper.h by name -/
def program (cfg : Cfg) (e : Env) : Call → Prog Out
  | .aeadEnc key nonce aad t pt outCap => outP (fun p => .pair p.1 p.2) (aeadEncryptP e key nonce aad t pt outCap)
  | .aeadDec key nonce aad t ct out => outP .bytes (aeadDecryptP e key nonce aad t ct out)
  | .sign a sk pk msg => outP .bytes (signP e a sk pk msg)
  | .verify a pk msg sgn => outP .flag (verifyP e a pk msg sgn)
  | .extract salt ikm => outP .bytes (hkdfExtractP e salt ikm)
  | .expand prk info L => outP .bytes (hkdfExpandP cfg e prk info L)
  | .hkdf secret salt info L => outP .bytes (hkdfSha256P cfg e secret salt info L)
  | .dh a junk sk pk => outP .bytes (sharedSecretP e junk a sk pk)
  | .keyGen a seed junk sk0 pk0 => outP (fun p => .pair p.1 p.2) (keyGenP e a seed junk sk0 pk0)
  | .hash m => outP .bytes (hashP e m)

/-- A call that was started: what was called and how far it has got.  Calls of the functions of
inc/common/crypto_wrapper.h:37-130 by any number of threads. -/
structure Job where
  call : Call
  rest : Prog Out

/-- The device: the PSA library, the calls made so far, and the keys the application itself keeps in the
key store. Auxiliary, no counterpart in the C code. -/
structure World where
  st : St := {}
  jobs : List Job := []
  app : List Slot := []

/-- What can happen next. -/
inductive Event where
  /-- a thread calls a function of inc/common/crypto_wrapper.h -/
  | start (c : Call)
  /-- the `i`-th such call goes on, up to and including its next call of the PSA API -/
  | go (i : Nat)
  /-- the application stores a key of its own -/
  | appImport (k : Kind) (b : Bytes)
  /-- the application destroys a key of its own -/
  | appDestroy (id : Nat)

/-- one event (auxiliary, no counterpart in the C code) -/
def World.step (cfg : Cfg) (e : Env) (w : World) : Event → World
  | .start c => { w with jobs := w.jobs ++ [⟨c, program cfg e c⟩] }
  | .go i =>
    match w.jobs[i]? with
    | none => w
    | some j => { w with st := (j.rest.next w.st).2, jobs := w.jobs.set i { j with rest := (j.rest.next w.st).1 } }
  | .appImport k b =>
    match psaImport e k b w.st with
    | (some id, s) => { w with st := s, app := ⟨id, k, b⟩ :: w.app }
    | (none, s) => { w with st := s }
  | .appDestroy id =>
    if w.app.any (fun k => k.id == id) then
      match psaDestroy e id w.st with
      | (some _, s) => { w with st := s, app := w.app.filter (fun k => !(k.id == id)) }
      | (none, s) => { w with st := s }
    else w

/-- a history of the device (auxiliary, no counterpart in the C code) -/
def World.after (cfg : Cfg) (e : Env) (w : World) : List Event → World
  | [] => w
  | v :: l => (w.step cfg e v).after cfg e l

end Verif.Psa
