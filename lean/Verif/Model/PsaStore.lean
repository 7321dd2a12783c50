import Verif.Model.EdhocBase
import Verif.Model.P256
import Verif.Model.KeyGen
/-
src/common/crypto_wrapper.c, MBEDTLS configuration (TINYCRYPT not defined): every function as a sequence
of calls of the PSA API.  The PSA library is a set of pure functions (`Lib`), a key store, and an
adversary (`Env`) that decides which calls fail although their arguments are fine (no memory, driver or
communication failure, ...).  The mock code under EDHOC_MOCK_CRYPTO_WRAPPER is not modelled.
-/
namespace Verif.Psa
open Verif Verif.Edhoc

/-- The key attributes set before `psa_import_key` / `psa_generate_key`: type, bits, permitted algorithm
and usage (crypto_wrapper.c:216-223, 324-334, 386-395, 467-470, 534-537, 635-639, 730-739). -/
inductive Kind where
  /-- PSA_KEY_TYPE_AES for CCM with this tag length -/
  | aes (bits tagLen : Nat)
  /-- PSA_KEY_TYPE_HMAC for HMAC-SHA-256 -/
  | hmac
  /-- secp256r1 key pair for ECDSA with SHA-256 -/
  | signPair (bits : Nat)
  /-- secp256r1 public key for ECDSA with SHA-256 -/
  | verifyKey (bits : Nat)
  /-- secp256r1 key pair for ECDH; `bits` = 0 when the code does not set them -/
  | dhPair (bits : Nat)
  deriving DecidableEq, Repr

/-- What the libraries compute.  The first argument of `sign` and `generate` is the randomness.
The functions called from src/common/crypto_wrapper.c. -/
structure Lib where
  /-- `psa_import_key` accepts this key material for these attributes -/
  keyOk : Kind → Bytes → Bool
  /-- AES-CCM: key, nonce, AAD, tag length, input -/
  aeadEnc : Bytes → Bytes → Bytes → Nat → Bytes → Option Bytes
  aeadDec : Bytes → Bytes → Bytes → Nat → Bytes → Option Bytes
  /-- HMAC-SHA-256: key, message -/
  mac : Bytes → Bytes → Bytes
  /-- ECDSA on P-256: secret key, message -/
  sign : Nat → Bytes → Bytes → Option Bytes
  /-- ECDSA on P-256: public key, message, signature -/
  verify : Bytes → Bytes → Bytes → Bool
  /-- ECDH on P-256: secret key, point -/
  agree : Bytes → Bytes → Option Bytes
  /-- a random P-256 secret key -/
  generate : Nat → Bytes
  /-- the uncompressed public key of a P-256 secret key -/
  pub : Bytes → Bytes
  sha256 : Bytes → Bytes
  /-- compact25519: `edsign_sign` (secret key, public key, message) -/
  edSign : Bytes → Bytes → Bytes → Bytes
  /-- compact25519: `edsign_verify` (64 bytes of signature, 32 bytes of key, message) -/
  edVerify : Bytes → Bytes → Bytes → Bool
  /-- compact25519: X25519 (secret key, public key) -/
  x25519 : Bytes → Bytes → Bytes
  /-- compact25519: `compact_x25519_keygen` as a function of the random seed -/
  x25519Gen : Bytes → Bytes × Bytes

/-- The library, its key slots and what goes wrong.  `fail n`: the n-th call since boot fails
spontaneously; `failDestroy n`: the same for a `psa_destroy_key` (separate, because it decides whether
a key can stay behind). The library behind src/common/crypto_wrapper.c. -/
structure Env where
  lib : Lib
  /-- number of key slots -/
  cap : Nat
  /-- identifier given to a new key when these are in use -/
  alloc : List Nat → Nat
  fail : Nat → Bool
  failDestroy : Nat → Bool
  /-- `psa_hash_compute` fails when `psa_crypto_init` has not been called (the PSA specification allows
  it; Mbed TLS without drivers does not) -/
  hashNeedsInit : Bool
  /-- COMPACT25519 is defined -/
  compact : Bool

/-- PSA library: a key -/
structure Slot where
  id : Nat
  kind : Kind
  bytes : Bytes
  deriving DecidableEq, Repr

/-- State of the PSA library. The library behind src/common/crypto_wrapper.c. -/
structure St where
  /-- the keys in the key store -/
  slots : List Slot := []
  /-- `psa_crypto_init` succeeded -/
  inited : Bool := false
  /-- number of calls so far -/
  clock : Nat := 0
  deriving DecidableEq, Repr

/-- A call of the library; `none` is any status but PSA_SUCCESS. Src/common/crypto_wrapper.c. -/
abbrev Psa (α : Type) := St → Option α × St

/-- auxiliary, no counterpart in the C code -/
def tick (s : St) : St := { s with clock := s.clock + 1 }
/-- PSA library: looking a key up -/
def find (s : St) (id : Nat) : Option Slot := s.slots.find? (fun k => k.id == id)

/-- `psa_crypto_init` (called at src/common/crypto_wrapper.c:217, 323, 384, 463, 531, 623, 727) -/
def psaInit (e : Env) : Psa Unit := fun s =>
  if e.fail s.clock then (none, tick s) else (some (), { tick s with inited := true })

/-- a new key in the store (PSA library, for src/common/crypto_wrapper.c:230, 740) -/
def addKey (e : Env) (s : St) (k : Kind) (b : Bytes) : Option Nat × St :=
  let id := e.alloc (s.slots.map (·.id))
  (some id, { tick s with slots := ⟨id, k, b⟩ :: s.slots })

/-- a call that creates a key cannot succeed (PSA library, for src/common/crypto_wrapper.c:230, 740) -/
def full (e : Env) (s : St) : Bool := e.fail s.clock || !s.inited || decide (e.cap ≤ s.slots.length)

/-- `psa_import_key`; on failure the identifier is PSA_KEY_ID_NULL
(called at src/common/crypto_wrapper.c:230, 339, 397, 473, 478, 539, 633) -/
def psaImport (e : Env) (k : Kind) (b : Bytes) : Psa Nat := fun s =>
  if full e s || !e.lib.keyOk k b then (none, tick s) else addKey e s k b

/-- `psa_generate_key` (called at src/common/crypto_wrapper.c:740) -/
def psaGenerate (e : Env) (k : Kind) : Psa Nat := fun s =>
  if full e s then (none, tick s) else addKey e s k (e.lib.generate s.clock)

/-- `psa_destroy_key` (called at src/common/crypto_wrapper.c:68, 250, 351, 407, 487, 570, 666, 761) -/
def psaDestroy (e : Env) (id : Nat) : Psa Unit := fun s =>
  if e.failDestroy s.clock || (find s id).isNone then (none, tick s)
  else (some (), { tick s with slots := s.slots.filter (fun k => !(k.id == id)) })

/-- an operation `f` (randomness, key) on a key in the store (PSA library, for the calls below) -/
def psaUse (e : Env) (id : Nat) (f : Nat → Slot → Option α) : Psa α := fun s =>
  (if e.fail s.clock || !s.inited then none else (find s id).bind (f s.clock), tick s)

/-- `psa_hash_compute` with SHA-256 (called at src/common/crypto_wrapper.c:689, 784) -/
def psaHash (e : Env) (m : Bytes) : Psa Bytes := fun s =>
  (if e.fail s.clock || (e.hashNeedsInit && !s.inited) then none else some (e.lib.sha256 m), tick s)

/-- no result longer than the buffer: PSA_ERROR_BUFFER_TOO_SMALL (PSA library, for the calls below) -/
def fits (size : Nat) (x : Option Bytes) : Option Bytes := x.bind fun b => if b.length ≤ size then some b else none

/-- `psa_aead_encrypt` with CCM and tag length `t` into a buffer of `size` bytes (called at src/common/crypto_wrapper.c:243) -/
def useAeadEnc (e : Env) (nonce aad : Bytes) (t : Nat) (pt : Bytes) (size : Nat) (_ : Nat) (k : Slot) : Option Bytes :=
  match k.kind with
  | .aes _ t' => if t' = t then fits size (e.lib.aeadEnc k.bytes nonce aad t pt) else none
  | _ => none

/-- `psa_aead_decrypt` (called at src/common/crypto_wrapper.c:236) -/
def useAeadDec (e : Env) (nonce aad : Bytes) (t : Nat) (ct : Bytes) (size : Nat) (_ : Nat) (k : Slot) : Option Bytes :=
  match k.kind with
  | .aes _ t' => if t' = t then fits size (e.lib.aeadDec k.bytes nonce aad t ct) else none
  | _ => none

/-- `psa_mac_compute` with HMAC-SHA-256 into 32 bytes (called at src/common/crypto_wrapper.c:483, 557) -/
def useMac (e : Env) (m : Bytes) (_ : Nat) (k : Slot) : Option Bytes :=
  match k.kind with
  | .hmac => fits 32 (some (e.lib.mac k.bytes m))
  | _ => none

/-- `psa_sign_message` into 64 bytes (called at src/common/crypto_wrapper.c:343) -/
def useSign (e : Env) (m : Bytes) (rnd : Nat) (k : Slot) : Option Bytes :=
  match k.kind with
  | .signPair _ => fits 64 (e.lib.sign rnd k.bytes m)
  | _ => none

/-- `psa_verify_message` (called at src/common/crypto_wrapper.c:400) -/
def useVerify (e : Env) (m sgn : Bytes) (_ : Nat) (k : Slot) : Option Unit :=
  match k.kind with
  | .verifyKey _ => if e.lib.verify k.bytes m sgn then some () else none
  | _ => none

/-- `psa_raw_key_agreement` into `size` bytes (called at src/common/crypto_wrapper.c:658) -/
def useAgree (e : Env) (q : Bytes) (size : Nat) (_ : Nat) (k : Slot) : Option Bytes :=
  match k.kind with
  | .dhPair _ => fits size (e.lib.agree k.bytes q)
  | _ => none

/-- `psa_export_key` into 32 bytes (called at src/common/crypto_wrapper.c:747) -/
def useExport (_ : Nat) (k : Slot) : Option Bytes := fits 32 (some k.bytes)

/-- `psa_export_public_key` into 65 bytes (called at src/common/crypto_wrapper.c:752) -/
def usePub (e : Env) (_ : Nat) (k : Slot) : Option Bytes := fits 65 (some (e.lib.pub k.bytes))

/-- crypto_wrapper.c:61-72 `TRY_EXPECT_PSA`: on failure the key (if any) is destroyed, the status of
that call ignored, and `er` returned -/
def tryPsa (e : Env) (kid : Nat) (er : Err) (x : Psa α) : M St α := fun s =>
  match x s with
  | (some a, s') => (.ok a, s')
  | (none, s') => (.err er, if kid ≠ 0 then (psaDestroy e kid s').2 else s')

/-- inc/common/oscore_edhoc_error.h:96-104 `TRY_EXPECT` around a PSA call -/
def tryExpect (x : Psa α) : M St α := fun s =>
  match x s with
  | (some a, s') => (.ok a, s')
  | (none, s') => (.err .unexpected_result_from_ext_lib, s')

/-- `TRY_EXPECT_PSA` around a value that is not the status of a PSA call (src/common/crypto_wrapper.c:61-72) -/
def check (b : Bool) : Psa Unit := fun s => (if b then some () else none, s)

/-- inc/common/oscore_edhoc_error.h:17-82 -/
abbrev ext := Err.unexpected_result_from_ext_lib

/-- the memory accesses after `psa_aead_encrypt`: the ciphertext is written to the object at `out->ptr`
(`outCap` bytes), then the last `tag->len` bytes of what was written are copied (src/common/crypto_wrapper.c:240-249) -/
def tagOf (c : Bytes) (t outCap : Nat) : R Bytes :=
  if outCap < c.length ∨ c.length < t then .ub else .ok (c.drop (c.length - t))

/-- crypto_wrapper.c:173-254 `aead`, ENCRYPT: the contents of `out` and of `tag`.  `out->len` is not
used: the buffer size passed is `in->len + tag->len` (uint32_t). -/
def aeadEncrypt (e : Env) (key nonce aad : Bytes) (t : Nat) (pt : Bytes) (outCap : Nat) : M St (Bytes × Bytes) := do
  tryPsa e 0 ext (psaInit e)
  let kid ← tryPsa e 0 ext (psaImport e (.aes (key.length * 8) t) key)
  let c ← tryPsa e kid ext (psaUse e kid (useAeadEnc e nonce aad t pt ((pt.length + t) % 2 ^ 32)))
  let tag ← M.lift (tagOf c t outCap)
  tryExpect (psaDestroy e kid)
  pure (c, tag)

/-- crypto_wrapper.c:173-254 `aead`, DECRYPT: the contents of the `out->len` bytes at `out->ptr` (`out`
before the call); the number of bytes the library wrote is not looked at. -/
def aeadDecrypt (e : Env) (key nonce aad : Bytes) (t : Nat) (ct out : Bytes) : M St Bytes := do
  tryPsa e 0 ext (psaInit e)
  let kid ← tryPsa e 0 ext (psaImport e (.aes (key.length * 8) t) key)
  let p ← tryPsa e kid ext (psaUse e kid (useAeadDec e nonce aad t ct out.length))
  tryExpect (psaDestroy e kid)
  pure (p ++ out.drop p.length)

/-- crypto_wrapper.c:275-356 `sign`, branch ES256 -/
def signP256 (e : Env) (sk msg : Bytes) : M St Bytes := do
  tryPsa e 0 ext (psaInit e)
  let kid ← tryPsa e 0 ext (psaImport e (.signPair (sk.length * 8)) sk)
  let s ← tryPsa e kid ext (psaUse e kid (useSign e msg))
  tryPsa e kid .sign_failed (check (s.length == 64))
  tryExpect (psaDestroy e kid)
  pure s

/-- crypto_wrapper.c:275-356 `sign`; `edsign_sign` reads 32 bytes of both keys -/
def sign (e : Env) (a : SignAlg) (sk pk msg : Bytes) : M St Bytes :=
  match a with
  | .eddsa =>
    if e.compact then M.lift (if sk.length < 32 ∨ pk.length < 32 then .ub else .ok (e.lib.edSign sk pk msg))
    else M.fail .unsupported_ecdh_curve
  | .es256 => signP256 e sk msg

/-- crypto_wrapper.c:398-405: any status but PSA_SUCCESS means "not verified" -/
def verifyStep (e : Env) (kid : Nat) (msg sgn : Bytes) : M St Bool := fun s =>
  let r := psaUse e kid (useVerify e msg sgn) s
  (.ok r.1.isSome, r.2)

/-- crypto_wrapper.c:358-430 `verify`, branch ES256: `*result` -/
def verifyP256 (e : Env) (pk msg sgn : Bytes) : M St Bool := do
  tryPsa e 0 ext (psaInit e)
  let kid ← tryPsa e 0 ext (psaImport e (.verifyKey 256) pk)
  let r ← verifyStep e kid msg sgn
  tryExpect (psaDestroy e kid)
  pure r

/-- crypto_wrapper.c:358-430 `verify` -/
def verify (e : Env) (a : SignAlg) (pk msg sgn : Bytes) : M St Bool :=
  match a with
  | .eddsa =>
    if e.compact then M.lift (if sgn.length < 64 ∨ pk.length < 32 then .ub else .ok (e.lib.edVerify pk msg sgn))
    else M.fail .crypto_operation_not_implemented
  | .es256 => verifyP256 e pk msg sgn

/-- crypto_wrapper.c:472-482: the HMAC key of `hkdf_extract` -/
def saltKey (salt : Bytes) : Bytes := if salt.length = 0 then List.replicate 32 0 else salt

/-- crypto_wrapper.c:432-490 `hkdf_extract` (SHA_256) -/
def hkdfExtract (e : Env) (salt ikm : Bytes) : M St Bytes := do
  tryPsa e 0 ext (psaInit e)
  let kid ← tryPsa e 0 ext (psaImport e .hmac (saltKey salt))
  let p ← tryPsa e kid ext (psaUse e kid (useMac e ikm))
  tryExpect (psaDestroy e kid)
  pure p

/-- crypto_wrapper.c:553-570: the loop of `hkdf_expand`; arguments as in `Verif.expandLoop` -/
def expandLoop (e : Env) (kid : Nat) (info : Bytes) (L : Nat) : Nat → Nat → Bytes → Bool → Bytes → M St Bytes
  | 0, _, _, _, out => pure out
  | n + 1, i, t, first, out => do
    let t' ← tryPsa e kid ext (psaUse e kid (useMac e ((if first then [] else t) ++ info ++ [byte i])))
    expandLoop e kid info L n (i + 1) t' false (out ++ (if L < i * 32 then t'.take (L % 32) else t'))

/-- crypto_wrapper.c:528-572: `hkdf_expand` after the checks of the output length -/
def expandBody (cfg : Cfg) (e : Env) (prk info : Bytes) (L iterations : Nat) : M St Bytes := do
  tryPsa e 0 ext (psaInit e)
  let kid ← tryPsa e 0 ext (psaImport e .hmac prk)
  tryPsa e kid ext (check (decide (32 + info.length + 1 ≤ cfg.infoMax + 32 + 1)))
  let out ← expandLoop e kid info L iterations 1 (List.replicate 32 0) true []
  tryExpect (psaDestroy e kid)
  pure out

/-- crypto_wrapper.c:492-573 `hkdf_expand` (SHA_256), `L` = `out->len` -/
def hkdfExpand (cfg : Cfg) (e : Env) (prk info : Bytes) (L : Nat) : M St Bytes :=
  if (L + 31) % 2 ^ 32 / 32 > 255 then M.fail .hkdf_failed
  else expandBody cfg e prk info L ((L + 31) % 2 ^ 32 / 32)

/-- crypto_wrapper.c:575-583 `hkdf_sha_256` -/
def hkdfSha256 (cfg : Cfg) (e : Env) (secret salt info : Bytes) (L : Nat) : M St Bytes := do
  let prk ← hkdfExtract e salt secret
  hkdfExpand cfg e prk info L

/-- crypto_wrapper.c:646-665: decompression of the peer's key and `psa_raw_key_agreement`; `none` where
the code sets `result` and jumps to `cleanup`.  `junk`: see `P256.uncompressPoint`. -/
def agreeStep (e : Env) (kid : Nat) (junk : P256.Limbs) (pk : Bytes) (size : Nat) : M St (Option Bytes) :=
  match P256.uncompressPoint junk pk 65 with
  | .ub => M.lift .ub
  | .err _ => pure none
  | .ok q => fun s =>
    let r := psaUse e kid (useAgree e q size) s
    (.ok r.1, r.2)

/-- crypto_wrapper.c:666-668 `cleanup:` -/
def cleanup (e : Env) (kid : Nat) : M St Unit :=
  if kid ≠ 0 then tryExpect (psaDestroy e kid) else pure ()

/-- crypto_wrapper.c:669 `return result` -/
def resultOf (r : Option Bytes) : R Bytes :=
  match r with
  | some b => .ok b
  | none => .err ext

/-- crypto_wrapper.c:622-671 `shared_secret_derive`, branch P256; the output size given to the library is
PSA_RAW_KEY_AGREEMENT_OUTPUT_SIZE, i.e. the length of the secret key. -/
def sharedP256 (e : Env) (junk : P256.Limbs) (sk pk : Bytes) : M St Bytes := do
  tryPsa e 0 ext (psaInit e)
  let kid ← tryPsa e 0 ext (psaImport e (.dhPair 0) sk)
  let r ← agreeStep e kid junk pk sk.length
  cleanup e kid
  M.lift (resultOf r)

/-- crypto_wrapper.c:585-672 `shared_secret_derive`; X25519 reads 32 bytes of both keys -/
def sharedSecret (e : Env) (junk : P256.Limbs) (a : EcdhAlg) (sk pk : Bytes) : M St Bytes :=
  match a with
  | .x25519 =>
    if e.compact then M.lift (if sk.length < 32 ∨ pk.length < 32 then .ub else .ok (e.lib.x25519 sk pk))
    else M.fail .crypto_operation_not_implemented
  | .p256 => sharedP256 e junk sk pk

/-- crypto_wrapper.c:687-702 `ephemeral_dh_key_gen`, branch X25519 with COMPACT25519; `junk` is the
uninitialised `extended_seed` (see `KeyGen.x25519KeyGen`) -/
def keyGenX25519 (e : Env) (seed : UInt32) (junk : Bytes) : M St (Bytes × Bytes) := do
  let h ← tryExpect (psaHash e (KeyGen.seedBytes seed))
  if h.length ≠ 32 then M.fail .sha_failed else pure (e.lib.x25519Gen junk)

/-- crypto_wrapper.c:728-763 `ephemeral_dh_key_gen`, branch P256 after the check of `pk->len` -/
def keyGenP256 (e : Env) : M St (Bytes × Bytes) := do
  tryPsa e 0 ext (psaInit e)
  let kid ← tryPsa e 0 ext (psaGenerate e (.dhPair 256))
  let sk ← tryPsa e kid ext (psaUse e kid useExport)
  let pub ← tryPsa e kid ext (psaUse e kid (usePub e))
  tryPsa e kid ext (check (pub.length == 65))
  tryExpect (psaDestroy e kid)
  pure (sk, (pub.drop 1).take 32)

/-- crypto_wrapper.c:674-768 `ephemeral_dh_key_gen`: the contents of `sk` and `pk` (`sk0`, `pk0` before the
call).  Without COMPACT25519 the branch X25519 is empty and `ok` is returned. -/
def keyGen (e : Env) (a : EcdhAlg) (seed : UInt32) (junk sk0 pk0 : Bytes) : M St (Bytes × Bytes) :=
  match a with
  | .x25519 => if e.compact then keyGenX25519 e seed junk else pure (sk0, pk0)
  | .p256 => if pk0.length < 32 then M.fail .buffer_to_small else keyGenP256 e

/-- crypto_wrapper.c:770-797 `hash` (SHA_256); no `psa_crypto_init` -/
def hash (e : Env) (m : Bytes) : M St Bytes := do
  let h ← tryExpect (psaHash e m)
  if h.length ≠ 32 then M.fail .sha_failed else pure h

/-- A call of one of the functions of inc/common/crypto_wrapper.h. -/
inductive Call where
  | aeadEnc (key nonce aad : Bytes) (t : Nat) (pt : Bytes) (outCap : Nat)
  | aeadDec (key nonce aad : Bytes) (t : Nat) (ct out : Bytes)
  | sign (a : SignAlg) (sk pk msg : Bytes)
  | verify (a : SignAlg) (pk msg sgn : Bytes)
  | extract (salt ikm : Bytes)
  | expand (prk info : Bytes) (L : Nat)
  | hkdf (secret salt info : Bytes) (L : Nat)
  | dh (a : EcdhAlg) (junk : P256.Limbs) (sk pk : Bytes)
  | keyGen (a : EcdhAlg) (seed : UInt32) (junk sk0 pk0 : Bytes)
  | hash (m : Bytes)

/-- What a successful call hands back. Out parameters of inc/common/crypto_wrapper.h:37-130. -/
inductive Out where
  | bytes (b : Bytes)
  | pair (a b : Bytes)
  | flag (b : Bool)
  deriving DecidableEq, Repr

/-- result of a call as `Out` (auxiliary, no counterpart in the C code) -/
def outM (f : α → Out) (m : M St α) : M St Out := m >>= fun a => pure (f a)

/-- the functions of inc/common/crypto_wrapper.h by name -/
def exec (cfg : Cfg) (e : Env) : Call → M St Out
  | .aeadEnc key nonce aad t pt outCap => outM (fun p => .pair p.1 p.2) (aeadEncrypt e key nonce aad t pt outCap)
  | .aeadDec key nonce aad t ct out => outM .bytes (aeadDecrypt e key nonce aad t ct out)
  | .sign a sk pk msg => outM .bytes (sign e a sk pk msg)
  | .verify a pk msg sgn => outM .flag (verify e a pk msg sgn)
  | .extract salt ikm => outM .bytes (hkdfExtract e salt ikm)
  | .expand prk info L => outM .bytes (hkdfExpand cfg e prk info L)
  | .hkdf secret salt info L => outM .bytes (hkdfSha256 cfg e secret salt info L)
  | .dh a junk sk pk => outM .bytes (sharedSecret e junk a sk pk)
  | .keyGen a seed junk sk0 pk0 => outM (fun p => .pair p.1 p.2) (keyGen e a seed junk sk0 pk0)
  | .hash m => outM .bytes (hash e m)

/-- A history of calls, errors included. Calls of inc/common/crypto_wrapper.h:37-130. -/
def history (cfg : Cfg) (e : Env) : List Call → St → St
  | [], s => s
  | c :: l, s => history cfg e l (exec cfg e c s).2

end Verif.Psa
