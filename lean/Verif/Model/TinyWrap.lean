import Verif.Model.EdhocBase
import Verif.Model.TinyP256
import Verif.Model.Context
/-
src/common/crypto_wrapper.c, TINYCRYPT configuration: `aead`, `sign`, `verify`, `hkdf_extract`, `hkdf_expand`, `hash` as
sequences of calls of TinyCrypt, with the argument checks that TinyCrypt documents (tinycrypt/ccm_mode.h, hmac.h, ecc_dsa.h) and
the bytes it reads and writes through the pointers it gets.  `shared_secret_derive` and `ephemeral_dh_key_gen` are in
`Model/TinyP256.lean` and `Model/KeyGen.lean`.  The mock code under EDHOC_MOCK_CRYPTO_WRAPPER is not modelled; pointers are not
NULL.
-/
namespace Verif.Tiny
open Verif Verif.Edhoc

/-- What TinyCrypt and compact25519 compute, for arguments that they accept.
The functions called from src/common/crypto_wrapper.c. -/
structure Lib where
  /-- AES-CCM with a 16-byte key and a 13-byte nonce: key, nonce, AAD, tag length, plaintext -/
  ccmEnc : Bytes → Bytes → Bytes → Nat → Bytes → Bytes
  /-- the same, verification and decryption -/
  ccmDec : Bytes → Bytes → Bytes → Nat → Bytes → Option Bytes
  /-- HMAC-SHA-256: key, message -/
  mac : Bytes → Bytes → Bytes
  sha256 : Bytes → Bytes
  /-- `uECC_sign` for the random choice: 32 bytes of secret key, hash -/
  sign : Nat → Bytes → Bytes → Option Bytes
  /-- `uECC_verify`: 64 bytes of public key, hash, 64 bytes of signature -/
  verify : Bytes → Bytes → Bytes → Bool
  /-- compact25519: `edsign_sign` -/
  edSign : Bytes → Bytes → Bytes → Bytes
  /-- compact25519: `edsign_verify` -/
  edVerify : Bytes → Bytes → Bytes → Bool

/-- `TRY_EXPECT` around a TinyCrypt call that fails (inc/common/oscore_edhoc_error.h:96-104) -/
def failed {α : Type} : R α := .err .unexpected_result_from_ext_lib

/-- `tc_ccm_config` accepts these lengths of nonce and tag (called at src/common/crypto_wrapper.c:198) -/
def configOk (nonceLen t : Nat) : Bool := nonceLen == 13 && [4, 6, 8, 10, 12, 14, 16].contains t

/-- `tc_ccm_generation_encryption` / `tc_ccm_decryption_verification` accept these lengths of AAD and input
(called at src/common/crypto_wrapper.c:202, 208) -/
def inputOk (aadLen inLen : Nat) : Bool := decide (aadLen < 0xff00) && decide (inLen < 0x10000)

/-- crypto_wrapper.c:194-213 `aead`, ENCRYPT.  `out` are the bytes of the object at `out->ptr` before the call, `outLen` is
`out->len`.  Returns the bytes of the object afterwards, and of `tag`.  `tc_aes128_set_encrypt_key` reads 16 bytes of the key. -/
def aeadEncrypt (T : Lib) (key nonce aad : Bytes) (t : Nat) (pt out : Bytes) (outLen : Nat) : R (Bytes × Bytes) :=
  if key.length < 16 then .ub
  else if configOk nonce.length t = false then failed
  else if inputOk aad.length pt.length = false ∨ (outLen + t) % 2 ^ 32 < pt.length + t then failed
  else if out.length < pt.length + t then .ub
  else
    let c := T.ccmEnc (key.take 16) nonce aad t pt
    let out' := c ++ out.drop c.length
    if out.length < outLen + t then .ub
    else .ok (out', (out'.drop outLen).take t)

/-- crypto_wrapper.c:194-206 `aead`, DECRYPT.  `out` are the `out->len` bytes at `out->ptr` before the call.  The library writes
the plaintext there, also before it is verified; the contents after a failure are not modelled. -/
def aeadDecrypt (T : Lib) (key nonce aad : Bytes) (t : Nat) (ct out : Bytes) : R Bytes :=
  if key.length < 16 then .ub
  else if configOk nonce.length t = false then failed
  else if inputOk aad.length ct.length = false ∨ out.length < sub32 ct.length t then failed
  else
    match T.ccmDec (key.take 16) nonce aad t ct with
    | none => failed
    | some p => .ok (p ++ out.drop p.length)

/-- crypto_wrapper.c:275-313 `sign`; ES256: `uECC_sign` reads 32 bytes of the key.  `compact`: COMPACT25519 is defined. -/
def sign (T : Lib) (compact : Bool) (rnd : Nat) (a : SignAlg) (sk pk msg : Bytes) : R Bytes :=
  match a with
  | .eddsa =>
    if compact then (if sk.length < 32 ∨ pk.length < 32 then .ub else .ok (T.edSign sk pk msg))
    else .err .unsupported_ecdh_curve
  | .es256 =>
    if sk.length < 32 then .ub
    else
      match T.sign rnd (sk.take 32) (T.sha256 msg) with
      | some s => .ok s
      | none => failed

/-- crypto_wrapper.c:417-421: the byte 04 of an uncompressed point is skipped -/
def keyPart (pk : Bytes) : Bytes := if pk.length = 65 ∧ pk.headD 0 = 0x04 then pk.drop 1 else pk

/-- crypto_wrapper.c:358-430 `verify`, `*result`; ES256: `uECC_verify` reads 64 bytes of key and signature, and a signature that
is not accepted is a failure of the call (crypto_wrapper.c:422-424) -/
def verify (T : Lib) (compact : Bool) (a : SignAlg) (pk msg sgn : Bytes) : R Bool :=
  match a with
  | .eddsa =>
    if compact then (if sgn.length < 64 ∨ pk.length < 32 then .ub else .ok (T.edVerify pk msg sgn))
    else .err .crypto_operation_not_implemented
  | .es256 =>
    if (keyPart pk).length < 64 ∨ sgn.length < 64 then .ub
    else if T.verify ((keyPart pk).take 64) (T.sha256 msg) (sgn.take 64) then .ok true
    else failed

/-- crypto_wrapper.c:445-457 `hkdf_extract`; `tc_hmac_set_key` refuses an empty key, which an empty salt is not -/
def hkdfExtract (T : Lib) (salt ikm : Bytes) : R Bytes :=
  let key := if salt.length = 0 then List.replicate 32 0 else salt
  if key.length = 0 then failed else .ok (T.mac key ikm)

/-- crypto_wrapper.c:770-783 `hash` -/
def hash (T : Lib) (m : Bytes) : R Bytes := .ok (T.sha256 m)

/-- the primitives that the models of OSCORE and EDHOC are parameterised with, of this library (what is behind the calls at
src/common/crypto_wrapper.c:194-213, 445-457, 774-780) -/
def cryptoOf (T : Lib) : Crypto where
  hmac := T.mac
  hash := T.sha256
  aeadEnc := fun key nonce aad t pt =>
    if configOk nonce.length t ∧ inputOk aad.length pt.length then some (T.ccmEnc (key.take 16) nonce aad t pt) else none
  aeadDec := fun key nonce aad t ct =>
    if configOk nonce.length t ∧ inputOk aad.length ct.length ∧ t ≤ ct.length then T.ccmDec (key.take 16) nonce aad t ct else none

/-- crypto_wrapper.c:492-527 `hkdf_expand`; `tc_hmac_set_key` refuses an empty key.  With no iterations (`L` = 0) it is not
called. -/
def hkdfExpand (T : Lib) (prk info : Bytes) (L : Nat) : R Bytes :=
  if prk.length = 0 ∧ 0 < (L + 31) % 2 ^ 32 / 32 ∧ (L + 31) % 2 ^ 32 / 32 ≤ 255 then failed
  else hkdfExpandTc (cryptoOf T) prk info L

/-- security_context.c:41-60 `derive` with crypto_wrapper.c:575-583 `hkdf_sha_256` on these functions -/
def derive (T : Lib) (p : InitParams) (id : Bytes) (ty : DeriveType) : R Bytes := do
  let info ← hkdfInfo id p.idContext ty
  let prk ← hkdfExtract T p.masterSalt p.masterSecret
  hkdfExpand T prk info (match ty with | .key => 16 | .iv => 13)

end Verif.Tiny
