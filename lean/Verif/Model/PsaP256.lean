import Verif.Model.P256
/-
src/common/crypto_wrapper.c – ECDH on P-256 in the MBEDTLS configuration: the glue around the PSA API.
-/
namespace Verif.P256
open Verif

/-- The PSA functions used; `none` / `false` is any status other than PSA_SUCCESS.
Simplification: `psa_crypto_init` and `psa_destroy_key` succeed. Called at src/common/crypto_wrapper.c:623-666, 727-761. -/
structure Psa where
  /-- `psa_import_key` of a secp256r1 key pair usable for ECDH -/
  importKey : Bytes → Bool
  /-- `psa_raw_key_agreement`: imported secret key, peer's key (as passed); the 32 bytes written -/
  agree : Bytes → Bytes → Option Bytes
  /-- `psa_generate_key` with `psa_export_key` and `psa_export_public_key`, for the random choice `n`:
  the secret key and the public key as exported -/
  generate : Nat → Option (Bytes × Bytes)

/-- crypto_wrapper.c:585-672 `shared_secret_derive`, branch P256 / MBEDTLS.  `junk` is the uninitialised
memory of the decompression. -/
def p256Shared (psa : Psa) (junk : Limbs) (sk pk : Bytes) : R Bytes :=
  if psa.importKey sk = false then .err .unexpected_result_from_ext_lib
  else
    match uncompressPoint junk pk 65 with
    | .ok q =>
      match psa.agree sk q with
      | some s => .ok s
      | none => .err .unexpected_result_from_ext_lib
    | .err _ => .err .unexpected_result_from_ext_lib
    | .ub => .ub

/-- crypto_wrapper.c:711-763 `ephemeral_dh_key_gen`, branch P256 / MBEDTLS: (sk, pk).  `pkCap` is
`pk->len` at the call; the caller must provide 32 bytes at `sk->ptr` and have set `sk->len` to 32
(the function does not set it). -/
def p256KeyGen (psa : Psa) (n : Nat) (pkCap : Nat) : R (Bytes × Bytes) :=
  if pkCap < 32 then .err .buffer_to_small
  else
    match psa.generate n with
    | none => .err .unexpected_result_from_ext_lib
    | some (sk, pub) =>
      if pub.length ≠ 65 then .err .unexpected_result_from_ext_lib
      else .ok (sk, (pub.drop 1).take 32)

end Verif.P256
