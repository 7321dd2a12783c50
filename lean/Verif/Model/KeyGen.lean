import Verif.Model.Base
/-
src/common/crypto_wrapper.c – generation of ephemeral X25519 key pairs (COMPACT25519).
-/
namespace Verif.KeyGen
open Verif

/-- the two configurations of crypto_wrapper.c -/
inductive Backend where | tinycrypt | mbedtls deriving DecidableEq, Repr

/-- the four bytes of the seed in memory (little-endian machine; crypto_wrapper.c:683,690) -/
def seedBytes (seed : UInt32) : Bytes :=
  [seed.toUInt8, (seed >>> 8).toUInt8, (seed >>> 16).toUInt8, (seed >>> 24).toUInt8]

/-- crypto_wrapper.c:674-704 `ephemeral_dh_key_gen`, branch X25519: (sk, pk).  `sha` is SHA-256,
`keygen` is `compact_x25519_keygen` as a function of its random seed, `junk` the contents of the local
array `extended_seed`, which is not initialised.  With MBEDTLS the hash of the seed goes to `sk->ptr`
(where `compact_x25519_keygen` overwrites it), not to `extended_seed`. -/
def x25519KeyGen (b : Backend) (sha : Bytes → Bytes) (keygen : Bytes → Bytes × Bytes) (seed : UInt32)
    (junk : Bytes) : R (Bytes × Bytes) :=
  match b with
  | .tinycrypt =>
    let extended := sha (seedBytes seed)
    .ok (keygen extended)
  | .mbedtls =>
    let extended := junk
    if (sha (seedBytes seed)).length ≠ 32 then .err .sha_failed
    else .ok (keygen extended)

end Verif.KeyGen
