import Verif.Model.Coap
/-
src/common/crypto_wrapper.c – the primitives as parameters, HKDF as a model.
-/
namespace Verif

/-- The primitives behind src/common/crypto_wrapper.c.  `none` is any failure of the crypto library
(reported as `unexpected_result_from_ext_lib`). -/
structure Crypto where
  /-- HMAC-SHA-256: key, message -/
  hmac : Bytes → Bytes → Bytes
  /-- SHA-256 -/
  hash : Bytes → Bytes
  /-- AES-CCM encryption (crypto_wrapper.c:173-254): key, nonce, AAD, tag length, plaintext;
  returns ciphertext with tag -/
  aeadEnc : Bytes → Bytes → Bytes → Nat → Bytes → Option Bytes
  /-- AES-CCM verification and decryption: key, nonce, AAD, tag length, ciphertext with tag -/
  aeadDec : Bytes → Bytes → Bytes → Nat → Bytes → Option Bytes

/-- What is assumed of the primitives: output sizes and that decryption inverts encryption.
The library functions behind src/common/crypto_wrapper.c:173-254, 432-573, 770-790. -/
structure Crypto.Lawful (C : Crypto) : Prop where
  hmac_len : ∀ k m, (C.hmac k m).length = 32
  hash_len : ∀ m, (C.hash m).length = 32
  dec_enc : ∀ k n a t p c, C.aeadEnc k n a t p = some c → C.aeadDec k n a t c = some p
  enc_len : ∀ k n a t p c, C.aeadEnc k n a t p = some c → c.length = p.length + t
  dec_len : ∀ k n a t p c, C.aeadDec k n a t c = some p → c.length = p.length + t

/-- crypto_wrapper.c:432-490 `hkdf_extract` (SHA_256): an empty salt is 32 zero bytes -/
def hkdfExtract (C : Crypto) (salt ikm : Bytes) : Bytes :=
  C.hmac (if salt.length = 0 then List.replicate 32 0 else salt) ikm

/-- crypto_wrapper.c:551-570, the MBEDTLS loop: `n` iterations left, `i` the counter, `t` the last
block (`first`: it is not part of the input yet, `offset` = 32), `out` the bytes written. -/
def expandLoop (C : Crypto) (prk info : Bytes) (L : Nat) :
    Nat → Nat → Bytes → Bool → Bytes → Bytes
  | 0, _, _, _, out => out
  | n + 1, i, t, first, out =>
    let t' := C.hmac prk ((if first then [] else t) ++ info ++ [byte i])
    expandLoop C prk info L n (i + 1) t' false
      (out ++ (if L < i * 32 then t'.take (L % 32) else t'))

/-- crypto_wrapper.c:492-573 `hkdf_expand` (SHA_256, MBEDTLS branch): `L` is `out->len` (32 bits, so
`L + 31` can wrap). -/
def hkdfExpand (cfg : Cfg) (C : Crypto) (prk info : Bytes) (L : Nat) : R Bytes :=
  let iterations := (L + 31) % 2 ^ 32 / 32
  if iterations > 255 then .err .hkdf_failed
  else if 32 + info.length + 1 > cfg.infoMax + 32 + 1 then .err .unexpected_result_from_ext_lib
  else .ok (expandLoop C prk info L iterations 1 (List.replicate 32 0) true [])

/-- crypto_wrapper.c:507-526, the TINYCRYPT loop: the counter `i` is a `uint8_t`, so it wraps to 0
after 255, and `i = 0` writes 32 bytes in front of the output (`ub`).  `fuel` bounds the recursion. -/
def expandLoopTc (C : Crypto) (prk info : Bytes) (L iterations : Nat) :
    (fuel i : Nat) → (t out : Bytes) → R Bytes
  | 0, _, _, out => .ok out
  | fuel + 1, i, t, out =>
    if i ≤ iterations then
      if i = 0 then .ub
      else
        let t' := C.hmac prk ((if i > 1 then t else []) ++ info ++ [byte i])
        expandLoopTc C prk info L iterations fuel ((i + 1) % 256) t'
          (out ++ (if L < i * 32 then t'.take (L % 32) else t'))
    else .ok out

/-- crypto_wrapper.c:492-527 `hkdf_expand` (SHA_256, TINYCRYPT branch, no MBEDTLS) -/
def hkdfExpandTc (C : Crypto) (prk info : Bytes) (L : Nat) : R Bytes :=
  let iterations := (L + 31) % 2 ^ 32 / 32
  if iterations > 255 then .err .hkdf_failed
  else expandLoopTc C prk info L iterations 257 1 (List.replicate 32 0) []

/-- crypto_wrapper.c:575-583 `hkdf_sha_256` -/
def hkdfSha256 (cfg : Cfg) (C : Crypto) (secret salt info : Bytes) (L : Nat) : R Bytes :=
  hkdfExpand cfg C (hkdfExtract C salt secret) info L

end Verif
