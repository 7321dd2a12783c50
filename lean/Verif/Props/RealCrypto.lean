import Verif.Lemmas.FipsLemmas
import Verif.Props.Conversation
/-
C69: what the other theorems assume of the primitives holds of SHA-256, HMAC and AES-CCM as standardised
(Spec/Fips.lean).  With them the model reproduces the test vectors of /repo/test_vectors (RFC 8613, appendix C):
that part is a test of the model, not a property.
-/
namespace Verif
open Fips

/-- crypto_wrapper.c with the standardised primitives: HMAC-SHA-256, SHA-256, AES-CCM with 128-bit keys -/
def realCrypto : Crypto where
  hmac := hmacSha256
  hash := sha256
  aeadEnc := ccmEnc aes128
  aeadDec := ccmDec aes128

/-- **C69** AES-CCM decrypts exactly what it encrypted: for every key, nonce, associated data and tag length,
the ciphertexts accepted with result `p` are exactly the encryption of `p`. -/
theorem C69_ccm_exact (k n a : Bytes) (t : Nat) (p c : Bytes) :
    realCrypto.aeadDec k n a t c = some p ↔ realCrypto.aeadEnc k n a t p = some c :=
  ccmDec_iff aes128 aes128_block k n a t p c

/-- **C69** The laws that the theorems of this development assume of the primitives (`Crypto.Lawful`) hold. -/
theorem C69_lawful : realCrypto.Lawful where
  hmac_len := hmacSha256_length
  hash_len := sha256_length
  dec_enc := fun k n a t p c h => (C69_ccm_exact k n a t p c).2 h
  enc_len := fun k n a t p c h => ccmEnc_length aes128 aes128_block k n a t p c h
  dec_len := fun k n a t p c h => ccmEnc_length aes128 aes128_block k n a t p c ((C69_ccm_exact k n a t p c).1 h)

/-- **C69** AES-CCM-16-64-128 and AES-CCM-16-128-128 encrypt everything shorter than 64 KiB. -/
theorem C69_total (k n a p : Bytes) (hk : k.length = 16) (hn : n.length = 13) (ha : a.length < 0xff00) (hp : p.length < 65536)
    (t : Nat) (ht : t = 8 ∨ t = 16) : ∃ c, realCrypto.aeadEnc k n a t p = some c := by
  have h : ccmOk k n a t p.length = true := by
    rcases ht with rfl | rfl <;>
    · simp [ccmOk, hk, hn]
      omega
  exact ⟨_, by show ccmEnc aes128 k n a t p = _; rw [ccmEnc, if_pos h]⟩

/-- the AEAD never fails on the inputs OSCORE gives it -/
theorem realCrypto_aeadTotal : AeadTotal realCrypto := by
  intro k n a p hk hn ha hp
  obtain ⟨c, hc⟩ := C69_total k n a p hk hn ha hp 8 (.inl rfl)
  rw [hc]; rfl

end Verif
