import Verif.Spec.Curves
import Verif.Props.RealCrypto
import Verif.Lemmas.EdhocHonest
/-
C69, EDHOC part: what the EDHOC theorems assume of the primitives (`ECrypto.Lawful`, `AeadOk`) holds of
X25519, Ed25519, ECDH and ECDSA on P-256, HMAC-SHA-256 and AES-CCM as standardised.
-/
namespace Verif.Edhoc
open Verif Verif.Fips Verif.Curves

/-- crypto_wrapper.c with the standardised primitives.  `nonce`: the random number an ECDSA signature is made
with (a function of key and message here); `x509`: MBEDTLS's certificate parser. -/
def realE (nonce : Bytes → Bytes → Nat) (x509 : Bytes → Option X509) : ECrypto where
  toCrypto := realCrypto
  dh a sk pk := match a with
    | .x25519 => some (Curves.x25519 sk pk)
    | .p256 => p256Dh sk pk
  sign a sk pk m := match a with
    | .eddsa => some (edSign sk pk m)
    | .es256 => ecdsaSign (nonce sk m) sk m
  verify a pk m s := match a with
    | .eddsa => some (edVerify pk m s)
    | .es256 => some (ecdsaVerify pk m s)
  x509 := x509

theorem toLe_length (k n : Nat) : (toLe k n).length = k := by simp [toLe, toBe_length]

theorem edPack_length (P : EdPoint) : (edPack P).length = 32 := by
  simp only [edPack, force_eq, toLe_length]

theorem p256Dh_length {sk pk s : Bytes} (h : p256Dh sk pk = some s) : s.length = 32 := by
  simp only [p256Dh, force_eq] at h
  split at h
  · split at h
    · cases h
    · split at h
      · cases h
      · cases h; exact toBe_length _ _
  · cases h

theorem ecdsaSign_length {k : Nat} {sk m s : Bytes} (h : ecdsaSign k sk m = some s) : s.length = 64 := by
  simp only [ecdsaSign, force_eq] at h
  split at h
  · cases h
  · split at h
    · cases h
    · cases h; simp [toBe_length]

theorem x25519_length (k u : Bytes) : (Curves.x25519 k u).length = 32 := by
  rw [Curves.x25519, toLe_length]

theorem edSign_length (sk pk m : Bytes) : (edSign sk pk m).length = 64 := by
  unfold edSign
  simp only [force_eq]
  rw [List.length_append, edPack_length, toLe_length]

/-- **C69** The laws assumed of the EDHOC primitives hold. -/
theorem C69_edhoc_lawful (nonce : Bytes → Bytes → Nat) (x509 : Bytes → Option X509) : (realE nonce x509).Lawful where
  base := C69_lawful
  dh_len a sk pk s h := by
    cases a with
    | x25519 =>
      simp only [realE, Option.some.injEq] at h
      rw [← h]
      exact x25519_length _ _
    | p256 =>
      simp only [realE] at h
      exact p256Dh_length h
  sign_len a sk pk m s h := by
    cases a with
    | eddsa =>
      simp only [realE, Option.some.injEq] at h
      rw [← h]
      exact edSign_length _ _ _
    | es256 =>
      simp only [realE] at h
      exact ecdsaSign_length h

/-- encryption never fails in an honest run -/
theorem realE_aeadOk (nonce : Bytes → Bytes → Nat) (x509 : Bytes → Option X509) (suite : Suite) : AeadOk (realE nonce x509) suite := by
  intro k iv a p hk hn ha hp
  exact C69_total k iv a p hk hn ha hp suite.aead.tagLen (by cases suite.aead <;> simp [AeadAlg.tagLen])

end Verif.Edhoc
