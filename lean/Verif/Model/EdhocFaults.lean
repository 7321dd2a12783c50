import Verif.Model.Faults
import Verif.Model.EdhocRun
/-
EDHOC over a crypto library that fails now and then.
-/
namespace Verif.Edhoc
open Verif

/-- `C'` is `C`, except that AEAD, Diffie-Hellman, signatures, their verification and the X.509 parser may fail
(src/common/crypto_wrapper.c:173-430, 585-672; src/edhoc/cert.c:181-245, 290-401) -/
structure FaultyE (C C' : ECrypto) : Prop where
  base : Faulty C.toCrypto C'.toCrypto
  dh : ∀ a sk pk, C'.dh a sk pk = none ∨ C'.dh a sk pk = C.dh a sk pk
  sign : ∀ a sk pk m, C'.sign a sk pk m = none ∨ C'.sign a sk pk m = C.sign a sk pk m
  verify : ∀ a pk m s, C'.verify a pk m s = none ∨ C'.verify a pk m s = C.verify a pk m s
  x509 : ∀ c, C'.x509 c = none ∨ C'.x509 c = C.x509 c

end Verif.Edhoc
