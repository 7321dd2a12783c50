import Verif.Model.Unprotect
import Verif.Model.PsaStore
/-
Histories of coap2oscore and oscore2coap in which the crypto library does not work the same way at every call
(no memory, no free key slot, a driver that fails now and then).
-/
namespace Verif

/-- run a history, ignoring results; every call comes with what the crypto library does during it (inc/oscore.h:98-134) -/
def runF (cfg : Cfg) (w : World) (h : List (Crypto × Op)) : World :=
  h.foldl (fun w x => (step cfg x.1 w x.2).2) w

/-- `C'` is `C`, except that the AEAD may fail: `TRY_EXPECT_PSA` returns an error (src/common/crypto_wrapper.c:61-72,
173-254) -/
structure Faulty (C C' : Crypto) : Prop where
  hmac : C'.hmac = C.hmac
  hash : C'.hash = C.hash
  enc : ∀ k n a t p, C'.aeadEnc k n a t p = none ∨ C'.aeadEnc k n a t p = C.aeadEnc k n a t p
  dec : ∀ k n a t c, C'.aeadDec k n a t c = none ∨ C'.aeadDec k n a t c = C.aeadDec k n a t c

/-- what the AEAD functions of the wrapper (src/common/crypto_wrapper.c:173-254) do from the state `s` of the PSA library,
with the output buffers of `oscore_cose` (src/oscore/oscore_cose.c:60-112: the plaintext has the length of the ciphertext
less the tag); HMAC and hash, used only by `oscore_context_init`, are those of the library -/
def cryptoAt (e : Psa.Env) (s : Psa.St) : Crypto where
  hmac := e.lib.mac
  hash := e.lib.sha256
  aeadEnc := fun k n a t p =>
    match (Psa.aeadEncrypt e k n a t p (p.length + t) s).1 with
    | .ok c => some c.1
    | _ => none
  aeadDec := fun k n a t c =>
    match (Psa.aeadDecrypt e k n a t c (List.replicate (c.length - t) 0) s).1 with
    | .ok p => some p
    | _ => none

end Verif
