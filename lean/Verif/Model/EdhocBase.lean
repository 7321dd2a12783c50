import Verif.Model.Crypto
import Verif.Model.Cbor
/-
EDHOC: configuration, cipher suites, methods and primitives.
-/
namespace Verif.Edhoc
open Verif

/-- inc/edhoc/buffer_sizes.h:12-40, the configurable sizes, and two switches.
`strictCbor`: whether the zcbor decoder (external library, not in the sources) refuses heads that are
not the shortest; everything is proved for both.  `message4`: MESSAGE_4. -/
structure ECfg where
  eadSize : Nat := 0
  cISize : Nat := 10
  cRSize : Nat := 10
  idCredISize : Nat := 400
  idCredRSize : Nat := 400
  credISize : Nat := 400
  credRSize : Nat := 400
  suitesISize : Nat := 6
  strictCbor : Bool := true
  message4 : Bool := false
  deriving DecidableEq, Repr

/-- buffer_sizes.h:44-45 BSTR_ENCODING_OVERHEAD -/
def bstrOverhead (x : Nat) : Nat := if x ≤ 5 then 1 else if x ≤ 255 then 2 else if x ≤ 65535 then 3 else 5

/-- buffer_sizes.h:47 AS_BSTR_SIZE.  Simplification: sums of lengths are natural numbers, they do not
wrap at 2^32. -/
def asBstr (x : Nat) : Nat := bstrOverhead x + x

namespace ECfg
variable (c : ECfg)
/-- buffer_sizes.h:73-76 PLAINTEXT2_SIZE, CIPHERTEXT2_SIZE -/
def plaintext2Size : Nat := asBstr c.cRSize + c.idCredISize + asBstr 64 + c.eadSize
/-- buffer_sizes.h:77 G_Y_CIPHERTEXT_2 -/
def gYCiphertext2 : Nat := 32 + c.plaintext2Size
/-- buffer_sizes.h:79-80 PLAINTEXT3_SIZE -/
def plaintext3Size : Nat := c.idCredISize + asBstr 64 + c.eadSize
/-- buffer_sizes.h:82 CIPHERTEXT3_SIZE -/
def ciphertext3Size : Nat := c.plaintext3Size + 16
/-- buffer_sizes.h:84-85 PLAINTEXT4_SIZE, CIPHERTEXT4_SIZE -/
def plaintext4Size : Nat := c.eadSize + 8
/-- buffer_sizes.h:87-96 MSG_MAX_SIZE -/
def msgMaxSize : Nat :=
  max (max (1 + c.suitesISize + 32 + asBstr c.cISize + c.eadSize)
      (32 + c.plaintext2Size + asBstr c.cRSize))
    (max (asBstr c.ciphertext3Size) (asBstr c.plaintext4Size))
/-- buffer_sizes.h:98 CRED_MAX_SIZE -/
def credMaxSize : Nat := max c.credRSize c.credISize
/-- buffer_sizes.h:99 ID_CRED_MAX_SIZE -/
def idCredMaxSize : Nat := max c.idCredRSize c.idCredISize
/-- buffer_sizes.h:101-110 SIG_STRUCT_SIZE -/
def sigStructSize : Nat :=
  asBstr 10 + asBstr c.idCredMaxSize + asBstr (asBstr 32 + c.credMaxSize + c.eadSize) + asBstr 32 + 1
/-- buffer_sizes.h:113-115 CONTEXT_MAC_SIZE -/
def contextMacSize : Nat :=
  asBstr (asBstr c.cRSize + asBstr 32 + c.idCredMaxSize + c.credMaxSize + c.eadSize)
/-- buffer_sizes.h:117 INFO_MAX_SIZE -/
def infoMaxSize : Nat := c.contextMacSize + 4
/-- buffer_sizes.h:119-120 TH34_INPUT_SIZE -/
def th34InputSize : Nat := asBstr 32 + max c.plaintext2Size c.plaintext3Size + c.credMaxSize
end ECfg

/-- inc/edhoc/suites.h:27-30 -/
inductive AeadAlg where | ccm64 | ccm128 deriving DecidableEq, Repr
/-- inc/edhoc/suites.h:34-37 -/
inductive EcdhAlg where | p256 | x25519 deriving DecidableEq, Repr
/-- inc/edhoc/suites.h:39-42 -/
inductive SignAlg where | es256 | eddsa deriving DecidableEq, Repr

/-- inc/edhoc/suites.h:49-58 `struct suite`; the hash is always SHA_256. -/
structure Suite where
  label : Nat
  aead : AeadAlg
  macLen : Nat
  ecdh : EcdhAlg
  sign : SignAlg
  appAead : AeadAlg
  deriving DecidableEq, Repr

/-- src/edhoc/suites.c:16-64 `get_suite` -/
def getSuite (label : Nat) : R Suite :=
  if label = 0 then .ok ⟨0, .ccm64, 8, .x25519, .eddsa, .ccm64⟩
  else if label = 1 then .ok ⟨1, .ccm128, 16, .x25519, .eddsa, .ccm64⟩
  else if label = 2 then .ok ⟨2, .ccm64, 8, .p256, .es256, .ccm64⟩
  else if label = 3 then .ok ⟨3, .ccm128, 16, .p256, .es256, .ccm64⟩
  else .err .unsupported_cipher_suite

/-- the values of the enumerators, which are COSE identifiers: inc/edhoc/suites.h:27-42 -/
def AeadAlg.cose : AeadAlg → Int | .ccm64 => 10 | .ccm128 => 30
/-- inc/edhoc/suites.h:34-37 -/
def EcdhAlg.cose : EcdhAlg → Int | .p256 => 1 | .x25519 => 4
/-- inc/edhoc/suites.h:39-42 -/
def SignAlg.cose : SignAlg → Int | .es256 => -7 | .eddsa => -8

/-- src/edhoc/suites.c:76-87 `get_aead_mac_len` -/
def AeadAlg.tagLen : AeadAlg → Nat
  | .ccm128 => 16
  | .ccm64 => 8

/-- src/edhoc/edhoc_method_type.c:18-38 `authentication_type_get`: (static_dh_i, static_dh_r), given
the values the outputs had before (kept for an unknown method) -/
def authType (method : Int) (before : Bool × Bool) : Bool × Bool :=
  if method = 0 then (false, false)
  else if method = 1 then (false, true)
  else if method = 2 then (true, false)
  else if method = 3 then (true, true)
  else before

/-- The parsed fields of an X.509 certificate (mbedtls_x509_crt) that src/edhoc/cert.c uses. -/
structure X509 where
  /-- last CN of the issuer: the bytes from its start to the end of the certificate, and its length -/
  issuerMem : Bytes
  issuerLen : Nat
  /-- last CN of the subject -/
  subject : Bytes
  /-- the signature algorithm is ECDSA with a hash known to mbedtls -/
  ecdsa : Bool
  tbs : Bytes
  /-- (R, S) as left in the 64 byte buffer by `deser_sign_cb` -/
  sig : Bytes
  /-- the subject's public key as found by `find_pk_cb` -/
  pk : Bytes
  deriving DecidableEq, Repr

/-- Primitives used by EDHOC in addition to `Crypto`; `none` is a failure of the library.
Src/common/crypto_wrapper.c:275-430, 585-768. -/
structure ECrypto extends Crypto where
  /-- `shared_secret_derive` (crypto_wrapper.c:585-672): secret key, public key -/
  dh : EcdhAlg → Bytes → Bytes → Option Bytes
  /-- `sign` (crypto_wrapper.c:275-356): secret key, public key, message -/
  sign : SignAlg → Bytes → Bytes → Bytes → Option Bytes
  /-- `verify` (crypto_wrapper.c:358-430): public key, message, signature -/
  verify : SignAlg → Bytes → Bytes → Bytes → Option Bool
  /-- mbedtls_x509_crt_parse_der_nocopy -/
  x509 : Bytes → Option X509

/-- What is assumed of the primitives: sizes. Src/common/crypto_wrapper.c:275-430, 585-768. -/
structure ECrypto.Lawful (C : ECrypto) : Prop where
  base : C.toCrypto.Lawful
  dh_len : ∀ a sk pk s, C.dh a sk pk = some s → s.length = 32
  sign_len : ∀ a sk pk m s, C.sign a sk pk m = some s → s.length = 64

/-- crypto_wrapper.c:585-672 `shared_secret_derive`; X25519 reads 32 bytes of both keys whatever
their lengths say. -/
def sharedSecret (C : ECrypto) (a : EcdhAlg) (sk pk : Bytes) : R Bytes :=
  if a = .x25519 ∧ (sk.length < 32 ∨ pk.length < 32) then .ub
  else match C.dh a sk pk with
    | some s => .ok s
    | none => .err .unexpected_result_from_ext_lib

/-- crypto_wrapper.c:275-356 `sign`; EdDSA reads 32 bytes of both keys whatever their lengths say. -/
def signMsg (C : ECrypto) (a : SignAlg) (sk pk m : Bytes) : R Bytes :=
  if a = .eddsa ∧ (sk.length < 32 ∨ pk.length < 32) then .ub
  else match C.sign a sk pk m with
  | some s => .ok s
  | none => .err .unexpected_result_from_ext_lib

/-- crypto_wrapper.c:358-430 `verify`; EdDSA reads 64 bytes of the signature and 32 of the key
whatever their lengths say. -/
def verifySig (C : ECrypto) (a : SignAlg) (pk m s : Bytes) : R Bool :=
  if a = .eddsa ∧ (s.length < 64 ∨ pk.length < 32) then .ub
  else match C.verify a pk m s with
    | some b => .ok b
    | none => .err .unexpected_result_from_ext_lib

/-- crypto_wrapper.c:770-797 `hash` -/
def hash (C : ECrypto) (m : Bytes) : Bytes := C.toCrypto.hash m

/-- inc/edhoc.h:32-39 `struct other_party_cred` -/
structure Cred where
  idCred : Bytes
  cred : Bytes
  pk : Bytes
  g : Bytes
  ca : Bytes
  caPk : Bytes
  deriving DecidableEq, Repr

/-- inc/edhoc.h:63-79 `struct edhoc_initiator_context` -/
structure ICtx where
  cI : Bytes
  method : Int
  suitesI : Bytes
  ead1 : Bytes
  ead3 : Bytes
  idCredI : Bytes
  credI : Bytes
  gX : Bytes
  x : Bytes
  i : Bytes
  skI : Bytes
  pkI : Bytes
  deriving DecidableEq, Repr

/-- inc/edhoc.h:46-61 `struct edhoc_responder_context`; `cRMem` are the bytes in memory behind
`c_r` (they are read by signature_or_mac_msg.c:68). -/
structure RCtx where
  cR : Bytes
  cRMem : Bytes
  suitesR : Bytes
  gY : Bytes
  y : Bytes
  r : Bytes
  ead2 : Bytes
  ead4 : Bytes
  idCredR : Bytes
  credR : Bytes
  skR : Bytes
  pkR : Bytes
  deriving DecidableEq, Repr

end Verif.Edhoc
