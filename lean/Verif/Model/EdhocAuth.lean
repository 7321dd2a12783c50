import Verif.Model.EdhocCbor
/-
Transcript hashes, PRKs, MAC, signature, credentials.
-/
namespace Verif.Edhoc
open Verif

/-- src/edhoc/th.c:35-60,126-137 `th2_calculate` -/
def th2Calc (C : ECrypto) (msg1Hash gY : Bytes) : R Bytes := do
  checkBufferSize (asBstr 32 + asBstr 32) (asBstr gY.length + asBstr 32)
  let inp ← cborOut (asBstr gY.length + asBstr 32) .unexpected_result_from_ext_lib
    (cborBstr gY ++ cborBstr msg1Hash)
  pure (hash C inp)

/-- src/edhoc/th.c:72-98 `th34_input_encode`: after `encode_bstr` the array length is the encoded
length, so both destination sizes are differences that wrap (`0 - cred.len`, `0 - plaintext.len`). -/
def th34Input (th pt cred : Bytes) (cap : Nat) : R Bytes := do
  let e ← encodeBstr th cap
  let p ← memcpyS (sub32 (e.length - e.length) cred.length) pt
  let c ← memcpyS (sub32 e.length (e.length + pt.length)) cred
  if e.length + pt.length + cred.length > cap then .ub
  else pure (e ++ p ++ c)

/-- src/edhoc/th.c:112-124 `th34_calculate` -/
def th34Calc (cfg : ECfg) (C : ECrypto) (th pt cred : Bytes) : R Bytes := do
  checkBufferSize cfg.th34InputSize (asBstr 32 + pt.length + cred.length)
  let inp ← th34Input th pt cred (asBstr 32 + pt.length + cred.length)
  pure (hash C inp)

/-- src/edhoc/prk.c:25-47 `prk_derive` -/
def prkDerive (cfg : ECfg) (C : ECrypto) (staticDh : Bool) (suite : Suite) (label : Nat)
    (context prkIn statPk statSk : Bytes) : R Bytes :=
  if staticDh then do
    let dh ← sharedSecret C suite.ecdh statSk statPk
    let salt ← edhocKdf cfg C prkIn label context 32
    pure (hkdfExtract C.toCrypto salt dh)
  else pure prkIn

/-- value of a little-endian `int32_t` in memory (signature_or_mac_msg.c:68: the one byte of `c_r`
and the three bytes behind it) -/
def leInt32 (b0 b1 b2 b3 : UInt8) : Int :=
  let v := b0.toNat + 256 * b1.toNat + 65536 * b2.toNat + 16777216 * b3.toNat
  if v < 2 ^ 31 then Int.ofNat v else Int.ofNat v - 2 ^ 32

/-- signature_or_mac_msg.c:64-72: `c_r` in the MAC context.  `mem` are the bytes behind `c_r` in
memory. -/
def macCr (cfg : ECfg) (cR mem : Bytes) : R Bytes :=
  if cR.length = 0 then pure []
  else do
    checkBufferSize (asBstr cfg.cRSize) (asBstr cR.length)
    if isRawInt cR then
      match cR, mem with
      | b0 :: _, b1 :: b2 :: b3 :: _ => encodeInt (leInt32 b0 b1 b2 b3) (asBstr cR.length)
      | _, _ => .ub
    else encodeBstr cR (asBstr cR.length)

/-- signature_or_mac_msg.c:54-83, the MAC context -/
def macContext (cfg : ECfg) (cR mem th idCred cred ead : Bytes) : R Bytes := do
  checkBufferSize (asBstr 32) (asBstr th.length)
  let thEnc ← encodeBstr th (asBstr th.length)
  let cap := asBstr cR.length + idCred.length + cred.length + ead.length + thEnc.length
  checkBufferSize cfg.contextMacSize cap
  let c0 ← macCr cfg cR mem
  let c1 ← byteArrayAppend [] c0 cap
  let c2 ← byteArrayAppend c1 idCred cap
  let c3 ← byteArrayAppend c2 thEnc cap
  let c4 ← byteArrayAppend c3 cred cap
  byteArrayAppend c4 ead cap

/-- signature_or_mac_msg.c:85-90, the MAC length -/
def macLen (staticDh : Bool) (suite : Suite) : Nat := if staticDh then suite.macLen else 32

/-- signature_or_mac_msg.c:47-96 `mac` -/
def mac (cfg : ECfg) (C : ECrypto) (prk cR mem th idCred cred ead : Bytes) (label : Nat)
    (staticDh : Bool) (suite : Suite) : R Bytes := do
  let ctx ← macContext cfg cR mem th idCred cred ead
  edhocKdf cfg C prk label ctx (macLen staticDh suite)

/-- the string "Signature1" (src/edhoc/signature_or_mac_msg.c:131) -/
def strSignature1 : Bytes := "Signature1".toUTF8.toList

/-- buffer_sizes.h:101-104 SIG_STRUCT_SIZE_CALC as used at signature_or_mac_msg.c:158-161 -/
def sigStructCap (th idCred cred ead mac : Bytes) : Nat :=
  asBstr 10 + asBstr idCred.length + asBstr (asBstr th.length + cred.length + ead.length) +
    asBstr mac.length + 1

/-- signature_or_mac_msg.c:109-138 `signature_struct_gen`, edhoc_cose.c:66-90
`cose_sig_structure_encode` -/
def sigStruct (cfg : ECfg) (th idCred cred ead mac : Bytes) : R Bytes := do
  checkBufferSize cfg.sigStructSize (sigStructCap th idCred cred ead mac)
  let thEnc ← encodeBstr th (asBstr 32)
  checkBufferSize (cfg.credMaxSize + asBstr 32 + cfg.eadSize)
    (thEnc.length + cred.length + ead.length)
  cborOut (sigStructCap th idCred cred ead mac) .unexpected_result_from_ext_lib
    (cborArr 4 ++ cborTstr strSignature1 ++ cborBstr idCred ++
      cborBstr (thEnc ++ cred ++ ead) ++ cborBstr mac)

/-- signature_or_mac_msg.c:148-178 `signature_or_mac(GENERATE, ...)` -/
def sigOrMacGen (cfg : ECfg) (C : ECrypto) (staticDh : Bool) (suite : Suite)
    (sk pk prk cR mem th idCred cred ead : Bytes) (label : Nat) : R Bytes := do
  let m ← mac cfg C prk cR mem th idCred cred ead label staticDh suite
  if staticDh then pure m
  else do
    let s ← sigStruct cfg th idCred cred ead m
    signMsg C suite.sign sk pk s

/-- signature_or_mac_msg.c:189-192: `memcmp` over the *received* length against a buffer that holds
the MAC.  Reading behind the MAC is `ub`. -/
def macCompare (m received : Bytes) : R Unit :=
  if received.length ≤ m.length then
    if m.take received.length = received then pure () else .err .mac_authentication_failed
  else if received.take m.length = m then .ub
  else .err .mac_authentication_failed

/-- signature_or_mac_msg.c:179-225 `signature_or_mac(VERIFY, ...)` -/
def sigOrMacVerify (cfg : ECfg) (C : ECrypto) (staticDh : Bool) (suite : Suite)
    (pk prk cR mem th idCred cred ead : Bytes) (label : Nat) (received : Bytes) : R Unit := do
  let m ← mac cfg C prk cR mem th idCred cred ead label staticDh suite
  if staticDh then macCompare m received
  else do
    let s ← sigStruct cfg th idCred cred ead m
    let ok ← verifySig C suite.sign pk s received
    if ok then pure () else .err .signature_authentication_failed

/-! ### Certificates and credentials -/

/-- cert.c:204-241, the search over the CA certificates (MBEDTLS).  `issuerMem`: the memory from the
issuer name on (only the subject's length is compared).  Simplifications: a certificate without a CN
(NULL dereference) and a subject longer than the rest of the certificate (read behind it) are not
modelled; the latter counts as a mismatch. -/
def caSearch (C : ECrypto) (issuerMem : Bytes) : List Cred → R Bytes
  | [] => .err .no_such_ca
  | c :: cs =>
    if c.ca.length = 0 then caSearch C issuerMem cs
    else match C.x509 c.ca with
      | none => .err .unexpected_result_from_ext_lib
      | some x =>
        if issuerMem.take x.subject.length = x.subject then .ok c.caPk
        else caSearch C issuerMem cs

/-- cert.c:181-245 `ca_pk_get` (MBEDTLS): a single credential without a CA certificate gives its
`ca_pk` for every issuer -/
def caPkGet (C : ECrypto) (creds : List Cred) (issuerMem : Bytes) : R Bytes :=
  match creds with
  | [c] =>
    if c.ca.length = 0 then
      if c.caPk.length = 0 then .err .no_such_ca else .ok c.caPk
    else caSearch C issuerMem creds
  | _ => caSearch C issuerMem creds

/-- cert.c:290-401 `cert_x509_verify` (MBEDTLS): (verified, public key).  `pkCap` is the size of the
key buffer. -/
def certX509Verify (C : ECrypto) (cert : Bytes) (creds : List Cred) (pkCap : Nat) : R (Bool × Bytes) :=
  match C.x509 cert with
  | none => .err .unexpected_result_from_ext_lib
  | some x =>
    if x.ecdsa = false then .err .unsupported_signature_algorithm
    else do
      let rootPk ← caPkGet C creds x.issuerMem
      let v ← verifySig C .es256 rootPk x.tbs x.sig
      let pk ← memcpyS pkCap x.pk
      pure (v, pk)

/-- src/cbor/edhoc_decode_cert.c:22-60: the fields used.  `issuerMem` is the input from the issuer's
text on. -/
structure C509 where
  issuer : Bytes
  issuerMem : Bytes
  pk : Bytes
  sigAlg : Int
  signature : Bytes
  deriving DecidableEq, Repr

/-- src/cbor/edhoc_decode_cert.c:22-60 `cbor_decode_cert` -/
def decCert (s : Bool) (b : Bytes) : Option C509 := do
  let (_, b) ← zInt32 s b
  let (_, b) ← zInt32 s b
  let (issuer, b') ← zTstr s b
  let mem := issuer ++ b'
  let (_, b) ← zInt32 s b'
  let (_, b) ← zInt32 s b
  let (_, b) ← zBstr s b
  let (_, b) ← zInt32 s b
  let (pk, b) ← zBstr s b
  let (_, b) ← zInt32 s b
  let (alg, b) ← zInt32 s b
  let (sig, _) ← zBstr s b
  pure ⟨issuer, mem, pk, alg, sig⟩

/-- cert.c:280-281, crypto_wrapper.c:358-430: the signature of a C509 certificate, by the algorithm
number found in it -/
def c509Sig (C : ECrypto) (alg : Int) (pk m sig : Bytes) : R Bool :=
  if alg = -7 then verifySig C .es256 pk m sig
  else if alg = -8 then verifySig C .eddsa pk m sig
  else .err .crypto_operation_not_implemented

/-- cert.c:247-288 `cert_c509_verify` -/
def certC509Verify (cfg : ECfg) (C : ECrypto) (cert : Bytes) (creds : List Cred) (pkCap : Nat) :
    R (Bool × Bytes) :=
  match decCert cfg.strictCbor cert with
  | none => .err .unexpected_result_from_ext_lib
  | some c => do
    let rootPk ← caPkGet C creds c.issuerMem
    let v ← c509Sig C c.sigAlg rootPk (cert.take (cert.length - 2 - c.signature.length)) c.signature
    let pk ← memcpyS pkCap c.pk
    pure (v, pk)

/-- PK_SIZE, G_R_SIZE, G_I_SIZE: inc/edhoc/buffer_sizes.h:53-57 -/
def pkSize : Nat := 65

/-- result of `retrieve_cred`: CRED_x, signature key (empty with static DH), static DH key (empty
with signatures) (src/edhoc/retrieve_cred.c:147-180, out parameters of `retrieve_cred`) -/
abbrev CredOut := Bytes × Bytes × Bytes

/-- retrieve_cred.c:53-83: the key goes to `g` or to `pk`; an unverified certificate is refused -/
def certOut (staticDh : Bool) (cred : Bytes) (r : R (Bool × Bytes)) : R CredOut := do
  let (v, key) ← r
  if v then pure (if staticDh then (cred, [], key) else (cred, key, []))
  else .err .certificate_authentication_failed

/-- retrieve_cred.c:40-85 `verify_cert2cred`; `x509`: label x5bag or x5chain, else c5b or c5c -/
def verifyCert2cred (cfg : ECfg) (C : ECrypto) (staticDh : Bool) (creds : List Cred) (x509 : Bool)
    (cert : Bytes) (credCap : Nat) : R CredOut := do
  let cred ← encodeBstr cert credCap
  certOut staticDh cred
    (if x509 then certX509Verify C cert creds pkSize else certC509Verify cfg C cert creds pkSize)

/-- retrieve_cred.c:115-139: the keys of a stored credential -/
def localKeys (staticDh : Bool) (c : Cred) : R (Bytes × Bytes) :=
  if staticDh then
    if c.g.length = 65 then do
      let t ← memcpyS (pkSize - 1) ((c.g.drop 1).take 32)
      pure ([], 2 :: t)
    else do
      let g ← memcpyS pkSize c.g
      pure ([], g)
  else do
    let pk ← memcpyS pkSize c.pk
    pure (pk, [])

/-- retrieve_cred.c:98-145 `get_local_cred` -/
def getLocalCred (staticDh : Bool) (idCred : Bytes) (credCap : Nat) : List Cred → R CredOut
  | [] => .err .credential_not_found
  | c :: cs =>
    if c.idCred.length = idCred.length ∧ c.idCred = idCred then do
      let cred ← memcpyS credCap c.cred
      let (pk, g) ← localKeys staticDh c
      pure (cred, pk, g)
    else getLocalCred staticDh idCred credCap cs

/-- retrieve_cred.c:147-207 `retrieve_cred` -/
def retrieveCred (cfg : ECfg) (C : ECrypto) (staticDh : Bool) (creds : List Cred) (idCred : Bytes)
    (credCap : Nat) : R CredOut :=
  match zIdMap cfg.strictCbor idCred with
  | none => .err .unexpected_result_from_ext_lib
  | some (m, _) =>
    if m.kid.isSome ∨ m.x5u.isSome ∨ m.x5t.isSome ∨ m.c5u.isSome ∨ m.c5t.isSome then
      getLocalCred staticDh idCred credCap creds
    else match m.x5chain, m.x5bag, m.c5c, m.c5b with
      | some cert, _, _, _ => verifyCert2cred cfg C staticDh creds true cert credCap
      | none, some cert, _, _ => verifyCert2cred cfg C staticDh creds true cert credCap
      | none, none, some cert, _ => verifyCert2cred cfg C staticDh creds false cert credCap
      | none, none, none, some cert => verifyCert2cred cfg C staticDh creds false cert credCap
      | none, none, none, none => .err .credential_not_found

end Verif.Edhoc
