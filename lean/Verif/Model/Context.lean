import Verif.Model.Crypto
import Verif.Model.Cbor
import Verif.Model.Replay
import Verif.Model.PivNonce
import Verif.Model.Interactions
/-
src/oscore/security_context.c, nvm.c, aad.c, oscore_cose.c, oscore_hkdf_info.c
-/
namespace Verif

/-- inc/oscore/security_context.h `enum echo_state` -/
inductive EchoState where
  | reboot | verify | synchronized
  deriving DecidableEq, Repr

/-- inc/oscore/security_context.h:34-100 `struct context`.  Left out: the algorithm identifiers
(only one value is accepted by `oscore_context_init`). -/
structure Ctx where
  fresh : Bool
  idContext : Bytes
  commonIv : Bytes
  senderId : Bytes
  senderKey : Bytes
  ssn : Nat
  recipientId : Bytes
  recipientKey : Bytes
  window : ReplayWindow
  notifNum : Nat
  notifInit : Bool
  nonce : Bytes
  inter : Table
  echoVal : Bytes
  echo : EchoState
  deriving DecidableEq, Repr

/-- inc/oscore.h:66-108 `struct oscore_init_params` -/
structure InitParams where
  masterSecret : Bytes
  masterSalt : Bytes
  senderId : Bytes
  recipientId : Bytes
  idContext : Bytes
  aeadAlg : Int := 10
  hkdf : Int := -10
  fresh : Bool
  deriving DecidableEq, Repr

/-- inc/oscore/oscore_hkdf_info.h `enum derive_type` -/
inductive DeriveType where
  | key | iv
  deriving DecidableEq, Repr

/-- oscore_hkdf_info.c:40-88 `oscore_create_hkdf_info` with src/cbor/oscore_info.c (array of 5:
id, id_context / nil, alg_aead = 10, type, L); output buffer MAX_INFO_LEN = 50. -/
def hkdfInfo (id idContext : Bytes) (ty : DeriveType) : R Bytes :=
  cborOut 50 .unexpected_result_from_ext_lib
    (cborArr 5 ++ cborBstr id ++ (if idContext.length = 0 then cborNil else cborBstr idContext) ++
      cborInt 10 ++
      (match ty with
       | .key => cborTstr [0x4B, 0x65, 0x79] ++ cborUint 16
       | .iv => cborTstr [0x49, 0x56] ++ cborUint 13))

/-- security_context.c:41-60 `derive`; the output is 16 bytes (keys) or 13 bytes (Common IV):
security_context.h:40-70. -/
def derive (cfg : Cfg) (C : Crypto) (p : InitParams) (id : Bytes) (ty : DeriveType) : R Bytes := do
  let info ← hkdfInfo id p.idContext ty
  hkdfSha256 cfg C p.masterSecret p.masterSalt info (match ty with | .key => 16 | .iv => 13)

/-- nvm.c:51-73 `ssn_init`; `nvmRead` is what the user's `nvm_read_ssn` returns. -/
def ssnInit (cfg : Cfg) (nvmRead : R Nat) (fresh : Bool) : R Nat :=
  if fresh then .ok 0
  else if cfg.nvm then do
    let s ← nvmRead
    pure ((s + (cfg.kStore + cfg.fStore)) % 2 ^ 64)
  else .err .not_implemented

/-- security_context.c:104-165 `oscore_context_init`.  `junkNonce` (13 bytes) and `junkEcho`
(ECHO_OPT_VALUE_LEN = 12 bytes) are the previous contents of the buffers that init does not clear.
The recipient ID is copied into an 8-byte buffer without a check (line 133): `ub` when longer. -/
def contextInit (cfg : Cfg) (C : Crypto) (p : InitParams) (nvmRead : R Nat)
    (junkNonce junkEcho : Bytes) : R Ctx :=
  if p.aeadAlg ≠ 10 then .err .oscore_invalid_algorithm_aead
  else if p.hkdf ≠ -10 then .err .oscore_invalid_algorithm_hkdf
  else do
    let iv ← derive cfg C p [] .iv
    if p.recipientId.length > 8 then .ub
    else do
      let rk ← derive cfg C p p.recipientId .key
      let ssn ← ssnInit cfg nvmRead p.fresh
      let sk ← derive cfg C p p.senderId .key
      pure { fresh := p.fresh, idContext := p.idContext, commonIv := iv,
             senderId := p.senderId, senderKey := sk, ssn := ssn,
             recipientId := p.recipientId, recipientKey := rk,
             window := ReplayWindow.init cfg.windowSize, notifNum := 0, notifInit := false,
             nonce := junkNonce, inter := Table.init cfg.interactions, echoVal := junkEcho,
             echo := if p.fresh then .synchronized else .reboot }

/-- inc/oscore/security_context.h OSCORE_SSN_OVERFLOW_VALUE -/
def ssnOverflow : Nat := 0x7FFFFF

/-- security_context.c:167-182 `check_context_freshness` -/
def checkFreshness (c : Ctx) : R Unit :=
  if c.ssn ≥ ssnOverflow then .err .oscore_ssn_overflow else .ok ()

/-- aad.c:22-57 `create_aad` with src/cbor/oscore_aad_array.c: `[1, [10], kid, piv, h'']` in a buffer
of MAX_AAD_LEN = 30 bytes. -/
def createAad (kid piv : Bytes) : R Bytes :=
  cborOut 30 .unexpected_result_from_ext_lib
    (cborArr 5 ++ cborUint 1 ++ cborArr 1 ++ cborInt 10 ++ cborBstr kid ++ cborBstr piv ++ cborBstr [])

/-- "Encrypt0" (src/oscore/oscore_cose.c:39) -/
def strEncrypt0 : Bytes := [0x45, 0x6E, 0x63, 0x72, 0x79, 0x70, 0x74, 0x30]

/-- oscore_cose.c:34-60 `create_enc_structure` and the buffer check of the callers (68-70, 92-94):
`["Encrypt0", h'', aad]` in `aad.len + 16 ≤ 30` bytes. -/
def encStructure (aad : Bytes) : R Bytes := do
  checkBufferSize 30 (aad.length + 16)
  cborOut (aad.length + 16) .unexpected_result_from_ext_lib
    (cborArr 3 ++ cborTstr strEncrypt0 ++ cborBstr [] ++ cborBstr aad)

/-- AUTH_TAG_LEN (inc/oscore/supported_algorithm.h:25) -/
def tagLen : Nat := 8

/-- a library failure becomes `unexpected_result_from_ext_lib` (`TRY_EXPECT`, inc/common/oscore_edhoc_error.h:96-104) -/
def ofLib {α : Type} : Option α → R α
  | some a => .ok a
  | none => .err .unexpected_result_from_ext_lib

/-- oscore_cose.c:61-83 `oscore_cose_decrypt` -/
def coseDecrypt (C : Crypto) (ct nonce aad key : Bytes) : R Bytes := do
  let a ← encStructure aad
  ofLib (C.aeadDec key nonce a tagLen ct)

/-- oscore_cose.c:85-112 `oscore_cose_encrypt` -/
def coseEncrypt (C : Crypto) (pt nonce aad key : Bytes) : R Bytes := do
  let a ← encStructure aad
  ofLib (C.aeadEnc key nonce a tagLen pt)

end Verif
