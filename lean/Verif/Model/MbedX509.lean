import Verif.Model.EdhocAuth
import Verif.Model.Asn1
/-
src/edhoc/cert.c – X.509 certificates in the configuration with MBEDTLS, at the level of what the mbedTLS
parser leaves behind.  A position is an offset in the certificate, which mbedTLS does not copy
(`parse_der_nocopy`); reads outside the certificate are `ub`.
-/
namespace Verif.MbedX509
open Verif Edhoc Asn1

/-- What `mbedtls_x509_crt_parse_der_nocopy` stores (library; only the fields cert.c uses).  Positions and
lengths refer to the parsed certificate. -/
structure Crt where
  /-- issuer and subject: for each attribute whether its OID is id-at-commonName, position and length of
  the value -/
  issuer : List (Bool × Nat × Nat)
  subject : List (Bool × Nat × Nat)
  /-- `sig_pk` is MBEDTLS_PK_ECDSA -/
  ecdsa : Bool
  /-- size of the hash `sig_md`; `none` if mbedTLS does not know it -/
  hashLen : Option Nat
  /-- TBSCertificate -/
  tbs : Nat × Nat
  /-- the bits of signatureValue -/
  sig : Nat × Nat
  /-- SubjectPublicKeyInfo -/
  pkRaw : Nat × Nat
  deriving DecidableEq, Repr

/-- cert.c:222-229, 317-330: the last common name; `none` is the NULL pointer -/
def lastCn (l : List (Bool × Nat × Nat)) : Option (Nat × Nat) :=
  ((l.filter (fun a => a.1)).getLast?).map (fun a => a.2)

/-- `mbedtls_asn1_get_len` of mbedTLS (library), reading from `pos`, not beyond `stop`: position of the
contents and length.  (The copy of this function at cert.c:112-166 is `Asn1.getLen`.) -/
def libLen (c : Bytes) (stop pos : Nat) : Option (Nat × Nat) :=
  let q := getLen (c.take stop) pos 0
  if q.1 = pos then none else if q.1 + q.2 ≤ stop then some q else none

/-- `mbedtls_asn1_traverse_sequence_of` (library), the loop: the callbacks made, as tag, start and length.
`fuel` bounds the number of elements. Called from src/edhoc/cert.c. -/
def libElems (c : Bytes) (stop : Nat) : Nat → Nat → List (UInt8 × Nat × Nat)
  | 0, _ => []
  | fuel + 1, pos =>
    if pos < stop then
      match libLen c stop (pos + 1) with
      | none => []
      | some (p, l) => (c.getD pos 0, p, l) :: libElems c stop fuel (p + l)
    else []

/-- `mbedtls_asn1_traverse_sequence_of` (library) with masks 0, as called at cert.c:367 and 384: the callbacks
made.  Its result is ignored by cert.c. -/
def libTraverse (c : Bytes) (pl : Nat × Nat) : List (UInt8 × Nat × Nat) :=
  let stop := pl.1 + pl.2
  if pl.1 < stop ∧ c.getD pl.1 0 = tagSequence then
    match libLen c stop (pl.1 + 1) with
    | none => []
    | some (p, l) => if p + l = stop then libElems c stop pl.2 p else []
  else []

/-- cert.c:51-64 `deser_sign_cb`: `out` are the bytes written to the 64-byte buffer so far -/
def deserSign (c : Bytes) (unit : Nat) (out : Bytes) (e : UInt8 × Nat × Nat) : R Bytes :=
  if e.1 = tagInteger then
    if out.length + unit ≤ 64 then
      if e.2.1 + e.2.2 < unit then .ub
      else do
        let b ← rdSlice c (e.2.1 + e.2.2 - unit) unit
        pure (out ++ b)
    else pure out
  else pure out

/-- cert.c:361-371: the callbacks in order -/
def deserAll (c : Bytes) (unit : Nat) : Bytes → List (UInt8 × Nat × Nat) → R Bytes
  | out, [] => .ok out
  | out, e :: es => do
    let out ← deserSign c unit out e
    deserAll c unit out es

/-- cert.c:355, 361-371: the 64 bytes given to `verify`; `junk` is the uninitialised buffer -/
def rawSig (c : Bytes) (crt : Crt) (unit : Nat) (junk : Bytes) : R Bytes := do
  let out ← deserAll c unit [] (libTraverse c crt.sig)
  pure (out ++ junk.drop out.length)

/-- cert.c:66-75 `find_pk_cb`: start of the last BIT STRING -/
def findPk (es : List (UInt8 × Nat × Nat)) : Option Nat :=
  ((es.filter (fun e => e.1 == tagBitString)).getLast?).map (fun e => e.2.1)

/-- cert.c:380-396: the key, up to the end of SubjectPublicKeyInfo, without the byte for unused bits.  Without
a BIT STRING the length is 0 and nothing is copied. -/
def exportPk (c : Bytes) (crt : Crt) (pkCap : Nat) : R Bytes :=
  match findPk (libTraverse c crt.pkRaw) with
  | none => .ok []
  | some p => do
    let b ← rd c p
    let start := if b = 0 then p + 1 else p
    let len := (crt.pkRaw.1 + crt.pkRaw.2 + 2 ^ 32 - start) % 2 ^ 32
    if len = 0 then pure []
    else do
      checkBufferSize pkCap len
      rdSlice c start len

/-- cert.c:231 `memcmp(subject_id->p, issuer, subject_id->len)`: equal?  Reading behind the received certificate is
`ub`; that is where a comparison ends up which finds no difference before. -/
def nameEq (subject issuerMem : Bytes) : R Bool :=
  if subject.length ≤ issuerMem.length then .ok (issuerMem.take subject.length == subject)
  else if subject.take issuerMem.length = issuerMem then .ub
  else .ok false

/-- cert.c:204-241: the search over the CA certificates.  A subject without common name is a NULL pointer that is
dereferenced. -/
def caSearch (parse : Bytes → Option Crt) (issuerMem : Bytes) : List Cred → R Bytes
  | [] => .err .no_such_ca
  | k :: ks =>
    if k.ca.length = 0 then caSearch parse issuerMem ks
    else match parse k.ca with
      | none => .err .unexpected_result_from_ext_lib
      | some x =>
        match lastCn x.subject with
        | none => .ub
        | some (p, l) => do
          let s ← rdSlice k.ca p l
          let eq ← nameEq s issuerMem
          if eq then pure k.caPk else caSearch parse issuerMem ks

/-- cert.c:181-245 `ca_pk_get` -/
def caPkGet (parse : Bytes → Option Crt) (creds : List Cred) (issuerMem : Bytes) : R Bytes :=
  match creds with
  | [k] =>
    if k.ca.length = 0 then
      if k.caPk.length = 0 then .err .no_such_ca else .ok k.caPk
    else caSearch parse issuerMem creds
  | _ => caSearch parse issuerMem creds

/-- cert.c:334-353: algorithm and hash of the signature: the hash length -/
def sigAlgCheck (x : Crt) : R Nat :=
  if x.ecdsa = false then .err .unsupported_signature_algorithm
  else match x.hashLen with
    | none => .err .unsupported_signature_algorithm
    | some n => .ok n

/-- cert.c:359 `issuer_id->p`: the memory from the issuer's common name on -/
def issuerAt (c : Bytes) (x : Crt) : R Bytes :=
  match lastCn x.issuer with
  | none => .ub
  | some (p, _) => .ok (c.drop p)

/-- cert.c:290-398 `cert_x509_verify`: (`*verified`, key) -/
def certX509 (C : ECrypto) (parse : Bytes → Option Crt) (junk c : Bytes) (creds : List Cred) (pkCap : Nat) :
    R (Bool × Bytes) :=
  match parse c with
  | none => .err .unexpected_result_from_ext_lib
  | some x => do
    let unit ← sigAlgCheck x
    let issuer ← issuerAt c x
    let root ← caPkGet parse creds issuer
    let sig ← rawSig c x unit junk
    let m ← rdSlice c x.tbs.1 x.tbs.2
    let v ← verifySig C .es256 root m sig
    let pk ← exportPk c x pkCap
    pure (v, pk)

end Verif.MbedX509
