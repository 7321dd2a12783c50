import Verif.Model.Base
/-
Specification: DER (X.690) of an X.509 v3 certificate (RFC 5280, 4.1) with an ECDSA signature (RFC 3279,
2.2.3).  Independent of the model.
-/
namespace Verif.DerSpec
open Verif

/-- DER definite length, for lengths below 2^32 -/
def lenBytes (n : Nat) : Bytes :=
  if n < 0x80 then [UInt8.ofNat n]
  else if n < 0x100 then [0x81, UInt8.ofNat n]
  else if n < 0x10000 then [0x82, UInt8.ofNat (n / 0x100), UInt8.ofNat n]
  else if n < 0x1000000 then [0x83, UInt8.ofNat (n / 0x10000), UInt8.ofNat (n / 0x100), UInt8.ofNat n]
  else [0x84, UInt8.ofNat (n / 0x1000000), UInt8.ofNat (n / 0x10000), UInt8.ofNat (n / 0x100), UInt8.ofNat n]

/-- tag, length, contents -/
def tlv (tag : UInt8) (content : Bytes) : Bytes := tag :: (lenBytes content.length ++ content)

/-- an INTEGER from its minimal unsigned big-endian bytes (first byte not zero) -/
def int (v : Bytes) : Bytes :=
  tlv 0x02 (if 0x80 ≤ (v.headD 0).toNat then 0 :: v else v)

/-- BIT STRING without unused bits -/
def bits (v : Bytes) : Bytes := tlv 0x03 (0 :: v)

/-- SEQUENCE -/
def seq (v : Bytes) : Bytes := tlv 0x30 v

/-- the parts of a certificate -/
structure Cert where
  /-- version, serialNumber, signature, issuer, validity, subject: tag and contents -/
  e1 : UInt8 × Bytes
  e2 : UInt8 × Bytes
  e3 : UInt8 × Bytes
  e4 : UInt8 × Bytes
  e5 : UInt8 × Bytes
  e6 : UInt8 × Bytes
  /-- contents of SubjectPublicKeyInfo.algorithm -/
  keyAlg : Bytes
  /-- the public key -/
  pk : Bytes
  /-- what follows in TBSCertificate (extensions), encoded -/
  rest : Bytes
  /-- contents of signatureAlgorithm -/
  sigAlg : Bytes
  /-- ECDSA-Sig-Value: minimal unsigned big-endian bytes of r and s -/
  r : Bytes
  s : Bytes

/-- TBSCertificate -/
def Cert.tbs (k : Cert) : Bytes :=
  seq (tlv k.e1.1 k.e1.2 ++ tlv k.e2.1 k.e2.2 ++ tlv k.e3.1 k.e3.2 ++ tlv k.e4.1 k.e4.2 ++
    tlv k.e5.1 k.e5.2 ++ tlv k.e6.1 k.e6.2 ++ seq (seq k.keyAlg ++ bits k.pk) ++ k.rest)

/-- the certificate -/
def Cert.der (k : Cert) : Bytes :=
  seq (k.tbs ++ seq k.sigAlg ++ bits (seq (int k.r ++ int k.s)))

/-- minimal bytes of a positive number below 2^256 -/
def Scalar (v : Bytes) : Prop := v ≠ [] ∧ v.head? ≠ some 0 ∧ v.length ≤ 32

/-- well-formed: the algorithm identifiers start with a tag, the key fits 65 bytes, r and s are scalars,
and the size is below 4 GB -/
structure Cert.WF (k : Cert) : Prop where
  tag1 : k.e1.1 ≠ 0
  keyAlg : k.keyAlg ≠ [] ∧ k.keyAlg.head? ≠ some 0
  sigAlg : k.sigAlg ≠ [] ∧ k.sigAlg.head? ≠ some 0
  pk : k.pk.length ≤ 65
  r : Scalar k.r
  s : Scalar k.s
  size : k.der.length < 2 ^ 32

end Verif.DerSpec
