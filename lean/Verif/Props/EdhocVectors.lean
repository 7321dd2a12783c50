import Verif.Props.RealEdhoc
import Verif.Props.MbedCert
import Verif.Lemmas.EdhocToy
/-
Tests of the model (not properties): with the standardised primitives it reproduces, byte by byte, the EDHOC
trace of /repo/test_vectors/edhoc_test_vectors_rfc9529.c (RFC 9529, section 2: signatures, X25519, EdDSA, x5t)
in both roles, including message_4, and the exporter vectors; and it completes the interaction tests of
/repo/test/edhoc_integration_tests with the X.509 certificates, ECDSA and static Diffie-Hellman keys of
/repo/test_vectors/edhoc_test_vectors_p256_v15.json.  Evaluated by the kernel.
-/
namespace Verif.Edhoc.Vectors
open Verif Verif.Edhoc
set_option maxRecDepth 100000
set_option maxHeartbeats 0

/-- /repo/test_vectors/edhoc_test_vectors_rfc9529.c T1_RFC9529__X -/
def T1_X : Bytes :=
  [0x89, 0x2e, 0xc2, 0x8e, 0x5c, 0xb6, 0x66, 0x91, 0x08, 0x47, 0x05, 0x39, 0x50, 0x0b, 0x70, 0x5e, 0x60, 0xd0,
   0x08, 0xd3, 0x47, 0xc5, 0x81, 0x7e, 0xe9, 0xf3, 0x32, 0x7c, 0x8a, 0x87, 0xbb, 0x03]

/-- /repo/test_vectors/edhoc_test_vectors_rfc9529.c T1_RFC9529__G_X -/
def T1_G_X : Bytes :=
  [0x31, 0xf8, 0x2c, 0x7b, 0x5b, 0x9c, 0xbb, 0xf0, 0xf1, 0x94, 0xd9, 0x13, 0xcc, 0x12, 0xef, 0x15, 0x32, 0xd3,
   0x28, 0xef, 0x32, 0x63, 0x2a, 0x48, 0x81, 0xa1, 0xc0, 0x70, 0x1e, 0x23, 0x7f, 0x04]

/-- /repo/test_vectors/edhoc_test_vectors_rfc9529.c T1_RFC9529__Y -/
def T1_Y : Bytes :=
  [0xe6, 0x9c, 0x23, 0xfb, 0xf8, 0x1b, 0xc4, 0x35, 0x94, 0x24, 0x46, 0x83, 0x7f, 0xe8, 0x27, 0xbf, 0x20, 0x6c,
   0x8f, 0xa1, 0x0a, 0x39, 0xdb, 0x47, 0x44, 0x9e, 0x5a, 0x81, 0x34, 0x21, 0xe1, 0xe8]

/-- /repo/test_vectors/edhoc_test_vectors_rfc9529.c T1_RFC9529__G_Y -/
def T1_G_Y : Bytes :=
  [0xdc, 0x88, 0xd2, 0xd5, 0x1d, 0xa5, 0xed, 0x67, 0xfc, 0x46, 0x16, 0x35, 0x6b, 0xc8, 0xca, 0x74, 0xef, 0x9e,
   0xbe, 0x8b, 0x38, 0x7e, 0x62, 0x3a, 0x36, 0x0b, 0xa4, 0x80, 0xb9, 0xb2, 0x9d, 0x1c]

/-- /repo/test_vectors/edhoc_test_vectors_rfc9529.c T1_RFC9529__SK_I -/
def T1_SK_I : Bytes :=
  [0x4c, 0x5b, 0x25, 0x87, 0x8f, 0x50, 0x7c, 0x6b, 0x9d, 0xae, 0x68, 0xfb, 0xd4, 0xfd, 0x3f, 0xf9, 0x97, 0x53,
   0x3d, 0xb0, 0xaf, 0x00, 0xb2, 0x5d, 0x32, 0x4e, 0xa2, 0x8e, 0x6c, 0x21, 0x3b, 0xc8]

/-- /repo/test_vectors/edhoc_test_vectors_rfc9529.c T1_RFC9529__PK_I -/
def T1_PK_I : Bytes :=
  [0xed, 0x06, 0xa8, 0xae, 0x61, 0xa8, 0x29, 0xba, 0x5f, 0xa5, 0x45, 0x25, 0xc9, 0xd0, 0x7f, 0x48, 0xdd, 0x44,
   0xa3, 0x02, 0xf4, 0x3e, 0x0f, 0x23, 0xd8, 0xcc, 0x20, 0xb7, 0x30, 0x85, 0x14, 0x1e]

/-- /repo/test_vectors/edhoc_test_vectors_rfc9529.c T1_RFC9529__SK_R -/
def T1_SK_R : Bytes :=
  [0xef, 0x14, 0x0f, 0xf9, 0x00, 0xb0, 0xab, 0x03, 0xf0, 0xc0, 0x8d, 0x87, 0x9c, 0xbb, 0xd4, 0xb3, 0x1e, 0xa7,
   0x1e, 0x6e, 0x7e, 0xe7, 0xff, 0xcb, 0x7e, 0x79, 0x55, 0x77, 0x7a, 0x33, 0x27, 0x99]

/-- /repo/test_vectors/edhoc_test_vectors_rfc9529.c T1_RFC9529__PK_R -/
def T1_PK_R : Bytes :=
  [0xa1, 0xdb, 0x47, 0xb9, 0x51, 0x84, 0x85, 0x4a, 0xd1, 0x2a, 0x0c, 0x1a, 0x35, 0x4e, 0x41, 0x8a, 0xac, 0xe3,
   0x3a, 0xa0, 0xf2, 0xc6, 0x62, 0xc0, 0x0b, 0x3a, 0xc5, 0x5d, 0xe9, 0x2f, 0x93, 0x59]

/-- /repo/test_vectors/edhoc_test_vectors_rfc9529.c T1_RFC9529__ID_CRED_R -/
def T1_ID_CRED_R : Bytes :=
  [0xa1, 0x18, 0x22, 0x82, 0x2e, 0x48, 0x79, 0xf2, 0xa4, 0x1b, 0x51, 0x0c, 0x1f, 0x9b]

/-- /repo/test_vectors/edhoc_test_vectors_rfc9529.c T1_RFC9529__CRED_R -/
def T1_CRED_R : Bytes :=
  [0x58, 0xf1, 0x30, 0x81, 0xee, 0x30, 0x81, 0xa1, 0xa0, 0x03, 0x02, 0x01, 0x02, 0x02, 0x04, 0x62, 0x31, 0x9e,
   0xc4, 0x30, 0x05, 0x06, 0x03, 0x2b, 0x65, 0x70, 0x30, 0x1d, 0x31, 0x1b, 0x30, 0x19, 0x06, 0x03, 0x55, 0x04,
   0x03, 0x0c, 0x12, 0x45, 0x44, 0x48, 0x4f, 0x43, 0x20, 0x52, 0x6f, 0x6f, 0x74, 0x20, 0x45, 0x64, 0x32, 0x35,
   0x35, 0x31, 0x39, 0x30, 0x1e, 0x17, 0x0d, 0x32, 0x32, 0x30, 0x33, 0x31, 0x36, 0x30, 0x38, 0x32, 0x34, 0x33,
   0x36, 0x5a, 0x17, 0x0d, 0x32, 0x39, 0x31, 0x32, 0x33, 0x31, 0x32, 0x33, 0x30, 0x30, 0x30, 0x30, 0x5a, 0x30,
   0x22, 0x31, 0x20, 0x30, 0x1e, 0x06, 0x03, 0x55, 0x04, 0x03, 0x0c, 0x17, 0x45, 0x44, 0x48, 0x4f, 0x43, 0x20,
   0x52, 0x65, 0x73, 0x70, 0x6f, 0x6e, 0x64, 0x65, 0x72, 0x20, 0x45, 0x64, 0x32, 0x35, 0x35, 0x31, 0x39, 0x30,
   0x2a, 0x30, 0x05, 0x06, 0x03, 0x2b, 0x65, 0x70, 0x03, 0x21, 0x00, 0xa1, 0xdb, 0x47, 0xb9, 0x51, 0x84, 0x85,
   0x4a, 0xd1, 0x2a, 0x0c, 0x1a, 0x35, 0x4e, 0x41, 0x8a, 0xac, 0xe3, 0x3a, 0xa0, 0xf2, 0xc6, 0x62, 0xc0, 0x0b,
   0x3a, 0xc5, 0x5d, 0xe9, 0x2f, 0x93, 0x59, 0x30, 0x05, 0x06, 0x03, 0x2b, 0x65, 0x70, 0x03, 0x41, 0x00, 0xb7,
   0x23, 0xbc, 0x01, 0xea, 0xb0, 0x92, 0x8e, 0x8b, 0x2b, 0x6c, 0x98, 0xde, 0x19, 0xcc, 0x38, 0x23, 0xd4, 0x6e,
   0x7d, 0x69, 0x87, 0xb0, 0x32, 0x47, 0x8f, 0xec, 0xfa, 0xf1, 0x45, 0x37, 0xa1, 0xaf, 0x14, 0xcc, 0x8b, 0xe8,
   0x29, 0xc6, 0xb7, 0x30, 0x44, 0x10, 0x18, 0x37, 0xeb, 0x4a, 0xbc, 0x94, 0x95, 0x65, 0xd8, 0x6d, 0xce, 0x51,
   0xcf, 0xae, 0x52, 0xab, 0x82, 0xc1, 0x52, 0xcb, 0x02]

/-- /repo/test_vectors/edhoc_test_vectors_rfc9529.c T1_RFC9529__ID_CRED_I -/
def T1_ID_CRED_I : Bytes :=
  [0xa1, 0x18, 0x22, 0x82, 0x2e, 0x48, 0xc2, 0x4a, 0xb2, 0xfd, 0x76, 0x43, 0xc7, 0x9f]

/-- /repo/test_vectors/edhoc_test_vectors_rfc9529.c T1_RFC9529__CRED_I -/
def T1_CRED_I : Bytes :=
  [0x58, 0xf1, 0x30, 0x81, 0xee, 0x30, 0x81, 0xa1, 0xa0, 0x03, 0x02, 0x01, 0x02, 0x02, 0x04, 0x62, 0x31, 0x9e,
   0xa0, 0x30, 0x05, 0x06, 0x03, 0x2b, 0x65, 0x70, 0x30, 0x1d, 0x31, 0x1b, 0x30, 0x19, 0x06, 0x03, 0x55, 0x04,
   0x03, 0x0c, 0x12, 0x45, 0x44, 0x48, 0x4f, 0x43, 0x20, 0x52, 0x6f, 0x6f, 0x74, 0x20, 0x45, 0x64, 0x32, 0x35,
   0x35, 0x31, 0x39, 0x30, 0x1e, 0x17, 0x0d, 0x32, 0x32, 0x30, 0x33, 0x31, 0x36, 0x30, 0x38, 0x32, 0x34, 0x30,
   0x30, 0x5a, 0x17, 0x0d, 0x32, 0x39, 0x31, 0x32, 0x33, 0x31, 0x32, 0x33, 0x30, 0x30, 0x30, 0x30, 0x5a, 0x30,
   0x22, 0x31, 0x20, 0x30, 0x1e, 0x06, 0x03, 0x55, 0x04, 0x03, 0x0c, 0x17, 0x45, 0x44, 0x48, 0x4f, 0x43, 0x20,
   0x49, 0x6e, 0x69, 0x74, 0x69, 0x61, 0x74, 0x6f, 0x72, 0x20, 0x45, 0x64, 0x32, 0x35, 0x35, 0x31, 0x39, 0x30,
   0x2a, 0x30, 0x05, 0x06, 0x03, 0x2b, 0x65, 0x70, 0x03, 0x21, 0x00, 0xed, 0x06, 0xa8, 0xae, 0x61, 0xa8, 0x29,
   0xba, 0x5f, 0xa5, 0x45, 0x25, 0xc9, 0xd0, 0x7f, 0x48, 0xdd, 0x44, 0xa3, 0x02, 0xf4, 0x3e, 0x0f, 0x23, 0xd8,
   0xcc, 0x20, 0xb7, 0x30, 0x85, 0x14, 0x1e, 0x30, 0x05, 0x06, 0x03, 0x2b, 0x65, 0x70, 0x03, 0x41, 0x00, 0x52,
   0x12, 0x41, 0xd8, 0xb3, 0xa7, 0x70, 0x99, 0x6b, 0xcf, 0xc9, 0xb9, 0xea, 0xd4, 0xe7, 0xe0, 0xa1, 0xc0, 0xdb,
   0x35, 0x3a, 0x3b, 0xdf, 0x29, 0x10, 0xb3, 0x92, 0x75, 0xae, 0x48, 0xb7, 0x56, 0x01, 0x59, 0x81, 0x85, 0x0d,
   0x27, 0xdb, 0x67, 0x34, 0xe3, 0x7f, 0x67, 0x21, 0x22, 0x67, 0xdd, 0x05, 0xee, 0xff, 0x27, 0xb9, 0xe7, 0xa8,
   0x13, 0xfa, 0x57, 0x4b, 0x72, 0xa0, 0x0b, 0x43, 0x0b]

/-- /repo/test_vectors/edhoc_test_vectors_rfc9529.c T1_RFC9529__MESSAGE_1 -/
def T1_MESSAGE_1 : Bytes :=
  [0x00, 0x00, 0x58, 0x20, 0x31, 0xf8, 0x2c, 0x7b, 0x5b, 0x9c, 0xbb, 0xf0, 0xf1, 0x94, 0xd9, 0x13, 0xcc, 0x12,
   0xef, 0x15, 0x32, 0xd3, 0x28, 0xef, 0x32, 0x63, 0x2a, 0x48, 0x81, 0xa1, 0xc0, 0x70, 0x1e, 0x23, 0x7f, 0x04,
   0x2d]

/-- /repo/test_vectors/edhoc_test_vectors_rfc9529.c T1_RFC9529__MESSAGE_2 -/
def T1_MESSAGE_2 : Bytes :=
  [0x58, 0x72, 0xdc, 0x88, 0xd2, 0xd5, 0x1d, 0xa5, 0xed, 0x67, 0xfc, 0x46, 0x16, 0x35, 0x6b, 0xc8, 0xca, 0x74,
   0xef, 0x9e, 0xbe, 0x8b, 0x38, 0x7e, 0x62, 0x3a, 0x36, 0x0b, 0xa4, 0x80, 0xb9, 0xb2, 0x9d, 0x1c, 0xbc, 0x26,
   0xdd, 0x27, 0x0f, 0xe9, 0xc0, 0x2c, 0x44, 0xce, 0x39, 0x34, 0x79, 0x4b, 0x1c, 0xc6, 0x2b, 0xa2, 0x2f, 0x05,
   0x45, 0x9f, 0x8d, 0x35, 0x8c, 0x8d, 0x12, 0x27, 0x5a, 0xc4, 0x2c, 0x5f, 0x96, 0xde, 0xd5, 0xf1, 0x3c, 0xc9,
   0x08, 0x4e, 0x5b, 0x20, 0x18, 0x89, 0xa4, 0x5e, 0x5a, 0x60, 0xa5, 0x56, 0x2d, 0xc1, 0x18, 0x61, 0x9c, 0x3d,
   0xaa, 0x2f, 0xd9, 0xf4, 0xc9, 0xf4, 0xd6, 0xed, 0xad, 0x10, 0x9d, 0xd4, 0xed, 0xf9, 0x59, 0x62, 0xaa, 0xfb,
   0xaf, 0x9a, 0xb3, 0xf4, 0xa1, 0xf6, 0xb9, 0x8f]

/-- /repo/test_vectors/edhoc_test_vectors_rfc9529.c T1_RFC9529__MESSAGE_3 -/
def T1_MESSAGE_3 : Bytes :=
  [0x58, 0x58, 0x25, 0xc3, 0x45, 0x88, 0x4a, 0xaa, 0xeb, 0x22, 0xc5, 0x27, 0xf9, 0xb1, 0xd2, 0xb6, 0x78, 0x72,
   0x07, 0xe0, 0x16, 0x3c, 0x69, 0xb6, 0x2a, 0x0d, 0x43, 0x92, 0x81, 0x50, 0x42, 0x72, 0x03, 0xc3, 0x16, 0x74,
   0xe4, 0x51, 0x4e, 0xa6, 0xe3, 0x83, 0xb5, 0x66, 0xeb, 0x29, 0x76, 0x3e, 0xfe, 0xb0, 0xaf, 0xa5, 0x18, 0x77,
   0x6a, 0xe1, 0xc6, 0x5f, 0x85, 0x6d, 0x84, 0xbf, 0x32, 0xaf, 0x3a, 0x78, 0x36, 0x97, 0x04, 0x66, 0xdc, 0xb7,
   0x1f, 0x76, 0x74, 0x5d, 0x39, 0xd3, 0x02, 0x5e, 0x77, 0x03, 0xe0, 0xc0, 0x32, 0xeb, 0xad, 0x51, 0x94, 0x7c]

/-- /repo/test_vectors/edhoc_test_vectors_rfc9529.c T1_RFC9529__MESSAGE_4 -/
def T1_MESSAGE_4 : Bytes :=
  [0x48, 0x4f, 0x0e, 0xde, 0xe3, 0x66, 0xe5, 0xc8, 0x83]

/-- /repo/test_vectors/edhoc_test_vectors_rfc9529.c T1_RFC9529__PRK_out -/
def T1_PRK_out : Bytes :=
  [0xb7, 0x44, 0xcb, 0x7d, 0x8a, 0x87, 0xcc, 0x04, 0x47, 0xc3, 0x35, 0x0e, 0x16, 0x5b, 0x25, 0x0d, 0xab, 0x12,
   0xec, 0x45, 0x33, 0x25, 0xab, 0xb9, 0x22, 0xb3, 0x03, 0x07, 0xe5, 0xc3, 0x68, 0xf0]

/-- no certificates are parsed here -/
def E1 : ECrypto := realE (fun _ _ => 1) (fun _ => none)
/-- the build of the test: MESSAGE_4 -/
def cfg4 : ECfg := { message4 := true }

/-- edhoc_tests_rfc9529.c test_edhoc_initiator_x509_x5t_rfc9529 -/
def t1I : ICtx :=
  { cI := [0x2d], method := 0, suitesI := [0], ead1 := [], ead3 := [], idCredI := T1_ID_CRED_I, credI := T1_CRED_I
    gX := T1_G_X, x := T1_X, i := [], skI := T1_SK_I, pkI := T1_PK_I }
/-- edhoc_tests_rfc9529.c test_edhoc_responder_x509_x5t_rfc9529 -/
def t1R : RCtx :=
  { cR := [0x18], cRMem := [0, 0, 0], suitesR := [0], gY := T1_G_Y, y := T1_Y, r := [], ead2 := [], ead4 := []
    idCredR := T1_ID_CRED_R, credR := T1_CRED_R, skR := T1_SK_R, pkR := T1_PK_R }

/-- the keys of the trace belong together -/
theorem t1_keys : Curves.x25519 T1_X (9 :: List.replicate 31 0) = T1_G_X ∧ Curves.x25519 T1_Y (9 :: List.replicate 31 0) = T1_G_Y ∧
    Curves.edPublic T1_SK_I = T1_PK_I ∧ Curves.edPublic T1_SK_R = T1_PK_R := by decide +kernel

/-- RFC 9529, section 2: the initiator sends message_1 and message_3 and ends with PRK_out -/
theorem t1_initiator :
    let q := initiatorRun cfg4 E1 t1I [⟨T1_ID_CRED_R, T1_CRED_R, T1_PK_R, [], [], []⟩] (List.replicate 10 0) 32
      (netOf [T1_MESSAGE_2, T1_MESSAGE_4])
    q.2.sent = [T1_MESSAGE_1, T1_MESSAGE_3] ∧ (fun o => (o.cR, o.prkOut)) <$> q.1 = R.ok ([0x18], some T1_PRK_out) := by
  decide +kernel

/-- RFC 9529, section 2: the responder sends message_2 and message_4 and ends with PRK_out.  It stores C_I = 0x2d,
the integer -14, as 0xf2. -/
theorem t1_responder :
    let q := responderRun cfg4 E1 t1R [⟨T1_ID_CRED_I, T1_CRED_I, T1_PK_I, [], [], []⟩] 10 32
      (netOf [T1_MESSAGE_1, T1_MESSAGE_3])
    q.2.sent = [T1_MESSAGE_2, T1_MESSAGE_4] ∧ (fun o => (o.cI, o.prkOut)) <$> q.1 = R.ok ([0xf2], T1_PRK_out) := by
  decide +kernel

/-- a message_3 of the trace with one bit changed is refused -/
theorem t1_tampered :
    (responderRun cfg4 E1 t1R [⟨T1_ID_CRED_I, T1_CRED_I, T1_PK_I, [], [], []⟩] 10 32
      (netOf [T1_MESSAGE_1, T1_MESSAGE_3.set 40 0])).1 = .err .unexpected_result_from_ext_lib := by
  decide +kernel

/-- /repo/test_vectors/edhoc_test_vectors_exporter_v15.h T1_PRK_OUT -/
def X_PRK_OUT : Bytes :=
  [0x2d, 0x6d, 0xb7, 0xaf, 0xa2, 0xe8, 0x72, 0xe2, 0x31, 0x65, 0x19, 0x63, 0x03, 0xe2, 0xf4, 0x56, 0x71, 0x40,
   0x81, 0xab, 0x90, 0x81, 0x1e, 0x29, 0x26, 0xd7, 0x28, 0x3a, 0x3f, 0x49, 0xf1, 0xac]

/-- /repo/test_vectors/edhoc_test_vectors_exporter_v15.h T1_PRK_EXPORTER -/
def X_PRK_EXPORTER : Bytes :=
  [0xea, 0xf9, 0x12, 0xd6, 0x9a, 0x96, 0x68, 0x59, 0xf0, 0xe6, 0x9b, 0xc0, 0xfd, 0x16, 0xa4, 0xb9, 0x5b, 0xbd,
   0x9b, 0x6c, 0xbe, 0x2c, 0x52, 0x5b, 0xd2, 0x3f, 0xd4, 0x7f, 0x34, 0x05, 0x9e, 0x10]

/-- /repo/test_vectors/edhoc_test_vectors_exporter_v15.h T1_OSCORE_MASTER_SECRET -/
def X_OSCORE_MASTER_SECRET : Bytes :=
  [0xd6, 0xdd, 0x09, 0xb1, 0x37, 0x35, 0x9f, 0x0a, 0xd2, 0x15, 0xdd, 0x02, 0x19, 0x62, 0xc0, 0x5c]

/-- /repo/test_vectors/edhoc_test_vectors_exporter_v15.h T1_OSCORE_MASTER_SALT -/
def X_OSCORE_MASTER_SALT : Bytes :=
  [0x87, 0xb3, 0xeb, 0xbb, 0xe1, 0x7e, 0xb4, 0xb9]

/-- /repo/test_vectors/edhoc_test_vectors_exporter_v15.h T1_KEY_UPDATE_CONTEXT -/
def X_KEY_UPDATE_CONTEXT : Bytes :=
  [0xd6, 0xbe, 0x16, 0x96, 0x02, 0xb8, 0xbc, 0xea, 0xa0, 0x11, 0x58, 0xfd, 0xb8, 0x20, 0x89, 0x0c]

/-- /repo/test_vectors/edhoc_test_vectors_exporter_v15.h T1_PRK_OUT_NEW -/
def X_PRK_OUT_NEW : Bytes :=
  [0x6f, 0xa6, 0xee, 0x2f, 0xfb, 0xf3, 0x80, 0x5b, 0xd1, 0xd8, 0xab, 0x59, 0x0b, 0x89, 0x32, 0xa2, 0x05, 0xaf,
   0xf6, 0xa5, 0xfa, 0x79, 0x4b, 0x1d, 0xe9, 0x3c, 0x57, 0xaf, 0xa9, 0x63, 0x8f, 0xb3]

/-- exporter_tests.c test_exporter -/
theorem exporter_vectors :
    prkOutUpdate cfg4 E1 X_PRK_OUT X_KEY_UPDATE_CONTEXT 32 = .ok X_PRK_OUT_NEW ∧
    prkOut2exporter cfg4 E1 X_PRK_OUT 32 = .ok X_PRK_EXPORTER ∧
    edhocExporter cfg4 E1 0 X_PRK_EXPORTER 16 = .ok X_OSCORE_MASTER_SECRET ∧
    edhocExporter cfg4 E1 1 X_PRK_EXPORTER 8 = .ok X_OSCORE_MASTER_SALT := by decide +kernel

/-- /repo/test_vectors/edhoc_test_vectors_p256_v15.json test_vector_1 x_raw -/
def V1_x_raw : Bytes :=
  [0x36, 0x8e, 0xc1, 0xf6, 0x9a, 0xeb, 0x65, 0x9b, 0xa3, 0x7d, 0x5a, 0x8d, 0x45, 0xb2, 0x1b, 0xdc, 0x02, 0x99,
   0xdc, 0xea, 0xa8, 0xef, 0x23, 0x5f, 0x3c, 0xa4, 0x2c, 0xe3, 0x53, 0x0f, 0x95, 0x25]

/-- /repo/test_vectors/edhoc_test_vectors_p256_v15.json test_vector_1 g_x_raw -/
def V1_g_x_raw : Bytes :=
  [0x8a, 0xf6, 0xf4, 0x30, 0xeb, 0xe1, 0x8d, 0x34, 0x18, 0x40, 0x17, 0xa9, 0xa1, 0x1b, 0xf5, 0x11, 0xc8, 0xdf,
   0xf8, 0xf8, 0x34, 0x73, 0x0b, 0x96, 0xc1, 0xb7, 0xc8, 0xdb, 0xca, 0x2f, 0xc3, 0xb6]

/-- /repo/test_vectors/edhoc_test_vectors_p256_v15.json test_vector_1 y_raw -/
def V1_y_raw : Bytes :=
  [0xe2, 0xf4, 0x12, 0x67, 0x77, 0x20, 0x5e, 0x85, 0x3b, 0x43, 0x7d, 0x6e, 0xac, 0xa1, 0xe1, 0xf7, 0x53, 0xcd,
   0xcc, 0x3e, 0x2c, 0x69, 0xfa, 0x88, 0x4b, 0x0a, 0x1a, 0x64, 0x09, 0x77, 0xe4, 0x18]

/-- /repo/test_vectors/edhoc_test_vectors_p256_v15.json test_vector_1 g_y_raw -/
def V1_g_y_raw : Bytes :=
  [0x41, 0x97, 0x01, 0xd7, 0xf0, 0x0a, 0x26, 0xc2, 0xdc, 0x58, 0x7a, 0x36, 0xdd, 0x75, 0x25, 0x49, 0xf3, 0x37,
   0x63, 0xc8, 0x93, 0x42, 0x2c, 0x8e, 0xa0, 0xf9, 0x55, 0xa1, 0x3a, 0x4f, 0xf5, 0xd5]

/-- /repo/test_vectors/edhoc_test_vectors_p256_v15.json test_vector_1 sk_r_raw -/
def V1_sk_r_raw : Bytes :=
  [0x72, 0xcc, 0x47, 0x61, 0xdb, 0xd4, 0xc7, 0x8f, 0x75, 0x89, 0x31, 0xaa, 0x58, 0x9d, 0x34, 0x8d, 0x1e, 0xf8,
   0x74, 0xa7, 0xe3, 0x03, 0xed, 0xe2, 0xf1, 0x40, 0xdc, 0xf3, 0xe6, 0xaa, 0x4a, 0xac]

/-- /repo/test_vectors/edhoc_test_vectors_p256_v15.json test_vector_1 pk_r_raw -/
def V1_pk_r_raw : Bytes :=
  [0x04, 0xbb, 0xc3, 0x49, 0x60, 0x52, 0x6e, 0xa4, 0xd3, 0x2e, 0x94, 0x0c, 0xad, 0x2a, 0x23, 0x41, 0x48, 0xdd,
   0xc2, 0x17, 0x91, 0xa1, 0x2a, 0xfb, 0xcb, 0xac, 0x93, 0x62, 0x20, 0x46, 0xdd, 0x44, 0xf0, 0x45, 0x19, 0xe2,
   0x57, 0x23, 0x6b, 0x2a, 0x0c, 0xe2, 0x02, 0x3f, 0x09, 0x31, 0xf1, 0xf3, 0x86, 0xca, 0x7a, 0xfd, 0xa6, 0x4f,
   0xcd, 0xe0, 0x10, 0x8c, 0x22, 0x4c, 0x51, 0xea, 0xbf, 0x60, 0x72]

/-- /repo/test_vectors/edhoc_test_vectors_p256_v15.json test_vector_1 sk_i_raw -/
def V1_sk_i_raw : Bytes :=
  [0xfb, 0x13, 0xad, 0xeb, 0x65, 0x18, 0xce, 0xe5, 0xf8, 0x84, 0x17, 0x66, 0x08, 0x41, 0x14, 0x2e, 0x83, 0x0a,
   0x81, 0xfe, 0x33, 0x43, 0x80, 0xa9, 0x53, 0x40, 0x6a, 0x13, 0x05, 0xe8, 0x70, 0x6b]

/-- /repo/test_vectors/edhoc_test_vectors_p256_v15.json test_vector_1 pk_i_raw -/
def V1_pk_i_raw : Bytes :=
  [0x04, 0xac, 0x75, 0xe9, 0xec, 0xe3, 0xe5, 0x0b, 0xfc, 0x8e, 0xd6, 0x03, 0x99, 0x88, 0x95, 0x22, 0x40, 0x5c,
   0x47, 0xbf, 0x16, 0xdf, 0x96, 0x66, 0x0a, 0x41, 0x29, 0x8c, 0xb4, 0x30, 0x7f, 0x7e, 0xb6, 0x6e, 0x5d, 0xe6,
   0x11, 0x38, 0x8a, 0x4b, 0x8a, 0x82, 0x11, 0x33, 0x4a, 0xc7, 0xd3, 0x7e, 0xcb, 0x52, 0xa3, 0x87, 0xd2, 0x57,
   0xe6, 0xdb, 0x3c, 0x2a, 0x93, 0xdf, 0x21, 0xff, 0x3a, 0xff, 0xc8]

/-- /repo/test_vectors/edhoc_test_vectors_p256_v15.json test_vector_1 id_cred_r -/
def V1_id_cred_r : Bytes :=
  [0xa1, 0x18, 0x21, 0x59, 0x01, 0x22, 0x30, 0x82, 0x01, 0x1e, 0x30, 0x81, 0xc5, 0xa0, 0x03, 0x02, 0x01, 0x02,
   0x02, 0x04, 0x61, 0xe9, 0x98, 0x1e, 0x30, 0x0a, 0x06, 0x08, 0x2a, 0x86, 0x48, 0xce, 0x3d, 0x04, 0x03, 0x02,
   0x30, 0x15, 0x31, 0x13, 0x30, 0x11, 0x06, 0x03, 0x55, 0x04, 0x03, 0x0c, 0x0a, 0x45, 0x44, 0x48, 0x4f, 0x43,
   0x20, 0x52, 0x6f, 0x6f, 0x74, 0x30, 0x1e, 0x17, 0x0d, 0x32, 0x32, 0x30, 0x31, 0x32, 0x30, 0x31, 0x37, 0x31,
   0x33, 0x30, 0x32, 0x5a, 0x17, 0x0d, 0x32, 0x39, 0x31, 0x32, 0x33, 0x31, 0x32, 0x33, 0x30, 0x30, 0x30, 0x30,
   0x5a, 0x30, 0x1a, 0x31, 0x18, 0x30, 0x16, 0x06, 0x03, 0x55, 0x04, 0x03, 0x0c, 0x0f, 0x45, 0x44, 0x48, 0x4f,
   0x43, 0x20, 0x52, 0x65, 0x73, 0x70, 0x6f, 0x6e, 0x64, 0x65, 0x72, 0x30, 0x59, 0x30, 0x13, 0x06, 0x07, 0x2a,
   0x86, 0x48, 0xce, 0x3d, 0x02, 0x01, 0x06, 0x08, 0x2a, 0x86, 0x48, 0xce, 0x3d, 0x03, 0x01, 0x07, 0x03, 0x42,
   0x00, 0x04, 0xbb, 0xc3, 0x49, 0x60, 0x52, 0x6e, 0xa4, 0xd3, 0x2e, 0x94, 0x0c, 0xad, 0x2a, 0x23, 0x41, 0x48,
   0xdd, 0xc2, 0x17, 0x91, 0xa1, 0x2a, 0xfb, 0xcb, 0xac, 0x93, 0x62, 0x20, 0x46, 0xdd, 0x44, 0xf0, 0x45, 0x19,
   0xe2, 0x57, 0x23, 0x6b, 0x2a, 0x0c, 0xe2, 0x02, 0x3f, 0x09, 0x31, 0xf1, 0xf3, 0x86, 0xca, 0x7a, 0xfd, 0xa6,
   0x4f, 0xcd, 0xe0, 0x10, 0x8c, 0x22, 0x4c, 0x51, 0xea, 0xbf, 0x60, 0x72, 0x30, 0x0a, 0x06, 0x08, 0x2a, 0x86,
   0x48, 0xce, 0x3d, 0x04, 0x03, 0x02, 0x03, 0x48, 0x00, 0x30, 0x45, 0x02, 0x20, 0x30, 0x19, 0x4e, 0xf5, 0xfc,
   0x65, 0xc8, 0xb7, 0x95, 0xcd, 0xcd, 0x0b, 0xb4, 0x31, 0xbf, 0x83, 0xee, 0x67, 0x41, 0xc1, 0x37, 0x0c, 0x22,
   0xc8, 0xeb, 0x8e, 0xe9, 0xed, 0xd2, 0xa7, 0x05, 0x19, 0x02, 0x21, 0x00, 0xb5, 0x83, 0x0e, 0x9c, 0x89, 0xa6,
   0x2a, 0xc7, 0x3c, 0xe1, 0xeb, 0xce, 0x00, 0x61, 0x70, 0x7d, 0xb8, 0xa8, 0x8e, 0x23, 0x70, 0x9b, 0x4a, 0xcc,
   0x58, 0xa1, 0x31, 0x3b, 0x13, 0x3d, 0x05, 0x58]

/-- /repo/test_vectors/edhoc_test_vectors_p256_v15.json test_vector_1 cred_r -/
def V1_cred_r : Bytes :=
  [0x59, 0x01, 0x22, 0x30, 0x82, 0x01, 0x1e, 0x30, 0x81, 0xc5, 0xa0, 0x03, 0x02, 0x01, 0x02, 0x02, 0x04, 0x61,
   0xe9, 0x98, 0x1e, 0x30, 0x0a, 0x06, 0x08, 0x2a, 0x86, 0x48, 0xce, 0x3d, 0x04, 0x03, 0x02, 0x30, 0x15, 0x31,
   0x13, 0x30, 0x11, 0x06, 0x03, 0x55, 0x04, 0x03, 0x0c, 0x0a, 0x45, 0x44, 0x48, 0x4f, 0x43, 0x20, 0x52, 0x6f,
   0x6f, 0x74, 0x30, 0x1e, 0x17, 0x0d, 0x32, 0x32, 0x30, 0x31, 0x32, 0x30, 0x31, 0x37, 0x31, 0x33, 0x30, 0x32,
   0x5a, 0x17, 0x0d, 0x32, 0x39, 0x31, 0x32, 0x33, 0x31, 0x32, 0x33, 0x30, 0x30, 0x30, 0x30, 0x5a, 0x30, 0x1a,
   0x31, 0x18, 0x30, 0x16, 0x06, 0x03, 0x55, 0x04, 0x03, 0x0c, 0x0f, 0x45, 0x44, 0x48, 0x4f, 0x43, 0x20, 0x52,
   0x65, 0x73, 0x70, 0x6f, 0x6e, 0x64, 0x65, 0x72, 0x30, 0x59, 0x30, 0x13, 0x06, 0x07, 0x2a, 0x86, 0x48, 0xce,
   0x3d, 0x02, 0x01, 0x06, 0x08, 0x2a, 0x86, 0x48, 0xce, 0x3d, 0x03, 0x01, 0x07, 0x03, 0x42, 0x00, 0x04, 0xbb,
   0xc3, 0x49, 0x60, 0x52, 0x6e, 0xa4, 0xd3, 0x2e, 0x94, 0x0c, 0xad, 0x2a, 0x23, 0x41, 0x48, 0xdd, 0xc2, 0x17,
   0x91, 0xa1, 0x2a, 0xfb, 0xcb, 0xac, 0x93, 0x62, 0x20, 0x46, 0xdd, 0x44, 0xf0, 0x45, 0x19, 0xe2, 0x57, 0x23,
   0x6b, 0x2a, 0x0c, 0xe2, 0x02, 0x3f, 0x09, 0x31, 0xf1, 0xf3, 0x86, 0xca, 0x7a, 0xfd, 0xa6, 0x4f, 0xcd, 0xe0,
   0x10, 0x8c, 0x22, 0x4c, 0x51, 0xea, 0xbf, 0x60, 0x72, 0x30, 0x0a, 0x06, 0x08, 0x2a, 0x86, 0x48, 0xce, 0x3d,
   0x04, 0x03, 0x02, 0x03, 0x48, 0x00, 0x30, 0x45, 0x02, 0x20, 0x30, 0x19, 0x4e, 0xf5, 0xfc, 0x65, 0xc8, 0xb7,
   0x95, 0xcd, 0xcd, 0x0b, 0xb4, 0x31, 0xbf, 0x83, 0xee, 0x67, 0x41, 0xc1, 0x37, 0x0c, 0x22, 0xc8, 0xeb, 0x8e,
   0xe9, 0xed, 0xd2, 0xa7, 0x05, 0x19, 0x02, 0x21, 0x00, 0xb5, 0x83, 0x0e, 0x9c, 0x89, 0xa6, 0x2a, 0xc7, 0x3c,
   0xe1, 0xeb, 0xce, 0x00, 0x61, 0x70, 0x7d, 0xb8, 0xa8, 0x8e, 0x23, 0x70, 0x9b, 0x4a, 0xcc, 0x58, 0xa1, 0x31,
   0x3b, 0x13, 0x3d, 0x05, 0x58]

/-- /repo/test_vectors/edhoc_test_vectors_p256_v15.json test_vector_1 id_cred_i -/
def V1_id_cred_i : Bytes :=
  [0xa1, 0x18, 0x21, 0x59, 0x01, 0x22, 0x30, 0x82, 0x01, 0x1e, 0x30, 0x81, 0xc5, 0xa0, 0x03, 0x02, 0x01, 0x02,
   0x02, 0x04, 0x62, 0x32, 0xef, 0x6f, 0x30, 0x0a, 0x06, 0x08, 0x2a, 0x86, 0x48, 0xce, 0x3d, 0x04, 0x03, 0x02,
   0x30, 0x15, 0x31, 0x13, 0x30, 0x11, 0x06, 0x03, 0x55, 0x04, 0x03, 0x0c, 0x0a, 0x45, 0x44, 0x48, 0x4f, 0x43,
   0x20, 0x52, 0x6f, 0x6f, 0x74, 0x30, 0x1e, 0x17, 0x0d, 0x32, 0x32, 0x30, 0x33, 0x31, 0x37, 0x30, 0x38, 0x32,
   0x31, 0x30, 0x33, 0x5a, 0x17, 0x0d, 0x32, 0x39, 0x31, 0x32, 0x33, 0x31, 0x32, 0x33, 0x30, 0x30, 0x30, 0x30,
   0x5a, 0x30, 0x1a, 0x31, 0x18, 0x30, 0x16, 0x06, 0x03, 0x55, 0x04, 0x03, 0x0c, 0x0f, 0x45, 0x44, 0x48, 0x4f,
   0x43, 0x20, 0x49, 0x6e, 0x69, 0x74, 0x69, 0x61, 0x74, 0x6f, 0x72, 0x30, 0x59, 0x30, 0x13, 0x06, 0x07, 0x2a,
   0x86, 0x48, 0xce, 0x3d, 0x02, 0x01, 0x06, 0x08, 0x2a, 0x86, 0x48, 0xce, 0x3d, 0x03, 0x01, 0x07, 0x03, 0x42,
   0x00, 0x04, 0xac, 0x75, 0xe9, 0xec, 0xe3, 0xe5, 0x0b, 0xfc, 0x8e, 0xd6, 0x03, 0x99, 0x88, 0x95, 0x22, 0x40,
   0x5c, 0x47, 0xbf, 0x16, 0xdf, 0x96, 0x66, 0x0a, 0x41, 0x29, 0x8c, 0xb4, 0x30, 0x7f, 0x7e, 0xb6, 0x6e, 0x5d,
   0xe6, 0x11, 0x38, 0x8a, 0x4b, 0x8a, 0x82, 0x11, 0x33, 0x4a, 0xc7, 0xd3, 0x7e, 0xcb, 0x52, 0xa3, 0x87, 0xd2,
   0x57, 0xe6, 0xdb, 0x3c, 0x2a, 0x93, 0xdf, 0x21, 0xff, 0x3a, 0xff, 0xc8, 0x30, 0x0a, 0x06, 0x08, 0x2a, 0x86,
   0x48, 0xce, 0x3d, 0x04, 0x03, 0x02, 0x03, 0x48, 0x00, 0x30, 0x45, 0x02, 0x21, 0x00, 0x8c, 0x32, 0x3a, 0x1f,
   0x33, 0x21, 0x38, 0xaa, 0xb9, 0xd0, 0xbe, 0xaf, 0xb8, 0x5f, 0x8d, 0x5a, 0x44, 0x07, 0x3c, 0x58, 0x0f, 0x59,
   0x5b, 0xc5, 0x21, 0xef, 0x91, 0x3f, 0x6e, 0xf4, 0x8d, 0x11, 0x02, 0x20, 0x6c, 0x0a, 0xf1, 0xa1, 0x85, 0xa4,
   0xe4, 0xde, 0x06, 0x35, 0x36, 0x99, 0x23, 0x1c, 0x73, 0x3a, 0x6e, 0x8d, 0xd2, 0xdf, 0x65, 0x13, 0x96, 0x6c,
   0x91, 0x30, 0x15, 0x2a, 0x07, 0xa2, 0xbe, 0xde]

/-- /repo/test_vectors/edhoc_test_vectors_p256_v15.json test_vector_1 cred_i -/
def V1_cred_i : Bytes :=
  [0x59, 0x01, 0x22, 0x30, 0x82, 0x01, 0x1e, 0x30, 0x81, 0xc5, 0xa0, 0x03, 0x02, 0x01, 0x02, 0x02, 0x04, 0x62,
   0x32, 0xef, 0x6f, 0x30, 0x0a, 0x06, 0x08, 0x2a, 0x86, 0x48, 0xce, 0x3d, 0x04, 0x03, 0x02, 0x30, 0x15, 0x31,
   0x13, 0x30, 0x11, 0x06, 0x03, 0x55, 0x04, 0x03, 0x0c, 0x0a, 0x45, 0x44, 0x48, 0x4f, 0x43, 0x20, 0x52, 0x6f,
   0x6f, 0x74, 0x30, 0x1e, 0x17, 0x0d, 0x32, 0x32, 0x30, 0x33, 0x31, 0x37, 0x30, 0x38, 0x32, 0x31, 0x30, 0x33,
   0x5a, 0x17, 0x0d, 0x32, 0x39, 0x31, 0x32, 0x33, 0x31, 0x32, 0x33, 0x30, 0x30, 0x30, 0x30, 0x5a, 0x30, 0x1a,
   0x31, 0x18, 0x30, 0x16, 0x06, 0x03, 0x55, 0x04, 0x03, 0x0c, 0x0f, 0x45, 0x44, 0x48, 0x4f, 0x43, 0x20, 0x49,
   0x6e, 0x69, 0x74, 0x69, 0x61, 0x74, 0x6f, 0x72, 0x30, 0x59, 0x30, 0x13, 0x06, 0x07, 0x2a, 0x86, 0x48, 0xce,
   0x3d, 0x02, 0x01, 0x06, 0x08, 0x2a, 0x86, 0x48, 0xce, 0x3d, 0x03, 0x01, 0x07, 0x03, 0x42, 0x00, 0x04, 0xac,
   0x75, 0xe9, 0xec, 0xe3, 0xe5, 0x0b, 0xfc, 0x8e, 0xd6, 0x03, 0x99, 0x88, 0x95, 0x22, 0x40, 0x5c, 0x47, 0xbf,
   0x16, 0xdf, 0x96, 0x66, 0x0a, 0x41, 0x29, 0x8c, 0xb4, 0x30, 0x7f, 0x7e, 0xb6, 0x6e, 0x5d, 0xe6, 0x11, 0x38,
   0x8a, 0x4b, 0x8a, 0x82, 0x11, 0x33, 0x4a, 0xc7, 0xd3, 0x7e, 0xcb, 0x52, 0xa3, 0x87, 0xd2, 0x57, 0xe6, 0xdb,
   0x3c, 0x2a, 0x93, 0xdf, 0x21, 0xff, 0x3a, 0xff, 0xc8, 0x30, 0x0a, 0x06, 0x08, 0x2a, 0x86, 0x48, 0xce, 0x3d,
   0x04, 0x03, 0x02, 0x03, 0x48, 0x00, 0x30, 0x45, 0x02, 0x21, 0x00, 0x8c, 0x32, 0x3a, 0x1f, 0x33, 0x21, 0x38,
   0xaa, 0xb9, 0xd0, 0xbe, 0xaf, 0xb8, 0x5f, 0x8d, 0x5a, 0x44, 0x07, 0x3c, 0x58, 0x0f, 0x59, 0x5b, 0xc5, 0x21,
   0xef, 0x91, 0x3f, 0x6e, 0xf4, 0x8d, 0x11, 0x02, 0x20, 0x6c, 0x0a, 0xf1, 0xa1, 0x85, 0xa4, 0xe4, 0xde, 0x06,
   0x35, 0x36, 0x99, 0x23, 0x1c, 0x73, 0x3a, 0x6e, 0x8d, 0xd2, 0xdf, 0x65, 0x13, 0x96, 0x6c, 0x91, 0x30, 0x15,
   0x2a, 0x07, 0xa2, 0xbe, 0xde]

/-- /repo/test_vectors/edhoc_test_vectors_p256_v15.json test_vector_1 ca_r -/
def V1_ca_r : Bytes :=
  [0x30, 0x82, 0x01, 0x18, 0x30, 0x81, 0xc0, 0xa0, 0x03, 0x02, 0x01, 0x02, 0x02, 0x04, 0x61, 0xe9, 0x97, 0xc5,
   0x30, 0x0a, 0x06, 0x08, 0x2a, 0x86, 0x48, 0xce, 0x3d, 0x04, 0x03, 0x02, 0x30, 0x15, 0x31, 0x13, 0x30, 0x11,
   0x06, 0x03, 0x55, 0x04, 0x03, 0x0c, 0x0a, 0x45, 0x44, 0x48, 0x4f, 0x43, 0x20, 0x52, 0x6f, 0x6f, 0x74, 0x30,
   0x1e, 0x17, 0x0d, 0x32, 0x32, 0x30, 0x31, 0x32, 0x30, 0x31, 0x37, 0x31, 0x31, 0x33, 0x33, 0x5a, 0x17, 0x0d,
   0x32, 0x39, 0x31, 0x32, 0x33, 0x31, 0x32, 0x33, 0x30, 0x30, 0x30, 0x30, 0x5a, 0x30, 0x15, 0x31, 0x13, 0x30,
   0x11, 0x06, 0x03, 0x55, 0x04, 0x03, 0x0c, 0x0a, 0x45, 0x44, 0x48, 0x4f, 0x43, 0x20, 0x52, 0x6f, 0x6f, 0x74,
   0x30, 0x59, 0x30, 0x13, 0x06, 0x07, 0x2a, 0x86, 0x48, 0xce, 0x3d, 0x02, 0x01, 0x06, 0x08, 0x2a, 0x86, 0x48,
   0xce, 0x3d, 0x03, 0x01, 0x07, 0x03, 0x42, 0x00, 0x04, 0x27, 0xec, 0xf4, 0xb4, 0x66, 0xd3, 0xcd, 0x61, 0x14,
   0x4c, 0x94, 0x40, 0x21, 0x83, 0x8d, 0x57, 0xbf, 0x67, 0x01, 0x97, 0x33, 0x78, 0xa1, 0x5b, 0x3f, 0x5d, 0x27,
   0x57, 0x5d, 0x34, 0xc4, 0xa9, 0x7b, 0x79, 0xe0, 0xf2, 0x4b, 0x44, 0x6b, 0xca, 0x67, 0xe1, 0x3d, 0x75, 0xd0,
   0x95, 0x73, 0x12, 0x4b, 0x49, 0xb8, 0x38, 0xb1, 0x09, 0x73, 0xf0, 0xfb, 0x67, 0xe1, 0x26, 0x05, 0x1c, 0x95,
   0x95, 0x30, 0x0a, 0x06, 0x08, 0x2a, 0x86, 0x48, 0xce, 0x3d, 0x04, 0x03, 0x02, 0x03, 0x47, 0x00, 0x30, 0x44,
   0x02, 0x20, 0x13, 0x73, 0x43, 0x26, 0xf2, 0xca, 0x35, 0xd1, 0xae, 0xdb, 0x6d, 0x5e, 0x1c, 0x8e, 0xb7, 0xb9,
   0x65, 0xda, 0x67, 0xea, 0xd3, 0x31, 0x4e, 0x50, 0x29, 0x09, 0xb9, 0xd7, 0x57, 0xcb, 0xa1, 0x68, 0x02, 0x20,
   0x49, 0xba, 0x0b, 0xa4, 0xf0, 0x6e, 0xfe, 0x8c, 0x0d, 0x9c, 0x3d, 0x31, 0x15, 0xeb, 0x9c, 0x96, 0xca, 0x46,
   0xd1, 0x28, 0x49, 0x9b, 0x68, 0x95, 0x7d, 0x0a, 0x85, 0xaf, 0x13, 0x6b, 0xf3, 0x06]

/-- /repo/test_vectors/edhoc_test_vectors_p256_v15.json test_vector_1 ca_r_pk -/
def V1_ca_r_pk : Bytes :=
  [0x04, 0x27, 0xec, 0xf4, 0xb4, 0x66, 0xd3, 0xcd, 0x61, 0x14, 0x4c, 0x94, 0x40, 0x21, 0x83, 0x8d, 0x57, 0xbf,
   0x67, 0x01, 0x97, 0x33, 0x78, 0xa1, 0x5b, 0x3f, 0x5d, 0x27, 0x57, 0x5d, 0x34, 0xc4, 0xa9, 0x7b, 0x79, 0xe0,
   0xf2, 0x4b, 0x44, 0x6b, 0xca, 0x67, 0xe1, 0x3d, 0x75, 0xd0, 0x95, 0x73, 0x12, 0x4b, 0x49, 0xb8, 0x38, 0xb1,
   0x09, 0x73, 0xf0, 0xfb, 0x67, 0xe1, 0x26, 0x05, 0x1c, 0x95, 0x95]

/-- /repo/test_vectors/edhoc_test_vectors_p256_v15.json test_vector_1 ca_i -/
def V1_ca_i : Bytes :=
  [0x30, 0x82, 0x01, 0x18, 0x30, 0x81, 0xc0, 0xa0, 0x03, 0x02, 0x01, 0x02, 0x02, 0x04, 0x61, 0xe9, 0x97, 0xc5,
   0x30, 0x0a, 0x06, 0x08, 0x2a, 0x86, 0x48, 0xce, 0x3d, 0x04, 0x03, 0x02, 0x30, 0x15, 0x31, 0x13, 0x30, 0x11,
   0x06, 0x03, 0x55, 0x04, 0x03, 0x0c, 0x0a, 0x45, 0x44, 0x48, 0x4f, 0x43, 0x20, 0x52, 0x6f, 0x6f, 0x74, 0x30,
   0x1e, 0x17, 0x0d, 0x32, 0x32, 0x30, 0x31, 0x32, 0x30, 0x31, 0x37, 0x31, 0x31, 0x33, 0x33, 0x5a, 0x17, 0x0d,
   0x32, 0x39, 0x31, 0x32, 0x33, 0x31, 0x32, 0x33, 0x30, 0x30, 0x30, 0x30, 0x5a, 0x30, 0x15, 0x31, 0x13, 0x30,
   0x11, 0x06, 0x03, 0x55, 0x04, 0x03, 0x0c, 0x0a, 0x45, 0x44, 0x48, 0x4f, 0x43, 0x20, 0x52, 0x6f, 0x6f, 0x74,
   0x30, 0x59, 0x30, 0x13, 0x06, 0x07, 0x2a, 0x86, 0x48, 0xce, 0x3d, 0x02, 0x01, 0x06, 0x08, 0x2a, 0x86, 0x48,
   0xce, 0x3d, 0x03, 0x01, 0x07, 0x03, 0x42, 0x00, 0x04, 0x27, 0xec, 0xf4, 0xb4, 0x66, 0xd3, 0xcd, 0x61, 0x14,
   0x4c, 0x94, 0x40, 0x21, 0x83, 0x8d, 0x57, 0xbf, 0x67, 0x01, 0x97, 0x33, 0x78, 0xa1, 0x5b, 0x3f, 0x5d, 0x27,
   0x57, 0x5d, 0x34, 0xc4, 0xa9, 0x7b, 0x79, 0xe0, 0xf2, 0x4b, 0x44, 0x6b, 0xca, 0x67, 0xe1, 0x3d, 0x75, 0xd0,
   0x95, 0x73, 0x12, 0x4b, 0x49, 0xb8, 0x38, 0xb1, 0x09, 0x73, 0xf0, 0xfb, 0x67, 0xe1, 0x26, 0x05, 0x1c, 0x95,
   0x95, 0x30, 0x0a, 0x06, 0x08, 0x2a, 0x86, 0x48, 0xce, 0x3d, 0x04, 0x03, 0x02, 0x03, 0x47, 0x00, 0x30, 0x44,
   0x02, 0x20, 0x13, 0x73, 0x43, 0x26, 0xf2, 0xca, 0x35, 0xd1, 0xae, 0xdb, 0x6d, 0x5e, 0x1c, 0x8e, 0xb7, 0xb9,
   0x65, 0xda, 0x67, 0xea, 0xd3, 0x31, 0x4e, 0x50, 0x29, 0x09, 0xb9, 0xd7, 0x57, 0xcb, 0xa1, 0x68, 0x02, 0x20,
   0x49, 0xba, 0x0b, 0xa4, 0xf0, 0x6e, 0xfe, 0x8c, 0x0d, 0x9c, 0x3d, 0x31, 0x15, 0xeb, 0x9c, 0x96, 0xca, 0x46,
   0xd1, 0x28, 0x49, 0x9b, 0x68, 0x95, 0x7d, 0x0a, 0x85, 0xaf, 0x13, 0x6b, 0xf3, 0x06]

/-- /repo/test_vectors/edhoc_test_vectors_p256_v15.json test_vector_1 ca_i_pk -/
def V1_ca_i_pk : Bytes :=
  [0x04, 0x27, 0xec, 0xf4, 0xb4, 0x66, 0xd3, 0xcd, 0x61, 0x14, 0x4c, 0x94, 0x40, 0x21, 0x83, 0x8d, 0x57, 0xbf,
   0x67, 0x01, 0x97, 0x33, 0x78, 0xa1, 0x5b, 0x3f, 0x5d, 0x27, 0x57, 0x5d, 0x34, 0xc4, 0xa9, 0x7b, 0x79, 0xe0,
   0xf2, 0x4b, 0x44, 0x6b, 0xca, 0x67, 0xe1, 0x3d, 0x75, 0xd0, 0x95, 0x73, 0x12, 0x4b, 0x49, 0xb8, 0x38, 0xb1,
   0x09, 0x73, 0xf0, 0xfb, 0x67, 0xe1, 0x26, 0x05, 0x1c, 0x95, 0x95]

/-- /repo/test_vectors/edhoc_test_vectors_p256_v15.json test_vector_5 x_raw -/
def V5_x_raw : Bytes :=
  [0x36, 0x8e, 0xc1, 0xf6, 0x9a, 0xeb, 0x65, 0x9b, 0xa3, 0x7d, 0x5a, 0x8d, 0x45, 0xb2, 0x1b, 0xdc, 0x02, 0x99,
   0xdc, 0xea, 0xa8, 0xef, 0x23, 0x5f, 0x3c, 0xa4, 0x2c, 0xe3, 0x53, 0x0f, 0x95, 0x25]

/-- /repo/test_vectors/edhoc_test_vectors_p256_v15.json test_vector_5 g_x_raw -/
def V5_g_x_raw : Bytes :=
  [0x8a, 0xf6, 0xf4, 0x30, 0xeb, 0xe1, 0x8d, 0x34, 0x18, 0x40, 0x17, 0xa9, 0xa1, 0x1b, 0xf5, 0x11, 0xc8, 0xdf,
   0xf8, 0xf8, 0x34, 0x73, 0x0b, 0x96, 0xc1, 0xb7, 0xc8, 0xdb, 0xca, 0x2f, 0xc3, 0xb6]

/-- /repo/test_vectors/edhoc_test_vectors_p256_v15.json test_vector_5 y_raw -/
def V5_y_raw : Bytes :=
  [0xe2, 0xf4, 0x12, 0x67, 0x77, 0x20, 0x5e, 0x85, 0x3b, 0x43, 0x7d, 0x6e, 0xac, 0xa1, 0xe1, 0xf7, 0x53, 0xcd,
   0xcc, 0x3e, 0x2c, 0x69, 0xfa, 0x88, 0x4b, 0x0a, 0x1a, 0x64, 0x09, 0x77, 0xe4, 0x18]

/-- /repo/test_vectors/edhoc_test_vectors_p256_v15.json test_vector_5 g_y_raw -/
def V5_g_y_raw : Bytes :=
  [0x41, 0x97, 0x01, 0xd7, 0xf0, 0x0a, 0x26, 0xc2, 0xdc, 0x58, 0x7a, 0x36, 0xdd, 0x75, 0x25, 0x49, 0xf3, 0x37,
   0x63, 0xc8, 0x93, 0x42, 0x2c, 0x8e, 0xa0, 0xf9, 0x55, 0xa1, 0x3a, 0x4f, 0xf5, 0xd5]

/-- /repo/test_vectors/edhoc_test_vectors_p256_v15.json test_vector_5 r_raw -/
def V5_r_raw : Bytes :=
  [0x72, 0xcc, 0x47, 0x61, 0xdb, 0xd4, 0xc7, 0x8f, 0x75, 0x89, 0x31, 0xaa, 0x58, 0x9d, 0x34, 0x8d, 0x1e, 0xf8,
   0x74, 0xa7, 0xe3, 0x03, 0xed, 0xe2, 0xf1, 0x40, 0xdc, 0xf3, 0xe6, 0xaa, 0x4a, 0xac]

/-- /repo/test_vectors/edhoc_test_vectors_p256_v15.json test_vector_5 g_r_raw -/
def V5_g_r_raw : Bytes :=
  [0xbb, 0xc3, 0x49, 0x60, 0x52, 0x6e, 0xa4, 0xd3, 0x2e, 0x94, 0x0c, 0xad, 0x2a, 0x23, 0x41, 0x48, 0xdd, 0xc2,
   0x17, 0x91, 0xa1, 0x2a, 0xfb, 0xcb, 0xac, 0x93, 0x62, 0x20, 0x46, 0xdd, 0x44, 0xf0]

/-- /repo/test_vectors/edhoc_test_vectors_p256_v15.json test_vector_5 i_raw -/
def V5_i_raw : Bytes :=
  [0xfb, 0x13, 0xad, 0xeb, 0x65, 0x18, 0xce, 0xe5, 0xf8, 0x84, 0x17, 0x66, 0x08, 0x41, 0x14, 0x2e, 0x83, 0x0a,
   0x81, 0xfe, 0x33, 0x43, 0x80, 0xa9, 0x53, 0x40, 0x6a, 0x13, 0x05, 0xe8, 0x70, 0x6b]

/-- /repo/test_vectors/edhoc_test_vectors_p256_v15.json test_vector_5 g_i_raw -/
def V5_g_i_raw : Bytes :=
  [0xac, 0x75, 0xe9, 0xec, 0xe3, 0xe5, 0x0b, 0xfc, 0x8e, 0xd6, 0x03, 0x99, 0x88, 0x95, 0x22, 0x40, 0x5c, 0x47,
   0xbf, 0x16, 0xdf, 0x96, 0x66, 0x0a, 0x41, 0x29, 0x8c, 0xb4, 0x30, 0x7f, 0x7e, 0xb6]

/-- /repo/test_vectors/edhoc_test_vectors_p256_v15.json test_vector_5 id_cred_r -/
def V5_id_cred_r : Bytes :=
  [0xa1, 0x04, 0x22]

/-- /repo/test_vectors/edhoc_test_vectors_p256_v15.json test_vector_5 cred_r -/
def V5_cred_r : Bytes :=
  [0x59, 0x01, 0x22, 0x30, 0x82, 0x01, 0x1e, 0x30, 0x81, 0xc5, 0xa0, 0x03, 0x02, 0x01, 0x02, 0x02, 0x04, 0x61,
   0xe9, 0x98, 0x1e, 0x30, 0x0a, 0x06, 0x08, 0x2a, 0x86, 0x48, 0xce, 0x3d, 0x04, 0x03, 0x02, 0x30, 0x15, 0x31,
   0x13, 0x30, 0x11, 0x06, 0x03, 0x55, 0x04, 0x03, 0x0c, 0x0a, 0x45, 0x44, 0x48, 0x4f, 0x43, 0x20, 0x52, 0x6f,
   0x6f, 0x74, 0x30, 0x1e, 0x17, 0x0d, 0x32, 0x32, 0x30, 0x31, 0x32, 0x30, 0x31, 0x37, 0x31, 0x33, 0x30, 0x32,
   0x5a, 0x17, 0x0d, 0x32, 0x39, 0x31, 0x32, 0x33, 0x31, 0x32, 0x33, 0x30, 0x30, 0x30, 0x30, 0x5a, 0x30, 0x1a,
   0x31, 0x18, 0x30, 0x16, 0x06, 0x03, 0x55, 0x04, 0x03, 0x0c, 0x0f, 0x45, 0x44, 0x48, 0x4f, 0x43, 0x20, 0x52,
   0x65, 0x73, 0x70, 0x6f, 0x6e, 0x64, 0x65, 0x72, 0x30, 0x59, 0x30, 0x13, 0x06, 0x07, 0x2a, 0x86, 0x48, 0xce,
   0x3d, 0x02, 0x01, 0x06, 0x08, 0x2a, 0x86, 0x48, 0xce, 0x3d, 0x03, 0x01, 0x07, 0x03, 0x42, 0x00, 0x04, 0xbb,
   0xc3, 0x49, 0x60, 0x52, 0x6e, 0xa4, 0xd3, 0x2e, 0x94, 0x0c, 0xad, 0x2a, 0x23, 0x41, 0x48, 0xdd, 0xc2, 0x17,
   0x91, 0xa1, 0x2a, 0xfb, 0xcb, 0xac, 0x93, 0x62, 0x20, 0x46, 0xdd, 0x44, 0xf0, 0x45, 0x19, 0xe2, 0x57, 0x23,
   0x6b, 0x2a, 0x0c, 0xe2, 0x02, 0x3f, 0x09, 0x31, 0xf1, 0xf3, 0x86, 0xca, 0x7a, 0xfd, 0xa6, 0x4f, 0xcd, 0xe0,
   0x10, 0x8c, 0x22, 0x4c, 0x51, 0xea, 0xbf, 0x60, 0x72, 0x30, 0x0a, 0x06, 0x08, 0x2a, 0x86, 0x48, 0xce, 0x3d,
   0x04, 0x03, 0x02, 0x03, 0x48, 0x00, 0x30, 0x45, 0x02, 0x20, 0x30, 0x19, 0x4e, 0xf5, 0xfc, 0x65, 0xc8, 0xb7,
   0x95, 0xcd, 0xcd, 0x0b, 0xb4, 0x31, 0xbf, 0x83, 0xee, 0x67, 0x41, 0xc1, 0x37, 0x0c, 0x22, 0xc8, 0xeb, 0x8e,
   0xe9, 0xed, 0xd2, 0xa7, 0x05, 0x19, 0x02, 0x21, 0x00, 0xb5, 0x83, 0x0e, 0x9c, 0x89, 0xa6, 0x2a, 0xc7, 0x3c,
   0xe1, 0xeb, 0xce, 0x00, 0x61, 0x70, 0x7d, 0xb8, 0xa8, 0x8e, 0x23, 0x70, 0x9b, 0x4a, 0xcc, 0x58, 0xa1, 0x31,
   0x3b, 0x13, 0x3d, 0x05, 0x58]

/-- /repo/test_vectors/edhoc_test_vectors_p256_v15.json test_vector_5 id_cred_i -/
def V5_id_cred_i : Bytes :=
  [0xa1, 0x04, 0x05]

/-- /repo/test_vectors/edhoc_test_vectors_p256_v15.json test_vector_5 cred_i -/
def V5_cred_i : Bytes :=
  [0x59, 0x01, 0x22, 0x30, 0x82, 0x01, 0x1e, 0x30, 0x81, 0xc5, 0xa0, 0x03, 0x02, 0x01, 0x02, 0x02, 0x04, 0x62,
   0x32, 0xef, 0x6f, 0x30, 0x0a, 0x06, 0x08, 0x2a, 0x86, 0x48, 0xce, 0x3d, 0x04, 0x03, 0x02, 0x30, 0x15, 0x31,
   0x13, 0x30, 0x11, 0x06, 0x03, 0x55, 0x04, 0x03, 0x0c, 0x0a, 0x45, 0x44, 0x48, 0x4f, 0x43, 0x20, 0x52, 0x6f,
   0x6f, 0x74, 0x30, 0x1e, 0x17, 0x0d, 0x32, 0x32, 0x30, 0x33, 0x31, 0x37, 0x30, 0x38, 0x32, 0x31, 0x30, 0x33,
   0x5a, 0x17, 0x0d, 0x32, 0x39, 0x31, 0x32, 0x33, 0x31, 0x32, 0x33, 0x30, 0x30, 0x30, 0x30, 0x5a, 0x30, 0x1a,
   0x31, 0x18, 0x30, 0x16, 0x06, 0x03, 0x55, 0x04, 0x03, 0x0c, 0x0f, 0x45, 0x44, 0x48, 0x4f, 0x43, 0x20, 0x49,
   0x6e, 0x69, 0x74, 0x69, 0x61, 0x74, 0x6f, 0x72, 0x30, 0x59, 0x30, 0x13, 0x06, 0x07, 0x2a, 0x86, 0x48, 0xce,
   0x3d, 0x02, 0x01, 0x06, 0x08, 0x2a, 0x86, 0x48, 0xce, 0x3d, 0x03, 0x01, 0x07, 0x03, 0x42, 0x00, 0x04, 0xac,
   0x75, 0xe9, 0xec, 0xe3, 0xe5, 0x0b, 0xfc, 0x8e, 0xd6, 0x03, 0x99, 0x88, 0x95, 0x22, 0x40, 0x5c, 0x47, 0xbf,
   0x16, 0xdf, 0x96, 0x66, 0x0a, 0x41, 0x29, 0x8c, 0xb4, 0x30, 0x7f, 0x7e, 0xb6, 0x6e, 0x5d, 0xe6, 0x11, 0x38,
   0x8a, 0x4b, 0x8a, 0x82, 0x11, 0x33, 0x4a, 0xc7, 0xd3, 0x7e, 0xcb, 0x52, 0xa3, 0x87, 0xd2, 0x57, 0xe6, 0xdb,
   0x3c, 0x2a, 0x93, 0xdf, 0x21, 0xff, 0x3a, 0xff, 0xc8, 0x30, 0x0a, 0x06, 0x08, 0x2a, 0x86, 0x48, 0xce, 0x3d,
   0x04, 0x03, 0x02, 0x03, 0x48, 0x00, 0x30, 0x45, 0x02, 0x21, 0x00, 0x8c, 0x32, 0x3a, 0x1f, 0x33, 0x21, 0x38,
   0xaa, 0xb9, 0xd0, 0xbe, 0xaf, 0xb8, 0x5f, 0x8d, 0x5a, 0x44, 0x07, 0x3c, 0x58, 0x0f, 0x59, 0x5b, 0xc5, 0x21,
   0xef, 0x91, 0x3f, 0x6e, 0xf4, 0x8d, 0x11, 0x02, 0x20, 0x6c, 0x0a, 0xf1, 0xa1, 0x85, 0xa4, 0xe4, 0xde, 0x06,
   0x35, 0x36, 0x99, 0x23, 0x1c, 0x73, 0x3a, 0x6e, 0x8d, 0xd2, 0xdf, 0x65, 0x13, 0x96, 0x6c, 0x91, 0x30, 0x15,
   0x2a, 0x07, 0xa2, 0xbe, 0xde]

/-- what MBEDTLS's parser finds in the certificates of the test (positions of the fields) -/
def parse (c : Bytes) : Option MbedX509.Crt :=
  if c = V1_id_cred_r.drop 6 then some { issuer := [(true, 43, 10)], subject := [(true, 98, 15)], ecdsa := true, hashLen := some 32, tbs := (4, 200), sig := (219, 71), pkRaw := (113, 91) }
  else if c = V1_id_cred_i.drop 6 then some { issuer := [(true, 43, 10)], subject := [(true, 98, 15)], ecdsa := true, hashLen := some 32, tbs := (4, 200), sig := (219, 71), pkRaw := (113, 91) }
  else if c = V1_ca_r then some { issuer := [(true, 43, 10)], subject := [(true, 98, 10)], ecdsa := true, hashLen := some 32, tbs := (4, 195), sig := (214, 70), pkRaw := (108, 91) }
  else if c = V1_ca_i then some { issuer := [(true, 43, 10)], subject := [(true, 98, 10)], ecdsa := true, hashLen := some 32, tbs := (4, 195), sig := (214, 70), pkRaw := (108, 91) }
  else none

/-- ECDSA nonce: some function of key and message -/
def nonce (sk m : Bytes) : Nat := Fips.beNat (Fips.hmacSha256 sk m) % (Curves.n256 - 1) + 1
/-- the primitives with cert.c's view of the certificates -/
def E2 : ECrypto := realE nonce (MbedX509.view parse (List.replicate 64 0))
/-- the default build -/
def cfg0 : ECfg := {}

/-- initiator_responder_interaction.c with test_vector_1: signatures, x5chain -/
def v1I : ICtx :=
  { cI := [0x37], method := 0, suitesI := [2], ead1 := [], ead3 := [], idCredI := V1_id_cred_i, credI := V1_cred_i
    gX := V1_g_x_raw, x := V1_x_raw, i := [], skI := V1_sk_i_raw, pkI := V1_pk_i_raw }
def v1R : RCtx :=
  { cR := [0x27], cRMem := [0, 0, 0], suitesR := [2], gY := V1_g_y_raw, y := V1_y_raw, r := [], ead2 := [], ead4 := []
    idCredR := V1_id_cred_r, credR := V1_cred_r, skR := V1_sk_r_raw, pkR := V1_pk_r_raw }
def v1CredR : List Cred := [⟨V1_id_cred_r, V1_cred_r, V1_pk_r_raw, [], V1_ca_r, V1_ca_r_pk⟩]
def v1CredI : List Cred := [⟨V1_id_cred_i, V1_cred_i, V1_pk_i_raw, [], V1_ca_i, V1_ca_i_pk⟩]

/-- the certificate of the responder as cert.c checks it: the key in it, accepted with the root of the test, refused
with one byte of it changed -/
theorem v1_cert :
    MbedX509.certX509 E2 parse (List.replicate 64 0) (V1_id_cred_r.drop 6) v1CredR 65 = .ok (true, V1_pk_r_raw) ∧
    MbedX509.certX509 E2 (fun c => if c.length = (V1_id_cred_r.drop 6).length then parse (V1_id_cred_r.drop 6) else parse c)
      (List.replicate 64 0) ((V1_id_cred_r.drop 6).set 20 0) v1CredR 65 = .ok (false, V1_pk_r_raw) := by decide +kernel


/-- initiator_responder_interaction.c with test_vector_5: static Diffie-Hellman keys, kid -/
def v5I : ICtx :=
  { cI := [0x37], method := 3, suitesI := [2], ead1 := [], ead3 := [], idCredI := V5_id_cred_i, credI := V5_cred_i
    gX := V5_g_x_raw, x := V5_x_raw, i := V5_i_raw, skI := [], pkI := [] }
def v5R : RCtx :=
  { cR := [0x32], cRMem := [0, 0, 0], suitesR := [2], gY := V5_g_y_raw, y := V5_y_raw, r := V5_r_raw, ead2 := [], ead4 := []
    idCredR := V5_id_cred_r, credR := V5_cred_r, skR := [], pkR := [] }
def v5CredR : List Cred := [⟨V5_id_cred_r, V5_cred_r, [], V5_g_r_raw, [], []⟩]
def v5CredI : List Cred := [⟨V5_id_cred_i, V5_cred_i, [], V5_g_i_raw, [], []⟩]

/-- message_1 of the run -/
def V1_m1 : Bytes :=
  [0x00, 0x02, 0x58, 0x20, 0x8a, 0xf6, 0xf4, 0x30, 0xeb, 0xe1, 0x8d, 0x34, 0x18, 0x40, 0x17, 0xa9, 0xa1, 0x1b,
   0xf5, 0x11, 0xc8, 0xdf, 0xf8, 0xf8, 0x34, 0x73, 0x0b, 0x96, 0xc1, 0xb7, 0xc8, 0xdb, 0xca, 0x2f, 0xc3, 0xb6,
   0x37]

/-- message_2 of the run -/
def V1_m2 : Bytes :=
  [0x59, 0x01, 0x8b, 0x41, 0x97, 0x01, 0xd7, 0xf0, 0x0a, 0x26, 0xc2, 0xdc, 0x58, 0x7a, 0x36, 0xdd, 0x75, 0x25,
   0x49, 0xf3, 0x37, 0x63, 0xc8, 0x93, 0x42, 0x2c, 0x8e, 0xa0, 0xf9, 0x55, 0xa1, 0x3a, 0x4f, 0xf5, 0xd5, 0x5b,
   0x6d, 0xec, 0x0f, 0x5f, 0x38, 0x4b, 0x92, 0x04, 0x89, 0x2c, 0x4a, 0xe8, 0x4e, 0x26, 0xd3, 0x6e, 0xf5, 0x5c,
   0x6c, 0x80, 0xd3, 0xc7, 0x7f, 0x31, 0xb2, 0x74, 0x43, 0x07, 0x8c, 0x84, 0x08, 0x53, 0x78, 0x4f, 0x21, 0x72,
   0xec, 0x28, 0xb9, 0x75, 0x99, 0xd0, 0x92, 0xf5, 0x9a, 0xd8, 0xb0, 0x74, 0xfe, 0x93, 0x9b, 0x1c, 0x45, 0x4d,
   0x0f, 0x1f, 0x87, 0xb6, 0xd1, 0xd8, 0xff, 0xba, 0x9e, 0x5b, 0x9d, 0x46, 0xc8, 0x82, 0x64, 0x4c, 0x77, 0x0a,
   0xf9, 0xff, 0x00, 0xa6, 0x71, 0x30, 0x6c, 0xb7, 0xee, 0xa2, 0x86, 0x26, 0x37, 0x0f, 0x79, 0x58, 0xd9, 0x74,
   0x1f, 0x89, 0xab, 0x47, 0x1d, 0x9e, 0x65, 0xdd, 0xd6, 0x7a, 0x24, 0x95, 0x72, 0x86, 0x5b, 0x2c, 0x4a, 0x87,
   0x07, 0xf8, 0x7e, 0xca, 0x4b, 0xb3, 0x15, 0x85, 0x93, 0xcb, 0xef, 0x66, 0x09, 0x6e, 0xb5, 0x72, 0xa6, 0x39,
   0x7d, 0x85, 0xcb, 0x8e, 0x6f, 0xfa, 0xa5, 0xde, 0x80, 0x88, 0x24, 0xbb, 0x9b, 0x01, 0xef, 0xb2, 0x9d, 0xcb,
   0x44, 0xac, 0x20, 0xbf, 0x94, 0x97, 0x82, 0x20, 0x48, 0x41, 0xae, 0x6f, 0xd5, 0x98, 0x56, 0xdb, 0x63, 0xd1,
   0x09, 0xf2, 0x7b, 0x6f, 0xb4, 0x5d, 0x79, 0x47, 0x0f, 0xe1, 0x31, 0x4d, 0x5b, 0xc2, 0xda, 0x22, 0x1f, 0xb3,
   0xa7, 0xaa, 0xe0, 0x9b, 0x5e, 0x02, 0xa0, 0x67, 0x25, 0xdc, 0x51, 0xff, 0x48, 0x06, 0x53, 0xd4, 0x39, 0x71,
   0x4a, 0x7e, 0xdf, 0xc5, 0x50, 0xa3, 0xa3, 0x69, 0x18, 0xd5, 0x09, 0x5c, 0xea, 0xee, 0xf8, 0xb5, 0xdc, 0x1a,
   0xca, 0xe9, 0x99, 0x19, 0xc4, 0x65, 0x64, 0x58, 0xaf, 0xa7, 0x6e, 0xb6, 0x97, 0xa5, 0x90, 0x92, 0xcf, 0x1f,
   0xab, 0x82, 0xa6, 0x93, 0x6b, 0xbc, 0x0b, 0xde, 0x47, 0x31, 0x8f, 0x1a, 0x6a, 0x09, 0x35, 0x31, 0x8a, 0xfb,
   0xd7, 0xae, 0x59, 0x3a, 0x03, 0x96, 0x0d, 0xab, 0x46, 0x84, 0x05, 0xf7, 0xff, 0xa8, 0x30, 0xee, 0x28, 0xd2,
   0x01, 0xcc, 0x7c, 0x09, 0x4d, 0xcd, 0xc1, 0xe0, 0x9c, 0xfc, 0x1a, 0x8e, 0x49, 0x50, 0xf7, 0x6b, 0x5f, 0xb4,
   0x91, 0xb7, 0x90, 0x5d, 0xef, 0x35, 0x94, 0x45, 0x10, 0x38, 0x31, 0xb6, 0x56, 0xc4, 0x69, 0x14, 0x99, 0x30,
   0x6b, 0x5b, 0x1f, 0xe7, 0x0f, 0x48, 0x18, 0xbd, 0x72, 0xef, 0xe3, 0x06, 0x90, 0x01, 0x73, 0xcc, 0x48, 0x4f,
   0x0e, 0x89, 0x0a, 0x58, 0x06, 0xb8, 0xf2, 0x3f, 0xac, 0xf1, 0x85, 0xba, 0xfd, 0xfb, 0x6d, 0x44, 0x31, 0xea,
   0xdb, 0x64, 0x6e, 0x3f, 0xd6, 0x98, 0x65, 0x4a, 0x54, 0xd9, 0x93, 0x86, 0xd9, 0xab, 0x87, 0x7e, 0x6a, 0xcf,
   0xea, 0xd2]

/-- message_3 of the run -/
def V1_m3 : Bytes :=
  [0x59, 0x01, 0x72, 0xa2, 0x1b, 0xab, 0x28, 0x8d, 0x45, 0x54, 0x70, 0x67, 0x17, 0x85, 0xcd, 0x5d, 0x42, 0xf8,
   0x9a, 0x3b, 0x16, 0x30, 0x31, 0x37, 0x2b, 0x70, 0xd5, 0x4a, 0x0e, 0xe2, 0x34, 0x28, 0xbd, 0xf8, 0xce, 0xf0,
   0x42, 0x36, 0xcd, 0xa7, 0x6a, 0x0c, 0xc8, 0x83, 0x0c, 0xd3, 0x36, 0x26, 0x11, 0xdb, 0xfc, 0xdf, 0xc0, 0x88,
   0xe2, 0xd7, 0x15, 0x9a, 0xf2, 0x1e, 0x09, 0x5b, 0x67, 0x72, 0xd8, 0x7b, 0x70, 0x59, 0xcd, 0xce, 0x4d, 0xf5,
   0x8d, 0x60, 0x37, 0x66, 0x22, 0xb0, 0x96, 0xa9, 0x63, 0x3a, 0x0a, 0x6e, 0x9b, 0xe5, 0x95, 0x78, 0x1f, 0x81,
   0x24, 0x11, 0x8d, 0xad, 0x25, 0xca, 0xd8, 0xb7, 0xaa, 0x5c, 0xea, 0x59, 0xa7, 0x2a, 0x90, 0x97, 0x58, 0x1f,
   0x1e, 0xa1, 0xb9, 0x74, 0x78, 0x9d, 0x99, 0x81, 0x42, 0x9e, 0xf6, 0xf7, 0xaf, 0xe6, 0x86, 0xe3, 0xe8, 0x44,
   0x8c, 0xf7, 0x92, 0x24, 0x17, 0xcc, 0xd0, 0x63, 0x84, 0xc0, 0x71, 0x76, 0x0e, 0xc8, 0x71, 0x78, 0x8f, 0x2a,
   0x15, 0x50, 0x5e, 0x33, 0x3c, 0x8d, 0x73, 0x2d, 0x9e, 0x2b, 0xef, 0xc6, 0xa1, 0x49, 0x6c, 0x4d, 0x22, 0x8c,
   0xa4, 0x2b, 0x23, 0xe0, 0x17, 0x1f, 0xda, 0xad, 0x11, 0xd2, 0x26, 0x5d, 0xaa, 0x41, 0x47, 0x1b, 0xf0, 0xee,
   0x31, 0xb6, 0xed, 0x12, 0x76, 0xbf, 0xc1, 0x72, 0xc9, 0x02, 0x83, 0xd3, 0x73, 0xf7, 0x8d, 0x81, 0x01, 0xfd,
   0xd8, 0xb9, 0xd8, 0xa6, 0x7e, 0xf1, 0x3a, 0x3d, 0x0e, 0x97, 0xc2, 0xed, 0xc8, 0x7d, 0xc7, 0xba, 0x29, 0x52,
   0x40, 0x66, 0xb3, 0x67, 0xb2, 0x5a, 0xb4, 0xe2, 0x22, 0x90, 0xf1, 0x5f, 0xb8, 0x38, 0xe0, 0x77, 0x33, 0x8d,
   0x8b, 0x19, 0xe9, 0x49, 0x3d, 0x88, 0x32, 0x1c, 0x1a, 0xde, 0xee, 0x43, 0x74, 0xfb, 0x0b, 0xfc, 0xe1, 0xc5,
   0x1e, 0xd4, 0x2e, 0xdb, 0x9f, 0x1d, 0x5a, 0xcf, 0x0c, 0xa7, 0xb6, 0x33, 0xf3, 0x50, 0x08, 0xc1, 0x98, 0x01,
   0x6b, 0x66, 0xdd, 0xa8, 0xb7, 0x58, 0xfb, 0x9e, 0x85, 0x6e, 0x09, 0xc1, 0xae, 0xb9, 0x2f, 0x83, 0x89, 0x40,
   0x0f, 0x9b, 0x94, 0x78, 0xc9, 0x72, 0x5b, 0x6b, 0xa8, 0x20, 0xe9, 0x24, 0x99, 0x8e, 0xbc, 0x5d, 0x44, 0x53,
   0x8d, 0x5b, 0x3b, 0x0d, 0x8c, 0xe5, 0xe6, 0xdc, 0x94, 0x19, 0xd2, 0xc4, 0x43, 0xf8, 0x9a, 0xb1, 0x12, 0x80,
   0x2f, 0x5c, 0xd7, 0xf8, 0x94, 0xe8, 0x16, 0x8d, 0xa4, 0xc1, 0x61, 0x1b, 0x32, 0xa5, 0xc4, 0x6c, 0x36, 0x3a,
   0x65, 0x6b, 0xdd, 0xcb, 0xa3, 0x49, 0x11, 0xc6, 0x74, 0xef, 0xc1, 0x0f, 0x55, 0x33, 0x30, 0x68, 0x8b, 0xeb,
   0xd7, 0xa1, 0xf9, 0x6a, 0x8d, 0x1e, 0xde, 0x4e, 0xda, 0x3b, 0xb6, 0x14, 0x03]

/-- PRK_out of the run -/
def V1_prk : Bytes :=
  [0x39, 0x81, 0xa3, 0x89, 0x2a, 0xbf, 0x74, 0xcc, 0x82, 0x87, 0x8b, 0x9e, 0xec, 0x83, 0xff, 0x45, 0xdb, 0x2f,
   0x7d, 0x18, 0xba, 0xa5, 0x7d, 0x77, 0x7e, 0x1f, 0xbb, 0xfc, 0x05, 0x85, 0xeb, 0x57]

/-- test_initiator_responder_interaction(1): the responder answers message_1 with message_2, accepts message_3
and ends with PRK_out -/
theorem v1_responder :
    let q := responderRun cfg0 E2 v1R v1CredI 10 32 (netOf [V1_m1, V1_m3])
    q.2.sent = [V1_m2] ∧ (fun o => o.prkOut) <$> q.1 = R.ok V1_prk := by decide +kernel
/-- the initiator sends message_1, accepts message_2, sends message_3 and ends with the same PRK_out -/
theorem v1_initiator :
    let q := initiatorRun cfg0 E2 v1I v1CredR (List.replicate 10 0) 32 (netOf [V1_m2])
    q.2.sent = [V1_m1, V1_m3] ∧ (fun o => o.prkOut) <$> q.1 = R.ok (some V1_prk) := by decide +kernel

/-- message_1 of the run -/
def V5_m1 : Bytes :=
  [0x03, 0x02, 0x58, 0x20, 0x8a, 0xf6, 0xf4, 0x30, 0xeb, 0xe1, 0x8d, 0x34, 0x18, 0x40, 0x17, 0xa9, 0xa1, 0x1b,
   0xf5, 0x11, 0xc8, 0xdf, 0xf8, 0xf8, 0x34, 0x73, 0x0b, 0x96, 0xc1, 0xb7, 0xc8, 0xdb, 0xca, 0x2f, 0xc3, 0xb6,
   0x37]

/-- message_2 of the run -/
def V5_m2 : Bytes :=
  [0x58, 0x2b, 0x41, 0x97, 0x01, 0xd7, 0xf0, 0x0a, 0x26, 0xc2, 0xdc, 0x58, 0x7a, 0x36, 0xdd, 0x75, 0x25, 0x49,
   0xf3, 0x37, 0x63, 0xc8, 0x93, 0x42, 0x2c, 0x8e, 0xa0, 0xf9, 0x55, 0xa1, 0x3a, 0x4f, 0xf5, 0xd5, 0xbb, 0x68,
   0xa2, 0x93, 0x11, 0x5d, 0xb2, 0x70, 0x77, 0xf7, 0x57]

/-- message_3 of the run -/
def V5_m3 : Bytes :=
  [0x52, 0x11, 0x66, 0xff, 0xe6, 0xa9, 0xb1, 0x1c, 0x7c, 0xa7, 0x9f, 0x1a, 0x11, 0xa9, 0x45, 0xea, 0x0e, 0xab,
   0x6a]

/-- PRK_out of the run -/
def V5_prk : Bytes :=
  [0xec, 0x52, 0xf8, 0xd4, 0xba, 0x07, 0xf1, 0xfe, 0xb5, 0xbd, 0x29, 0xbf, 0xf0, 0x48, 0xcc, 0x8d, 0x7c, 0x8a,
   0x93, 0xad, 0x08, 0xba, 0x41, 0x31, 0x26, 0x7e, 0xb7, 0x01, 0x5e, 0xd9, 0xc6, 0x0c]

/-- test_initiator_responder_interaction(5): the responder answers message_1 with message_2, accepts message_3
and ends with PRK_out -/
theorem v5_responder :
    let q := responderRun cfg0 E2 v5R v5CredI 10 32 (netOf [V5_m1, V5_m3])
    q.2.sent = [V5_m2] ∧ (fun o => o.prkOut) <$> q.1 = R.ok V5_prk := by decide +kernel
/-- the initiator sends message_1, accepts message_2, sends message_3 and ends with the same PRK_out -/
theorem v5_initiator :
    let q := initiatorRun cfg0 E2 v5I v5CredR (List.replicate 10 0) 32 (netOf [V5_m2])
    q.2.sent = [V5_m1, V5_m3] ∧ (fun o => o.prkOut) <$> q.1 = R.ok (some V5_prk) := by decide +kernel

end Verif.Edhoc.Vectors
