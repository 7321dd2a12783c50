import Verif.Props.RealCrypto
/-
Tests of the model (not properties): with the standardised primitives it reproduces, byte by byte, the test
vectors of /repo/test_vectors/oscore_test_vectors.c (RFC 8613, appendix C) and the integration tests of
/repo/test/oscore_integration_tests.  Evaluated by the kernel.
-/
namespace Verif.Vectors
open Verif
set_option maxRecDepth 100000

/-- /repo/test_vectors/oscore_test_vectors.c T1__MASTER_SECRET -/
def T1_MASTER_SECRET : Bytes :=
  [0x01, 0x02, 0x03, 0x04, 0x05, 0x06, 0x07, 0x08, 0x09, 0x0a, 0x0b, 0x0c, 0x0d, 0x0e, 0x0f, 0x10]

/-- /repo/test_vectors/oscore_test_vectors.c T1__MASTER_SALT -/
def T1_MASTER_SALT : Bytes :=
  [0x9e, 0x7c, 0xa9, 0x22, 0x23, 0x78, 0x63, 0x40]

/-- /repo/test_vectors/oscore_test_vectors.c T1__COAP_REQ -/
def T1_COAP_REQ : Bytes :=
  [0x44, 0x01, 0x5d, 0x1f, 0x00, 0x00, 0x39, 0x74, 0x39, 0x6c, 0x6f, 0x63, 0x61, 0x6c, 0x68, 0x6f, 0x73, 0x74,
   0x83, 0x74, 0x76, 0x31]

/-- /repo/test_vectors/oscore_test_vectors.c T1__SENDER_KEY -/
def T1_SENDER_KEY : Bytes :=
  [0xf0, 0x91, 0x0e, 0xd7, 0x29, 0x5e, 0x6a, 0xd4, 0xb5, 0x4f, 0xc7, 0x93, 0x15, 0x43, 0x02, 0xff]

/-- /repo/test_vectors/oscore_test_vectors.c T1__RECIPIENT_KEY -/
def T1_RECIPIENT_KEY : Bytes :=
  [0xff, 0xb1, 0x4e, 0x09, 0x3c, 0x94, 0xc9, 0xca, 0xc9, 0x47, 0x16, 0x48, 0xb4, 0xf9, 0x87, 0x10]

/-- /repo/test_vectors/oscore_test_vectors.c T1__COMMON_IV -/
def T1_COMMON_IV : Bytes :=
  [0x46, 0x22, 0xd4, 0xdd, 0x6d, 0x94, 0x41, 0x68, 0xee, 0xfb, 0x54, 0x98, 0x7c]

/-- /repo/test_vectors/oscore_test_vectors.c T1__OSCORE_REQ -/
def T1_OSCORE_REQ : Bytes :=
  [0x44, 0x02, 0x5d, 0x1f, 0x00, 0x00, 0x39, 0x74, 0x39, 0x6c, 0x6f, 0x63, 0x61, 0x6c, 0x68, 0x6f, 0x73, 0x74,
   0x62, 0x09, 0x14, 0xff, 0x61, 0x2f, 0x10, 0x92, 0xf1, 0x77, 0x6f, 0x1c, 0x16, 0x68, 0xb3, 0x82, 0x5e]

/-- /repo/test_vectors/oscore_test_vectors.c T1__OSCORE_RESP -/
def T1_OSCORE_RESP : Bytes :=
  [0x64, 0x44, 0x5d, 0x1f, 0x00, 0x00, 0x39, 0x74, 0x90, 0xff, 0xdb, 0xaa, 0xd1, 0xe9, 0xa7, 0xe7, 0xb2, 0xa8,
   0x13, 0xd3, 0xc3, 0x15, 0x24, 0x37, 0x83, 0x03, 0xcd, 0xaf, 0xae, 0x11, 0x91, 0x06]

/-- /repo/test_vectors/oscore_test_vectors.c T1__COAP_RESPONSE -/
def T1_COAP_RESPONSE : Bytes :=
  [0x64, 0x45, 0x5d, 0x1f, 0x00, 0x00, 0x39, 0x74, 0xff, 0x48, 0x65, 0x6c, 0x6c, 0x6f, 0x20, 0x57, 0x6f, 0x72,
   0x6c, 0x64, 0x21]

/-- /repo/test_vectors/oscore_test_vectors.c T3__COAP_REQ -/
def T3_COAP_REQ : Bytes :=
  [0x44, 0x01, 0x71, 0xc3, 0x00, 0x00, 0xb9, 0x32, 0x39, 0x6c, 0x6f, 0x63, 0x61, 0x6c, 0x68, 0x6f, 0x73, 0x74,
   0x83, 0x74, 0x76, 0x31]

/-- /repo/test_vectors/oscore_test_vectors.c T3__OSCORE_REQ -/
def T3_OSCORE_REQ : Bytes :=
  [0x44, 0x02, 0x71, 0xc3, 0x00, 0x00, 0xb9, 0x32, 0x39, 0x6c, 0x6f, 0x63, 0x61, 0x6c, 0x68, 0x6f, 0x73, 0x74,
   0x63, 0x09, 0x14, 0x00, 0xff, 0x4e, 0xd3, 0x39, 0xa5, 0xa3, 0x79, 0xb0, 0xb8, 0xbc, 0x73, 0x1f, 0xff, 0xb0]

/-- /repo/test_vectors/oscore_test_vectors.c T4__SENDER_KEY -/
def T4_SENDER_KEY : Bytes :=
  [0xe5, 0x7b, 0x56, 0x35, 0x81, 0x51, 0x77, 0xcd, 0x67, 0x9a, 0xb4, 0xbc, 0xec, 0x9d, 0x7d, 0xda]

/-- /repo/test_vectors/oscore_test_vectors.c T4__RECIPIENT_KEY -/
def T4_RECIPIENT_KEY : Bytes :=
  [0x32, 0x1b, 0x26, 0x94, 0x32, 0x53, 0xc7, 0xff, 0xb6, 0x00, 0x3b, 0x0b, 0x64, 0xd7, 0x40, 0x41]

/-- /repo/test_vectors/oscore_test_vectors.c T4__COMMON_IV -/
def T4_COMMON_IV : Bytes :=
  [0xbe, 0x35, 0xae, 0x29, 0x7d, 0x2d, 0xac, 0xe9, 0x10, 0xc5, 0x2e, 0x99, 0xf9]

/-- /repo/test_vectors/oscore_test_vectors.c T5__ID_CONTEXT -/
def T5_ID_CONTEXT : Bytes :=
  [0x37, 0xcb, 0xf3, 0x21, 0x00, 0x17, 0xa2, 0xd3]

/-- /repo/test_vectors/oscore_test_vectors.c T5__COAP_REQ -/
def T5_COAP_REQ : Bytes :=
  [0x44, 0x01, 0x2f, 0x8e, 0xef, 0x9b, 0xbf, 0x7a, 0x39, 0x6c, 0x6f, 0x63, 0x61, 0x6c, 0x68, 0x6f, 0x73, 0x74,
   0x83, 0x74, 0x76, 0x31]

/-- /repo/test_vectors/oscore_test_vectors.c T5__OSCORE_REQ -/
def T5_OSCORE_REQ : Bytes :=
  [0x44, 0x02, 0x2f, 0x8e, 0xef, 0x9b, 0xbf, 0x7a, 0x39, 0x6c, 0x6f, 0x63, 0x61, 0x6c, 0x68, 0x6f, 0x73, 0x74,
   0x6b, 0x19, 0x14, 0x08, 0x37, 0xcb, 0xf3, 0x21, 0x00, 0x17, 0xa2, 0xd3, 0xff, 0x72, 0xcd, 0x72, 0x73, 0xfd,
   0x33, 0x1a, 0xc4, 0x5c, 0xff, 0xbe, 0x55, 0xc3]

/-- /repo/test_vectors/oscore_test_vectors.c T6__SENDER_KEY -/
def T6_SENDER_KEY : Bytes :=
  [0xe3, 0x9a, 0x0c, 0x7c, 0x77, 0xb4, 0x3f, 0x03, 0xb4, 0xb3, 0x9a, 0xb9, 0xa2, 0x68, 0x69, 0x9f]

/-- /repo/test_vectors/oscore_test_vectors.c T6__RECIPIENT_KEY -/
def T6_RECIPIENT_KEY : Bytes :=
  [0xaf, 0x2a, 0x13, 0x00, 0xa5, 0xe9, 0x57, 0x88, 0xb3, 0x56, 0x33, 0x6e, 0xee, 0xcd, 0x2b, 0x92]

/-- /repo/test_vectors/oscore_test_vectors.c T6__COMMON_IV -/
def T6_COMMON_IV : Bytes :=
  [0x2c, 0xa5, 0x8f, 0xb8, 0x5f, 0xf1, 0xb8, 0x1c, 0x0b, 0x71, 0x81, 0xb8, 0x5e]

/-- /repo/test_vectors/oscore_test_vectors.c T7__OSCORE_RES -/
def T7_OSCORE_RES : Bytes :=
  [0x64, 0x44, 0x5d, 0x1f, 0x00, 0x00, 0x39, 0x74, 0x92, 0x01, 0x00, 0xff, 0x4d, 0x4c, 0x13, 0x66, 0x93, 0x84,
   0xb6, 0x73, 0x54, 0xb2, 0xb6, 0x17, 0x5f, 0xf4, 0xb8, 0x65, 0x8c, 0x66, 0x6a, 0x6c, 0xf8, 0x8e]

/-- /repo/test_vectors/oscore_test_vectors.c T8__COAP_ACK -/
def T8_COAP_ACK : Bytes :=
  [0x60, 0x00, 0x45, 0x69]

/-- /repo/test/oscore_integration_tests/oscore_integration_tests.c t9 EXPECTED_OSCORE_REGISTRATION -/
def T9_REGISTRATION : Bytes :=
  [0x41, 0x05, 0x00, 0x00, 0x4a, 0x61, 0x00, 0x32, 0x09, 0x00, 0xff, 0xae, 0x58, 0x5e, 0x2e, 0x65, 0x89, 0x40,
   0xe6, 0xdb, 0xf4, 0xb7, 0x08, 0xb7, 0x93, 0x37, 0x03, 0x41, 0x1e, 0x50, 0x8e, 0xea, 0x79, 0x70]

/-- /repo/test/oscore_integration_tests/oscore_integration_tests.c t9 EXPECTED_OSCORE_NOTIFICATION1 -/
def T9_NOTIFICATION : Bytes :=
  [0x61, 0x45, 0x00, 0x00, 0x4a, 0x63, 0x00, 0x00, 0x00, 0x33, 0x09, 0x00, 0x01, 0xff, 0x4d, 0xd3, 0x4f, 0x59,
   0x4e, 0x54, 0x7b, 0x25, 0x0e, 0x1b]

/-- /repo/test/oscore_integration_tests/oscore_integration_tests.c t9 EXPECTED_CONVERTED_COAP -/
def T9_CONVERTED : Bytes :=
  [0x61, 0x45, 0x00, 0x00, 0x4a, 0x60]

/-- the configuration of the tests -/
def cfg : Cfg := {}

def params (salt sid rid idc : Bytes) (fresh : Bool) : InitParams :=
  { masterSecret := T1_MASTER_SECRET, masterSalt := salt, senderId := sid, recipientId := rid, idContext := idc, fresh := fresh }

/-- a context whose buffers contained zeros -/
def ctx (salt sid rid idc : Bytes) (fresh : Bool) : R Ctx :=
  contextInit cfg realCrypto (params salt sid rid idc fresh) (.ok 0) (List.replicate 13 0) (List.replicate 12 0)

/-- context, sequence number set to `n` -/
def world (salt sid rid idc : Bytes) (fresh : Bool) (n : Option Nat) : World :=
  match ctx salt sid rid idc fresh with
  | .ok c => ⟨{ c with ssn := n.getD c.ssn }, 0, []⟩
  | _ => ⟨{ fresh := true, idContext := [], commonIv := [], senderId := [], senderKey := [], ssn := 0, recipientId := [], recipientKey := [], window := ReplayWindow.init 0, notifNum := 0, notifInit := false, nonce := [], inter := [], echoVal := [], echo := .reboot }, 0, []⟩

def keys (w : World) : Bytes × Bytes × Bytes := (w.ctx.senderKey, w.ctx.recipientKey, w.ctx.commonIv)

/-- RFC 8613 C.1.1, C.1.2: client and server keys with Master Salt -/
theorem t1_keys : keys (world T1_MASTER_SALT [] [1] [] false none) = (T1_SENDER_KEY, T1_RECIPIENT_KEY, T1_COMMON_IV) ∧
    keys (world T1_MASTER_SALT [1] [] [] true none) = (T1_RECIPIENT_KEY, T1_SENDER_KEY, T1_COMMON_IV) := by
  decide +kernel

/-- RFC 8613 C.2.2: keys without Master Salt -/
theorem t4_keys : keys (world [] [1] [0] [] true none) = (T4_SENDER_KEY, T4_RECIPIENT_KEY, T4_COMMON_IV) := by
  decide +kernel

/-- RFC 8613 C.3.2: keys with ID Context -/
theorem t6_keys : keys (world T1_MASTER_SALT [1] [] T5_ID_CONTEXT true none) = (T6_SENDER_KEY, T6_RECIPIENT_KEY, T6_COMMON_IV) := by
  decide +kernel

/-- test t1: RFC 8613 C.4 request of a client whose context was restored (NVM at 0, so the number is 20), and C.7 response -/
theorem t1_request_response :
    let s := step cfg realCrypto (world T1_MASTER_SALT [] [1] [] false none) (.protect T1_COAP_REQ 256 none)
    s.1 = .ok T1_OSCORE_REQ ∧
    (step cfg realCrypto s.2 (.unprotect T1_OSCORE_RESP 256)).1 = .ok T1_COAP_RESPONSE := by
  decide +kernel

/-- test t2: the server's side of C.4 and C.7, and a recipient ID that does not match -/
theorem t2_request_response :
    let s := step cfg realCrypto (world T1_MASTER_SALT [1] [] [] true none) (.unprotect T1_OSCORE_REQ 256)
    s.1 = .ok T1_COAP_REQ ∧
    (step cfg realCrypto { s.2 with ctx := { s.2.ctx with recipientId := [2] } } (.unprotect T1_OSCORE_REQ 256)).1 =
      .err .oscore_kid_recipient_id_mismatch ∧
    (step cfg realCrypto s.2 (.protect T1_COAP_RESPONSE 256 none)).1 = .ok T1_OSCORE_RESP := by
  decide +kernel

/-- test t3: RFC 8613 C.5 -/
theorem t3_request : (step cfg realCrypto (world [] [0] [1] [] true (some 20)) (.protect T3_COAP_REQ 256 none)).1 = .ok T3_OSCORE_REQ := by
  decide +kernel

/-- test t5: RFC 8613 C.6 -/
theorem t5_request : (step cfg realCrypto (world T1_MASTER_SALT [] [1] T5_ID_CONTEXT true (some 20)) (.protect T5_COAP_REQ 256 none)).1 =
    .ok T5_OSCORE_REQ := by
  decide +kernel

/-- RFC 8613 C.8 (response with a Partial IV and without KID, "currently not supported" in the vectors): the client
refuses it, because the nonce is made from the KID in the packet instead of the Recipient ID (C67) -/
theorem t7_response :
    let s := step cfg realCrypto (world T1_MASTER_SALT [] [1] [] false none) (.protect T1_COAP_REQ 256 none)
    (step cfg realCrypto s.2 (.unprotect T7_OSCORE_RES 256)).1 = .err .unexpected_result_from_ext_lib := by
  decide +kernel

/-- test t8: an empty ACK is not encrypted -/
theorem t8_ack : (step cfg realCrypto (world T1_MASTER_SALT [1] [] [] true none) (.protect T8_COAP_ACK 256 none)).1 = .ok T8_COAP_ACK := by
  decide +kernel

/-- test t9: the observe registration "temperature" -/
def t9Reg : Bytes := [0x41, 0x01, 0x00, 0x00, 0x4a, 0x61, 0x00, 0x5b] ++ "temperature".toUTF8.toList
/-- test t9: its first notification -/
def t9Not : Bytes := [0x61, 0x45, 0x00, 0x00, 0x4a, 0x63, 0x00, 0x00, 0x00]

/-- test t9: registration, notification, replayed notification -/
theorem t9_observe :
    let c1 := step cfg realCrypto (world T1_MASTER_SALT [] [1] [] true none) (.protect t9Reg 40 none)
    let s1 := step cfg realCrypto (world T1_MASTER_SALT [1] [] [] true none) (.unprotect T9_REGISTRATION 40)
    let s2 := step cfg realCrypto s1.2 (.protect t9Not 40 none)
    let c2 := step cfg realCrypto c1.2 (.unprotect T9_NOTIFICATION 40)
    c1.1 = .ok T9_REGISTRATION ∧ s1.1 = .ok t9Reg ∧ s2.1 = .ok T9_NOTIFICATION ∧ c2.1 = .ok T9_CONVERTED ∧
      (step cfg realCrypto c2.2 (.unprotect T9_NOTIFICATION 40)).1 = .err .oscore_replay_notification_protection_error := by
  decide +kernel

/-- oscore_integration_tests.c t10 OSCORE_REQ1 -/
def T10_OSCORE_REQ1 : Bytes :=
  [0x41, 0x02, 0x00, 0x00, 0x4a, 0x92, 0x09, 0x14, 0xff, 0x61, 0x27, 0x10, 0x81, 0xad, 0xf0, 0x0e, 0xea, 0x55,
   0xf1, 0x52, 0x39, 0x6c, 0xa3, 0x72, 0x46, 0x96, 0x73, 0xb2, 0x09, 0xf7]

/-- oscore_integration_tests.c t10 OSCORE_RESP1 -/
def T10_OSCORE_RESP1 : Bytes :=
  [0x61, 0x44, 0x00, 0x00, 0x4a, 0x93, 0x09, 0x14, 0x01, 0xff, 0xbc, 0xb9, 0x3c, 0xa6, 0x0e, 0xf7, 0x11, 0x52,
   0x39, 0x45, 0x1b, 0xea, 0x4c, 0x81, 0x90, 0xca, 0x60, 0x38, 0x76, 0xd6, 0x09, 0xde, 0x46]

/-- oscore_integration_tests.c t10 OSCORE_RESP2 -/
def T10_OSCORE_RESP2 : Bytes :=
  [0x61, 0x44, 0x00, 0x00, 0x4a, 0x93, 0x09, 0x15, 0x01, 0xff, 0x97, 0xa4, 0x25, 0x7b, 0x17, 0x39, 0xc0, 0x1d,
   0x5e, 0x9d, 0xda, 0x02, 0x74, 0xdb, 0xd4, 0xbf, 0xe6, 0x82, 0x18, 0x9b, 0x3b, 0xbf, 0x0e]

/-- oscore_integration_tests.c t10 OSCORE_REQ3 -/
def T10_OSCORE_REQ3 : Bytes :=
  [0x41, 0x02, 0x00, 0x00, 0x4b, 0x92, 0x09, 0x16, 0xff, 0x8c, 0x2f, 0xed, 0xb3, 0xbb, 0xcd, 0xee, 0x17, 0xb0,
   0x12, 0x03, 0x95, 0x74, 0xd8, 0x08, 0x55, 0x40, 0x53, 0x82, 0x2b, 0x3c, 0x79, 0xa5, 0x1b, 0xca, 0xfc, 0xc9,
   0xd0, 0xc6, 0x35, 0x50, 0xdc, 0x5d, 0x1d, 0x13]

/-- oscore_integration_tests.c t10 OSCORE_RESP3 -/
def T10_OSCORE_RESP3 : Bytes :=
  [0x61, 0x44, 0x00, 0x00, 0x4b, 0x93, 0x09, 0x16, 0x01, 0xff, 0x9b, 0xe4, 0x04, 0x05, 0x9f, 0x1c, 0xce, 0x6a,
   0x43, 0x85, 0xd2, 0xd7, 0x12, 0x52, 0x49, 0xb2, 0x8a, 0xd7, 0xd5, 0x0a, 0x67, 0x09, 0x82]

/-- oscore_integration_tests.c t10 OSCORE_REQ4 -/
def T10_OSCORE_REQ4 : Bytes :=
  [0x41, 0x02, 0x00, 0x00, 0x4b, 0x92, 0x09, 0x17, 0xff, 0xcd, 0x4a, 0x87, 0x1e, 0xcd, 0xe0, 0x07, 0xd2, 0xcb,
   0xf5, 0xc4, 0x76, 0x84, 0x1e, 0x4c, 0x94, 0x39, 0xce, 0x82, 0x6f, 0x1a, 0xf6, 0xb4, 0xc1, 0x68, 0xe6, 0xb3,
   0xbb, 0xdb, 0x8b, 0x84, 0x4f, 0xde, 0x95, 0x94]

/-- oscore_integration_tests.c t10 OSCORE_RESP4 -/
def T10_OSCORE_RESP4 : Bytes :=
  [0x61, 0x44, 0x00, 0x00, 0x4b, 0x90, 0xff, 0x5e, 0x04, 0x3e, 0xd6, 0x11, 0x1f, 0xe7, 0xf7, 0x9d, 0x1e, 0x5f,
   0x30, 0x27, 0x30]

/-- the path of the requests of t10 -/
def t10Path : Bytes := 0xbb :: "temperature".toUTF8.toList
/-- the Echo values of t10 -/
def t10Echo (x : UInt8) : Bytes := [0x00, 0x01, 0x02, 0x03, 0x04, 0x05, 0x06, 0x07, 0x08, 0x09, 0x10, x]
/-- responses with Echo (4.01, delta 252) -/
def t10Resp (tok x : UInt8) : Bytes := [0x61, 0x81, 0x00, 0x00, tok, 0xdc, 0xef] ++ t10Echo x
/-- requests with Echo (delta 241 after Uri-Path) -/
def t10Req (tok x : UInt8) : Bytes := [0x41, 0x01, 0x00, 0x00, tok] ++ t10Path ++ [0xdc, 0xe4] ++ t10Echo x

/-- a message of one side is protected and given to the other side -/
def send (a b : World) (m : Bytes) : (R Bytes × R Bytes) × World × World :=
  let x := step cfg realCrypto a (.protect m 60 none)
  match x.1 with
  | .ok o => let y := step cfg realCrypto b (.unprotect o 40); ((x.1, y.1), x.2, y.2)
  | _ => ((x.1, .ub), x.2, b)

/-- test t10: reboot of the server, Echo challenges (rejected, renewed, answered), replay -/
def t10 : List (R Bytes × R Bytes) :=
  let c := world T1_MASTER_SALT [] [1] [] false none
  let s := world T1_MASTER_SALT [1] [] [] false none
  let r1 := send c s ([0x41, 0x01, 0x00, 0x00, 0x4a] ++ t10Path)
  let bad := step cfg realCrypto r1.2.2 (.protect [0x61, 0x81, 0x00, 0x00, 0x4A] 60 none)
  let a1 := send bad.2 r1.2.1 (t10Resp 0x4a 0x11)
  let r2 := send a1.2.2 a1.2.1 [0x41, 0x01, 0x00, 0x00, 0x4A]
  let a2 := send r2.2.2 r2.2.1 (t10Resp 0x4a 0x22)
  let r3 := send a2.2.2 a2.2.1 (t10Req 0x4b 0x11)
  let a3 := send r3.2.2 r3.2.1 (t10Resp 0x4b 0x33)
  let r4 := send a3.2.2 a3.2.1 (t10Req 0x4b 0x33)
  let a4 := send r4.2.2 r4.2.1 [0x61, 0x45, 0x00, 0x00, 0x4b, 0xff, 0xde, 0xad, 0xbe, 0xaf]
  let r5 := send a4.2.2 a4.2.1 ([0x41, 0x01, 0x00, 0x00, 0x4a] ++ t10Path)
  let replay := match r5.1.1 with | .ok o => (step cfg realCrypto r5.2.2 (.unprotect o 40)).1 | _ => .ub
  [r1.1, (bad.1, .ok []), a1.1, (.ok [], r2.1.2), a2.1, r3.1, a3.1, r4.1, a4.1, (.ok [], r5.1.2), (.ok [], replay)]

theorem t10_reboot : t10 =
    [(.ok T10_OSCORE_REQ1, .err .first_request_after_reboot), (.err .no_echo_option, .ok []),
     (.ok T10_OSCORE_RESP1, .ok (t10Resp 0x4a 0x11)), (.ok [], .err .echo_validation_failed),
     (.ok T10_OSCORE_RESP2, .ok (t10Resp 0x4a 0x22)), (.ok T10_OSCORE_REQ3, .err .echo_validation_failed),
     (.ok T10_OSCORE_RESP3, .ok (t10Resp 0x4b 0x33)), (.ok T10_OSCORE_REQ4, .ok (t10Req 0x4b 0x33)),
     (.ok T10_OSCORE_RESP4, .ok [0x61, 0x45, 0x00, 0x00, 0x4b, 0xff, 0xde, 0xad, 0xbe, 0xaf]),
     (.ok [], .ok ([0x41, 0x01, 0x00, 0x00, 0x4a] ++ t10Path)), (.ok [], .err .oscore_replay_window_protection_error)] := by
  decide +kernel

/-- test t11: an exhausted context does nothing -/
theorem t11_overflow :
    (step cfg realCrypto (world T1_MASTER_SALT [] [1] [] false (some 0x7FFFFF)) (.protect T1_COAP_REQ 256 none)).1 = .err .oscore_ssn_overflow ∧
    (step cfg realCrypto (world T1_MASTER_SALT [] [1] [] false (some 0x7FFFFF)) (.unprotect T1_OSCORE_RESP 256)).1 = .err .oscore_ssn_overflow := by
  decide +kernel

end Verif.Vectors
