import Verif.Model.Zcbor
/-
The generated functions of src/cbor/*.c, call by call.  `&&` is `andThen`/`eAnd`, `||` is `orElse`; assignments of a
`_choice` are the constructor of the sum.  Not modelled: logging.
-/
namespace Verif.Zcbor
open Verif Verif.Edhoc

/-- edhoc_decode_id_cred_x.c:37-39, edhoc_decode_plaintext2.c:38-40, ..3.c:38-40, edhoc_decode_message_1.c:32-33,
edhoc_decode_plaintext2.c:233-234: `int / bstr`.  There is no `zcbor_union_elem_code` between the alternatives. -/
def uIntBstr (L : Lib) : Z (Int ⊕ Bytes) :=
  union (orElse (andThen (int32Decode L) fun i => done (.inl i)) (andThen (bstrDecode L) fun b => done (.inr b)))

/-- edhoc_decode_id_cred_x.c:94-95 (and ..plaintext2.c:95-96, ..3.c:95-96): `int / tstr` -/
def uIntTstr (L : Lib) : Z (Int ⊕ Bytes) :=
  union (orElse (andThen (int32Decode L) fun i => done (.inl i)) (andThen (tstrDecode L) fun b => done (.inr b)))

/-- edhoc_decode_id_cred_x.c:31-49 `decode_repeated_id_cred_x_map_kid`, edhoc_decode_plaintext2.c:32-50, ..3.c:32-50 -/
def decKid (L : Lib) : Z (Int ⊕ Bytes) := andThen (uint32Expect L 4) fun _ => uIntBstr L

/-- edhoc_decode_id_cred_x.c:51-67, 69-85, 108-124, 126-142, 144-160, 183-199 (and plaintext2, plaintext3 at the same
lines): `decode_repeated_.._x5bag` (32), `.._x5chain` (33), `.._x5u` (35), `.._c5b` (52), `.._c5c` (53), `.._c5u` (55) -/
def decEntry (L : Lib) (k : Nat) : Z Bytes := andThen (uint32Expect L k) fun _ => bstrDecode L

/-- edhoc_decode_id_cred_x.c:87-106 `decode_repeated_.._x5t` (34), 162-181 `.._c5t` (54) (and plaintext2, plaintext3 at
the same lines) -/
def decThumb (L : Lib) (k : Nat) : Z ((Int ⊕ Bytes) × Bytes) :=
  andThen (uint32Expect L k) fun _ =>
    bracket (listStart L) (andThen (uIntTstr L) fun a => andThen (bstrDecode L) fun h => done (a, h))

/-- edhoc_decode_id_cred_x.c:201-224 `decode_id_cred_x_map`, edhoc_decode_plaintext2.c:202-225 `decode_map2`,
edhoc_decode_plaintext3.c:202-225 `decode_map3` -/
def decMap (L : Lib) : Z IdMap :=
  bracket (mapStart L)
    (andThen (presentDecode (decKid L)) fun kid =>
     andThen (presentDecode (decEntry L 32)) fun x5bag =>
     andThen (presentDecode (decEntry L 33)) fun x5chain =>
     andThen (presentDecode (decThumb L 34)) fun x5t =>
     andThen (presentDecode (decEntry L 35)) fun x5u =>
     andThen (presentDecode (decEntry L 52)) fun c5b =>
     andThen (presentDecode (decEntry L 53)) fun c5c =>
     andThen (presentDecode (decThumb L 54)) fun c5t =>
     andThen (presentDecode (decEntry L 55)) fun c5u =>
     done ⟨kid, x5bag, x5chain, x5t, x5u, c5b, c5c, c5t, c5u⟩)

/-- edhoc_decode_message_1.c:29-30 SUITES_I -/
def uSuites (L : Lib) : Z (List Int ⊕ Int) :=
  union (orElse
    (andThen (bracket (listStart L) (multiDecode 2 10 (int32Decode L))) fun l => done (.inl l))
    (unionElem (andThen (int32Decode L) fun i => done (.inr i))))

/-- edhoc_decode_message_1.c:22-45 `decode_message_1` -/
def decodeMessage1 (L : Lib) : Z Msg1 :=
  andThen (int32Decode L) fun method =>
  andThen (uSuites L) fun suites =>
  andThen (bstrDecode L) fun gX =>
  andThen (uIntBstr L) fun cI =>
  andThen (optional (bstrDecode L)) fun ead =>
  done ⟨method, suites, gX, cI, ead⟩

/-- edhoc_decode_plaintext2.c:235-237, edhoc_decode_plaintext3.c:233-235 ID_CRED_x -/
def uIdField (L : Lib) : Z IdField :=
  union (orElse (andThen (decMap L) fun m => done (.map m))
    (orElse (unionElem (andThen (bstrDecode L) fun b => done (.bstr b)))
      (andThen (int32Decode L) fun i => done (.int i))))

/-- edhoc_decode_plaintext3.c:227-248 `decode_ptxt3` -/
def decodePtxt3 (L : Lib) : Z Ptxt3 :=
  andThen (uIdField L) fun id =>
  andThen (bstrDecode L) fun sm =>
  andThen (optional (bstrDecode L)) fun ead =>
  done ⟨id, sm, ead⟩

/-- edhoc_decode_plaintext2.c:227-250 `decode_ptxt2` -/
def decodePtxt2 (L : Lib) : Z ((Int ⊕ Bytes) × Ptxt3) :=
  andThen (uIntBstr L) fun cR =>
  andThen (uIdField L) fun id =>
  andThen (bstrDecode L) fun sm =>
  andThen (optional (bstrDecode L)) fun ead =>
  done (cR, ⟨id, sm, ead⟩)

/-- inc/cbor/edhoc_decode_cert_types.h `struct cert` -/
structure CertFields where
  type : Int
  serial : Int
  issuer : Bytes
  notBefore : Int
  notAfter : Int
  subject : Bytes
  pkAlg : Int
  pk : Bytes
  extensions : Int
  sigAlg : Int
  signature : Bytes
  deriving DecidableEq, Repr

/-- edhoc_decode_cert.c:22-48 `decode_cert` -/
def decodeCert (L : Lib) : Z CertFields :=
  andThen (int32Decode L) fun type =>
  andThen (int32Decode L) fun serial =>
  andThen (tstrDecode L) fun issuer =>
  andThen (int32Decode L) fun nb =>
  andThen (int32Decode L) fun na =>
  andThen (bstrDecode L) fun subject =>
  andThen (int32Decode L) fun pkAlg =>
  andThen (bstrDecode L) fun pk =>
  andThen (int32Decode L) fun ext =>
  andThen (int32Decode L) fun sigAlg =>
  andThen (bstrDecode L) fun sig =>
  done ⟨type, serial, issuer, nb, na, subject, pkAlg, pk, ext, sigAlg, sig⟩

/-- edhoc_decode_message_1.c:48-57 `cbor_decode_message_1` -/
def cborDecodeMessage1 (L : Lib) (b : Bytes) : Option Msg1 := (entry 4 5 (decodeMessage1 L) b).1
/-- edhoc_decode_plaintext2.c:253-262 `cbor_decode_ptxt2` -/
def cborDecodePtxt2 (L : Lib) (b : Bytes) : Option ((Int ⊕ Bytes) × Ptxt3) := (entry 6 4 (decodePtxt2 L) b).1
/-- edhoc_decode_plaintext3.c:251-260 `cbor_decode_ptxt3` -/
def cborDecodePtxt3 (L : Lib) (b : Bytes) : Option Ptxt3 := (entry 6 3 (decodePtxt3 L) b).1
/-- edhoc_decode_id_cred_x.c:228-237 `cbor_decode_id_cred_x_map`, with what it leaves unread -/
def cborDecodeIdCredX (L : Lib) (b : Bytes) : Option IdMap := (entry 5 1 (decMap L) b).1
/-- edhoc_decode_cert.c:51-60 `cbor_decode_cert` -/
def cborDecodeCert (L : Lib) (b : Bytes) : Option CertFields := (entry 2 11 (decodeCert L) b).1
/-- edhoc_decode_bstr_type.c:22-50 `cbor_decode_bstr_type_b_str`, edhoc_decode_message_2.c:22-50
`cbor_decode_m2_G_Y_CIPHERTEXT_2`, edhoc_decode_message_3.c:22-50 `cbor_decode_m3_CIPHERTEXT_3` -/
def cborDecodeBstr (L : Lib) (b : Bytes) : Option Bytes := (entry 2 1 (bstrDecode L) b).1
/-- edhoc_decode_int_type.c:22-50 `cbor_decode_int_type_i`: the integer and how many bytes were read
(`payload_len_out`) -/
def cborDecodeInt (L : Lib) (b : Bytes) : Option (Int × Nat) :=
  match entry 2 1 (int32Decode L) b with
  | (some i, l) => some (i, b.length - l.length)
  | (none, _) => none

/-! ### encoders -/

/-- the choice `int / bstr` of edhoc_encode_message_1.c:32-34, edhoc_encode_id_cred_x.c:37-39 -/
def encIntBstr : Int ⊕ Bytes → E
  | .inl i => intEncode i
  | .inr b => bstrEncode b

/-- the choice `int / tstr` of edhoc_encode_id_cred_x.c:93-95 -/
def encIntTstr : Int ⊕ Bytes → E
  | .inl i => intEncode i
  | .inr b => tstrEncode b

/-- edhoc_encode_message_1.c:29-31 SUITES_I -/
def encSuites : List Int ⊕ Int → E
  | .inl l => listEncode 10 (multiEncode 2 10 intEncode l)
  | .inr i => intEncode i

/-- edhoc_encode_message_1.c:22-46 `encode_message_1` -/
def encodeMessage1 (m : Msg1) : E :=
  eAnd (intEncode m.method) <| eAnd (encSuites m.suites) <| eAnd (bstrEncode m.gX) <| eAnd (encIntBstr m.cI) <|
    optEncode bstrEncode m.ead1

/-- edhoc_encode_id_cred_x.c:31-49 `encode_repeated_id_cred_x_map_kid` -/
def encKid (v : Int ⊕ Bytes) : E := eAnd (uintEncode 4) (encIntBstr v)
/-- edhoc_encode_id_cred_x.c:51-67, 69-85, 108-124, 126-142, 144-160, 183-199 -/
def encEntry (k : Nat) (v : Bytes) : E := eAnd (uintEncode k) (bstrEncode v)
/-- edhoc_encode_id_cred_x.c:87-106, 162-181 -/
def encThumb (k : Nat) (v : (Int ⊕ Bytes) × Bytes) : E :=
  eAnd (uintEncode k) (listEncode 2 (eAnd (encIntTstr v.1) (bstrEncode v.2)))

/-- edhoc_encode_id_cred_x.c:201-224 `encode_id_cred_x_map` -/
def encodeIdCredX (m : IdMap) : E :=
  mapEncode 9 <|
    eAnd (optEncode encKid m.kid) <| eAnd (optEncode (encEntry 32) m.x5bag) <|
    eAnd (optEncode (encEntry 33) m.x5chain) <| eAnd (optEncode (encThumb 34) m.x5t) <|
    eAnd (optEncode (encEntry 35) m.x5u) <| eAnd (optEncode (encEntry 52) m.c5b) <|
    eAnd (optEncode (encEntry 53) m.c5c) <| eAnd (optEncode (encThumb 54) m.c5t) <|
    optEncode (encEntry 55) m.c5u

/-- edhoc_encode_message_1.c:49-58 `cbor_encode_message_1` -/
def cborEncodeMessage1 (m : Msg1) (cap : Nat) : Option Bytes := entryE 4 5 (encodeMessage1 m) cap
/-- edhoc_encode_id_cred_x.c:228-237 `cbor_encode_id_cred_x_map` -/
def cborEncodeIdCredX (m : IdMap) (cap : Nat) : Option Bytes := entryE 5 1 (encodeIdCredX m) cap
/-- edhoc_encode_bstr_type.c:22-50, edhoc_encode_message_2.c:22-50, edhoc_encode_message_3.c:22-50 -/
def cborEncodeBstr (b : Bytes) (cap : Nat) : Option Bytes := entryE 2 1 (bstrEncode b) cap
/-- edhoc_encode_int_type.c:22-50 `cbor_encode_int_type_i` -/
def cborEncodeInt (i : Int) (cap : Nat) : Option Bytes := entryE 2 1 (intEncode i) cap
/-- edhoc_encode_info.c:22-52 `cbor_encode_info` -/
def cborEncodeInfo (label : Nat) (context : Bytes) (length cap : Nat) : Option Bytes :=
  entryE 2 3 (eAnd (uintEncode label) (eAnd (bstrEncode context) (uintEncode length))) cap
/-- edhoc_encode_th2.c:22-51 `cbor_encode_th2` -/
def cborEncodeTh2 (gY hashMsg1 : Bytes) (cap : Nat) : Option Bytes :=
  entryE 2 2 (eAnd (bstrEncode gY) (bstrEncode hashMsg1)) cap
/-- edhoc_encode_enc_structure.c:22-52 `cbor_encode_edhoc_enc_structure`, oscore_enc_structure.c:22-52
`cbor_encode_oscore_enc_structure` -/
def cborEncodeEncStructure (context protected' aad : Bytes) (cap : Nat) : Option Bytes :=
  entryE 3 1 (listEncode 3 (eAnd (tstrEncode context) (eAnd (bstrEncode protected') (bstrEncode aad)))) cap
/-- edhoc_encode_sig_structure.c:22-53 `cbor_encode_sig_structure` -/
def cborEncodeSigStructure (context protected' aad payload : Bytes) (cap : Nat) : Option Bytes :=
  entryE 3 1 (listEncode 4 (eAnd (tstrEncode context) (eAnd (bstrEncode protected')
    (eAnd (bstrEncode aad) (bstrEncode payload))))) cap
/-- oscore_aad_array.c:22-56 `cbor_encode_aad_array` -/
def cborEncodeAadArray (version : Nat) (alg : Int ⊕ Bytes) (kid piv options : Bytes) (cap : Nat) : Option Bytes :=
  entryE 5 1 (listEncode 5 (eAnd (uintEncode version) (eAnd (listEncode 1 (encIntTstr alg))
    (eAnd (bstrEncode kid) (eAnd (bstrEncode piv) (bstrEncode options)))))) cap
/-- oscore_info.c:22-58 `cbor_encode_oscore_info`; `none`: the choice `nil` -/
def cborEncodeOscoreInfo (id : Bytes) (idContext : Option Bytes) (alg : Int ⊕ Bytes) (type : Bytes) (len cap : Nat) :
    Option Bytes :=
  entryE 4 1 (listEncode 5 (eAnd (bstrEncode id) (eAnd (match idContext with | some b => bstrEncode b | none => nilPut)
    (eAnd (encIntTstr alg) (eAnd (tstrEncode type) (uintEncode len)))))) cap
/-- edhoc_encode_data_2.c:23-74 `cbor_encode_data_2` (not called by the library) -/
def cborEncodeData2 (cI : Option (Int ⊕ Bytes)) (gY : Bytes) (cR : Int ⊕ Bytes) (cap : Nat) : Option Bytes :=
  entryE 3 3 (eAnd (optEncode encIntBstr cI) (eAnd (bstrEncode gY) (encIntBstr cR))) cap
/-- edhoc_encode_message_error.c:24-92 `cbor_encode_message_error` (not called by the library) -/
def cborEncodeError (cX : Option (Int ⊕ Bytes)) (diag : Bytes) (su : Option (List Int ⊕ Int)) (cap : Nat) :
    Option Bytes :=
  entryE 4 3 (eAnd (optEncode encIntBstr cX) (eAnd (tstrEncode diag) (optEncode encSuites su))) cap

end Verif.Zcbor
