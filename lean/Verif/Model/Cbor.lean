import Verif.Model.Base
/-
CBOR as produced by zcbor (ZCBOR_CANONICAL): definite lengths, shortest heads.
-/
namespace Verif

/-- Initial byte and argument of a CBOR item (`zcbor_encode.c value_encode`: the shortest form that
holds the value). -/
def cborHead (major n : Nat) : Bytes :=
  if n < 24 then [byte (major * 32 + n)]
  else if n < 2 ^ 8 then [byte (major * 32 + 24), byte n]
  else if n < 2 ^ 16 then [byte (major * 32 + 25), byte (n / 2 ^ 8), byte (n % 256)]
  else if n < 2 ^ 32 then
    [byte (major * 32 + 26), byte (n / 2 ^ 24), byte (n / 2 ^ 16 % 256), byte (n / 2 ^ 8 % 256),
      byte (n % 256)]
  else
    [byte (major * 32 + 27), byte (n / 2 ^ 56), byte (n / 2 ^ 48 % 256), byte (n / 2 ^ 40 % 256),
      byte (n / 2 ^ 32 % 256), byte (n / 2 ^ 24 % 256), byte (n / 2 ^ 16 % 256),
      byte (n / 2 ^ 8 % 256), byte (n % 256)]

/-- `zcbor_uint*_put` (zcbor library, called from src/cbor/edhoc_encode_info.c:27, oscore_aad_array.c:28) -/
def cborUint (n : Nat) : Bytes := cborHead 0 n
/-- `zcbor_int*_put` (zcbor library, called from src/cbor/edhoc_encode_data_2.c:28) -/
def cborInt (i : Int) : Bytes :=
  if i ≥ 0 then cborHead 0 i.toNat else cborHead 1 (-1 - i).toNat
/-- `zcbor_bstr_encode` (zcbor library, called from src/cbor/edhoc_encode_bstr_type.c:27) -/
def cborBstr (b : Bytes) : Bytes := cborHead 2 b.length ++ b
/-- `zcbor_tstr_encode` (zcbor library, called from src/cbor/edhoc_encode_enc_structure.c:27) -/
def cborTstr (b : Bytes) : Bytes := cborHead 3 b.length ++ b
/-- `zcbor_list_start_encode` with `n` elements (zcbor library, called from src/cbor/edhoc_encode_enc_structure.c:27) -/
def cborArr (n : Nat) : Bytes := cborHead 4 n
/-- `zcbor_map_start_encode` with `n` pairs (zcbor library, called from src/cbor/edhoc_encode_id_cred_x.c:206) -/
def cborMap (n : Nat) : Bytes := cborHead 5 n
/-- `zcbor_nil_put` (zcbor library, called from src/cbor/oscore_info.c:29) -/
def cborNil : Bytes := [0xf6]

/-- zcbor encoders fail when the output buffer is too short; the generated functions' callers turn
that into an error code. Zcbor library, called from src/cbor/oscore_info.c:49-58 and the other entry functions. -/
def cborOut (cap : Nat) (e : Err) (b : Bytes) : R Bytes := if b.length ≤ cap then .ok b else .err e

end Verif
