import Verif.Model.EdhocBase
/-
The zcbor decoders of EDHOC (src/cbor/edhoc_decode_*.c) and the two small wrappers
bstr_encode_decode.c, int_encode_decode.c.

zcbor itself is an external library that is not in the sources.  Modelled: definite lengths, optional
enforcement of shortest heads (`strict`), `zcbor_entry_function` does not require the whole input to be
consumed, unions and optional elements backtrack.  Not modelled: indefinite lengths (refused with
ZCBOR_CANONICAL).
-/
namespace Verif.Edhoc
open Verif

/-- smallest argument that needs the given number of bytes (zcbor library, behind src/cbor/*.c) -/
def minArg : Nat → Nat
  | 1 => 24
  | 2 => 2 ^ 8
  | 4 => 2 ^ 16
  | _ => 2 ^ 32

/-- `k` argument bytes of an item of major type `m` (zcbor library, behind src/cbor/*.c) -/
def zArg (strict : Bool) (m k : Nat) (l : Bytes) : Option (Nat × Nat × Bytes) :=
  if l.length < k then none
  else if strict = true ∧ beVal (l.take k) < minArg k then none
  else some (m, beVal (l.take k), l.drop k)

/-- zcbor_decode.c `value_extract`: major type, argument, rest -/
def zHead (strict : Bool) : Bytes → Option (Nat × Nat × Bytes)
  | [] => none
  | b :: l =>
    if b.toNat % 32 < 24 then some (b.toNat / 32, b.toNat % 32, l)
    else if b.toNat % 32 = 24 then zArg strict (b.toNat / 32) 1 l
    else if b.toNat % 32 = 25 then zArg strict (b.toNat / 32) 2 l
    else if b.toNat % 32 = 26 then zArg strict (b.toNat / 32) 4 l
    else if b.toNat % 32 = 27 then zArg strict (b.toNat / 32) 8 l
    else none

/-- `zcbor_int32_decode` (zcbor library, called from src/cbor/edhoc_decode_int_type.c:27) -/
def zInt32 (s : Bool) (b : Bytes) : Option (Int × Bytes) :=
  match zHead s b with
  | some (m, v, l) =>
    if v < 2 ^ 31 then
      if m = 0 then some (Int.ofNat v, l) else if m = 1 then some (-1 - Int.ofNat v, l) else none
    else none
  | none => none

/-- `zcbor_uint32_expect` (zcbor library, called from src/cbor/edhoc_decode_id_cred_x.c:37) -/
def zExpect (s : Bool) (k : Nat) (b : Bytes) : Option Bytes :=
  match zHead s b with
  | some (m, v, l) => if m = 0 ∧ v = k then some l else none
  | none => none

/-- a string of major type `mt` (zcbor library, called from src/cbor/edhoc_decode_bstr_type.c:27) -/
def zStr (s : Bool) (mt : Nat) (b : Bytes) : Option (Bytes × Bytes) :=
  match zHead s b with
  | some (m, v, l) => if m = mt ∧ v ≤ l.length then some (l.take v, l.drop v) else none
  | none => none

/-- `zcbor_bstr_decode` (zcbor library, called from src/cbor/edhoc_decode_bstr_type.c:27) -/
def zBstr (s : Bool) (b : Bytes) : Option (Bytes × Bytes) := zStr s 2 b
/-- `zcbor_tstr_decode` (zcbor library, called from src/cbor/edhoc_decode_id_cred_x.c:95) -/
def zTstr (s : Bool) (b : Bytes) : Option (Bytes × Bytes) := zStr s 3 b

/-- `zcbor_list_start_decode` / `zcbor_map_start_decode`: the number of elements
(zcbor library, called from src/cbor/edhoc_decode_id_cred_x.c:94, 206) -/
def zStart (s : Bool) (mt : Nat) (b : Bytes) : Option (Nat × Bytes) :=
  match zHead s b with
  | some (m, v, l) => if m = mt then some (v, l) else none
  | none => none

/-- an optional byte string at the end (edhoc_decode_message_1.c:34, ..plaintext2.c:239) -/
def zOptBstr (s : Bool) (b : Bytes) : Option Bytes :=
  match zBstr s b with
  | some (v, _) => some v
  | none => none

/-- union of int32 and bstr, in this order (..message_1.c:32-33, ..plaintext2.c:233-234) -/
def zIntOrBstr (s : Bool) (b : Bytes) : Option ((Int ⊕ Bytes) × Bytes) :=
  match zInt32 s b with
  | some (v, l) => some (.inl v, l)
  | none =>
    match zBstr s b with
    | some (v, l) => some (.inr v, l)
    | none => none

/-- union of int32 and tstr (..plaintext2.c:95-96) -/
def zIntOrTstr (s : Bool) (b : Bytes) : Option ((Int ⊕ Bytes) × Bytes) :=
  match zInt32 s b with
  | some (v, l) => some (.inl v, l)
  | none =>
    match zTstr s b with
    | some (v, l) => some (.inr v, l)
    | none => none

/-- `n` integers (zcbor library, called from src/cbor/edhoc_decode_message_1.c:29) -/
def zInts (s : Bool) : Nat → Bytes → Option (List Int × Bytes)
  | 0, b => some ([], b)
  | n + 1, b =>
    match zInt32 s b with
    | some (v, l) =>
      match zInts s n l with
      | some (vs, l') => some (v :: vs, l')
      | none => none
    | none => none

/-- list of 2 to 10 integers (edhoc_decode_message_1.c:29) -/
def zSuiteList (s : Bool) (b : Bytes) : Option (List Int × Bytes) :=
  match zStart s 4 b with
  | some (n, l) => if 2 ≤ n ∧ n ≤ 10 then zInts s n l else none
  | none => none

/-- edhoc_decode_message_1.c:29-30 SUITES_I: a list or one integer -/
def zSuites (s : Bool) (b : Bytes) : Option ((List Int ⊕ Int) × Bytes) :=
  match zSuiteList s b with
  | some (v, l) => some (.inl v, l)
  | none =>
    match zInt32 s b with
    | some (v, l) => some (.inr v, l)
    | none => none

/-- inc/cbor/edhoc_decode_message_1_types.h `struct message_1` -/
structure Msg1 where
  method : Int
  suites : List Int ⊕ Int
  gX : Bytes
  cI : Int ⊕ Bytes
  ead1 : Option Bytes
  deriving DecidableEq, Repr

/-- src/cbor/edhoc_decode_message_1.c:22-57 `cbor_decode_message_1` -/
def decMsg1 (s : Bool) (b : Bytes) : Option Msg1 :=
  match zInt32 s b with
  | none => none
  | some (method, b1) =>
    match zSuites s b1 with
    | none => none
    | some (suites, b2) =>
      match zBstr s b2 with
      | none => none
      | some (gX, b3) =>
        match zIntOrBstr s b3 with
        | none => none
        | some (cI, b4) => some ⟨method, suites, gX, cI, zOptBstr s b4⟩

/-- inc/cbor/edhoc_decode_id_cred_x_types.h `struct id_cred_x_map` -/
structure IdMap where
  kid : Option (Int ⊕ Bytes)
  x5bag : Option Bytes
  x5chain : Option Bytes
  x5t : Option ((Int ⊕ Bytes) × Bytes)
  x5u : Option Bytes
  c5b : Option Bytes
  c5c : Option Bytes
  c5t : Option ((Int ⊕ Bytes) × Bytes)
  c5u : Option Bytes
  deriving DecidableEq, Repr

/-- `[alg, hash]` (edhoc_decode_id_cred_x.c:94-96) -/
def zAlgHash (s : Bool) (b : Bytes) : Option (((Int ⊕ Bytes) × Bytes) × Bytes) :=
  match zStart s 4 b with
  | none => none
  | some (n, b1) =>
    if n = 2 then
      match zIntOrTstr s b1 with
      | none => none
      | some (a, b2) =>
        match zBstr s b2 with
        | none => none
        | some (h, b3) => some ((a, h), b3)
    else none

/-- `zcbor_present_decode` of one map entry: with `n` entries left, key `k`, value decoder `f`
(zcbor library, called from src/cbor/edhoc_decode_id_cred_x.c:206-213) -/
def zEntry {α : Type} (s : Bool) (k : Nat) (f : Bytes → Option (α × Bytes)) (n : Nat) (b : Bytes) :
    Option α × Nat × Bytes :=
  if n = 0 then (none, n, b)
  else match zExpect s k b with
    | none => (none, n, b)
    | some b' =>
      match f b' with
      | none => (none, n, b)
      | some (v, b'') => (some v, n - 1, b'')

/-- src/cbor/edhoc_decode_id_cred_x.c:201-224 (and decode_map2, decode_map3): the entries in this
order, each optional, nothing else. -/
def zIdMap (s : Bool) (b : Bytes) : Option (IdMap × Bytes) :=
  match zStart s 5 b with
  | none => none
  | some (n0, b0) =>
    let (kid, n1, b1) := zEntry s 4 (zIntOrBstr s) n0 b0
    let (x5bag, n2, b2) := zEntry s 32 (zBstr s) n1 b1
    let (x5chain, n3, b3) := zEntry s 33 (zBstr s) n2 b2
    let (x5t, n4, b4) := zEntry s 34 (zAlgHash s) n3 b3
    let (x5u, n5, b5) := zEntry s 35 (zBstr s) n4 b4
    let (c5b, n6, b6) := zEntry s 52 (zBstr s) n5 b5
    let (c5c, n7, b7) := zEntry s 53 (zBstr s) n6 b6
    let (c5t, n8, b8) := zEntry s 54 (zAlgHash s) n7 b7
    let (c5u, n9, b9) := zEntry s 55 (zBstr s) n8 b8
    if n9 = 0 then some (⟨kid, x5bag, x5chain, x5t, x5u, c5b, c5c, c5t, c5u⟩, b9) else none

/-- the three forms of ID_CRED in a plaintext (edhoc_decode_plaintext2.c:232-237, edhoc_decode_plaintext3.c:233-237) -/
inductive IdField where
  | map (m : IdMap)
  | bstr (b : Bytes)
  | int (i : Int)
  deriving DecidableEq, Repr

/-- edhoc_decode_plaintext2.c:235-237 ID_CRED: map, bstr or int -/
def zIdField (s : Bool) (b : Bytes) : Option (IdField × Bytes) :=
  match zIdMap s b with
  | some (m, l) => some (.map m, l)
  | none =>
    match zBstr s b with
    | some (v, l) => some (.bstr v, l)
    | none =>
      match zInt32 s b with
      | some (v, l) => some (.int v, l)
      | none => none

/-- inc/cbor/edhoc_decode_plaintext3_types.h `struct ptxt3` -/
structure Ptxt3 where
  id : IdField
  sigOrMac : Bytes
  ead : Option Bytes
  deriving DecidableEq, Repr

/-- src/cbor/edhoc_decode_plaintext3.c `cbor_decode_ptxt3` -/
def decPtxt3 (s : Bool) (b : Bytes) : Option Ptxt3 :=
  match zIdField s b with
  | none => none
  | some (id, b1) =>
    match zBstr s b1 with
    | none => none
    | some (sm, b2) => some ⟨id, sm, zOptBstr s b2⟩

/-- src/cbor/edhoc_decode_plaintext2.c:227-262 `cbor_decode_ptxt2`: C_R, then as plaintext 3 -/
def decPtxt2 (s : Bool) (b : Bytes) : Option ((Int ⊕ Bytes) × Ptxt3) :=
  match zIntOrBstr s b with
  | none => none
  | some (cR, b1) =>
    match decPtxt3 s b1 with
    | none => none
    | some p => some (cR, p)

/-- src/edhoc/bstr_encode_decode.c:16-27 `encode_bstr` into a buffer of `cap` bytes -/
def encodeBstr (b : Bytes) (cap : Nat) : R Bytes :=
  cborOut cap .unexpected_result_from_ext_lib (cborBstr b)

/-- src/edhoc/bstr_encode_decode.c:29-42 `decode_bstr` into a buffer of `cap` bytes -/
def decodeBstr (cfg : ECfg) (b : Bytes) (cap : Nat) : R Bytes :=
  match zBstr cfg.strictCbor b with
  | none => .err .unexpected_result_from_ext_lib
  | some (v, _) => memcpyS cap v

/-- src/edhoc/int_encode_decode.c:34-42 `encode_int` -/
def encodeInt (i : Int) (cap : Nat) : R Bytes :=
  cborOut cap .unexpected_result_from_ext_lib (cborInt i)

/-- src/edhoc/int_encode_decode.c:44-53 `decode_int` -/
def decodeInt (cfg : ECfg) (b : Bytes) : R Int :=
  match zInt32 cfg.strictCbor b with
  | none => .err .unexpected_result_from_ext_lib
  | some (v, l) => if b.length - l.length ≠ 1 then .err .cbor_decoding_error else .ok v

/-- src/edhoc/int_encode_decode.c:13-21 `c_x_is_encoded_int` -/
def isEncodedInt : Bytes → Bool
  | [b] => b.toNat < 0x18 || (0x1F < b.toNat && b.toNat ≤ 0x37)
  | _ => false

/-- src/edhoc/int_encode_decode.c:24-31 `c_r_is_raw_int` (a `uint8_t` is never below -24) -/
def isRawInt : Bytes → Bool
  | [b] => b.toNat ≤ 23
  | _ => false

/-- src/edhoc/hkdf_info.c:22-61 `create_hkdf_info` into a buffer of `cap` bytes; `label` is a
`uint8_t` -/
def createHkdfInfo (label : Nat) (context : Bytes) (okmLen cap : Nat) : R Bytes :=
  cborOut cap .unexpected_result_from_ext_lib
    (cborUint label ++ cborBstr context ++ cborUint okmLen)

/-- src/edhoc/okm.c:22-35 `edhoc_kdf` -/
def edhocKdf (cfg : ECfg) (C : ECrypto) (prk : Bytes) (label : Nat) (context : Bytes) (L : Nat) :
    R Bytes := do
  checkBufferSize cfg.infoMaxSize (asBstr context.length + 4)
  let info ← createHkdfInfo label context L (asBstr context.length + 4)
  hkdfExpand { infoMax := cfg.infoMaxSize } C.toCrypto prk info L

end Verif.Edhoc
