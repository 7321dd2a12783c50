import Verif.Model.EdhocCbor
/-
The state machine of the zcbor library that the generated functions of src/cbor/*.c drive: a cursor, an element
counter and a bounded stack of backups.  The sources of zcbor are not in the repository (externals/zcbor is an empty
submodule; the generated files name version 0.8.99); what is written here is the documented behaviour of its calls,
with the parts that differ between versions left open as parameters (`Lib`).

The functions of `Verif.Model.EdhocCbor` (zInt32, zBstr, decMsg1, ...) describe the generated decoders by the CDDL
they were generated from.  Here the generated functions themselves are executed; Props/ZcborGen.lean shows that they
agree.
-/
namespace Verif.Zcbor
open Verif Verif.Edhoc

/-- what the versions of zcbor differ in (zcbor library, behind src/cbor/edhoc_decode_*.c) -/
structure Lib where
  /-- shortest encodings are enforced (ZCBOR_CANONICAL in newer versions) -/
  strict : Bool
  /-- where the cursor and the element counter are left when a value has the right major type but cannot be decoded
  (out of range, truncated): newer versions restore both, older ones do not -/
  junk : Bytes → Nat → Bytes × Nat
  /-- `zcbor_map_start_decode` refuses maps of at least this many pairs: the counter would overflow -/
  mapLimit : Nat
  /-- whether that refusal leaves the backup of the map behind -/
  mapLeak : Bool

/-- `zcbor_state_t` of a decoder, with its `constant_state`: what is left of the input (`payload`), `elem_count`,
the backups in use (payload and elem_count each) and how many there may be (`num_backups`)
(zcbor library; the `states` arrays at src/cbor/edhoc_decode_bstr_type.c:46) -/
structure ZS where
  pay : Bytes
  ec : Nat
  baks : List (Bytes × Nat)
  nb : Nat
  deriving DecidableEq, Repr

/-- a decoder returns `false` (here `none`) or `true` with what it wrote to its result, and a new state
(the type of the functions of src/cbor/edhoc_decode_*.c) -/
abbrev Z (α : Type) := ZS → Option α × ZS

/-- state after a value that could not be decoded (zcbor library) -/
def Lib.bad (L : Lib) (s : ZS) : ZS := { s with pay := (L.junk s.pay s.ec).1, ec := (L.junk s.pay s.ec).2 }

/-- zcbor_decode.c `value_extract` with the checks made before and after it: something is left, the major type
is one of `want`, an element is expected here, the head is well-formed, and the value is acceptable (`f`) -/
def value {α : Type} (L : Lib) (want : Nat → Bool) (f : Nat → Nat → Bytes → Option (α × Bytes)) : Z α := fun s =>
  match s.pay with
  | [] => (none, s)
  | b :: _ =>
    if want (b.toNat / 32) = false then (none, s)
    else if s.ec = 0 then (none, s)
    else match zHead L.strict s.pay with
      | none => (none, L.bad s)
      | some (m, v, l) =>
        match f m v l with
        | none => (none, L.bad s)
        | some (x, l') => (some x, { s with pay := l', ec := s.ec - 1 })

/-- `zcbor_int32_decode` (zcbor library, called from src/cbor/edhoc_decode_int_type.c:27) -/
def int32Decode (L : Lib) : Z Int :=
  value L (fun m => m == 0 || m == 1) fun m v l =>
    if v < 2 ^ 31 then some (if m = 0 then Int.ofNat v else -1 - Int.ofNat v, l) else none

/-- `zcbor_uint32_expect` (zcbor library, called from src/cbor/edhoc_decode_id_cred_x.c:37) -/
def uint32Expect (L : Lib) (k : Nat) : Z Unit :=
  value L (fun m => m == 0) fun _ v l => if v = k then some ((), l) else none

/-- a string of major type `mt` (zcbor library, called from src/cbor/edhoc_decode_bstr_type.c:27) -/
def strDecode (L : Lib) (mt : Nat) : Z Bytes :=
  value L (fun m => m == mt) fun _ v l => if v ≤ l.length then some (l.take v, l.drop v) else none

/-- `zcbor_bstr_decode` (zcbor library, called from src/cbor/edhoc_decode_bstr_type.c:27) -/
def bstrDecode (L : Lib) : Z Bytes := strDecode L 2
/-- `zcbor_tstr_decode` (zcbor library, called from src/cbor/edhoc_decode_cert.c:29) -/
def tstrDecode (L : Lib) : Z Bytes := strDecode L 3

/-- `a && b` of two calls: the second is made only if the first succeeded (src/cbor/edhoc_decode_*.c, the C operator) -/
def andThen {α β : Type} (a : Z α) (f : α → Z β) : Z β := fun s =>
  match a s with
  | (some x, s') => f x s'
  | (none, s') => (none, s')

/-- `true` with a result (src/cbor/edhoc_decode_*.c) -/
def done {α : Type} (x : α) : Z α := fun s => (some x, s)

/-- `a || b`: the second call starts where the first one left the state (src/cbor/edhoc_decode_*.c, the C operator) -/
def orElse {α : Type} (a b : Z α) : Z α := fun s =>
  match a s with
  | (some x, s') => (some x, s')
  | (none, s') => b s'

/-- `zcbor_new_backup` (zcbor library) -/
def newBackup (n : Nat) : Z Unit := fun s =>
  if s.baks.length < s.nb then (some (), { s with ec := n, baks := (s.pay, s.ec) :: s.baks }) else (none, s)

/-- `zcbor_list_start_decode`: the number of elements replaces the counter, the outer counter is kept in a backup
(zcbor library, called from src/cbor/edhoc_decode_id_cred_x.c:94) -/
def listStart (L : Lib) : Z Unit := fun s =>
  match value L (fun m => m == 4) (fun _ v l => some (v, l)) s with
  | (none, s') => (none, s')
  | (some n, s') =>
    match newBackup n s' with
    | (none, _) => (none, L.bad s)
    | r => r

/-- `zcbor_map_start_decode`: as many elements as there are keys and values
(zcbor library, called from src/cbor/edhoc_decode_id_cred_x.c:206) -/
def mapStart (L : Lib) : Z Unit := fun s =>
  match value L (fun m => m == 5) (fun _ v l => some (v, l)) s with
  | (none, s') => (none, s')
  | (some n, s') =>
    match newBackup n s' with
    | (none, _) => (none, L.bad s)
    | (some _, s'') =>
      if n < L.mapLimit then (some (), { s'' with ec := 2 * n })
      else (none, if L.mapLeak then s'' else L.bad s)

/-- `zcbor_list_end_decode`, `zcbor_map_end_decode`: the outer counter comes back, the cursor stays; fails if
elements are left (zcbor library, called from src/cbor/edhoc_decode_id_cred_x.c:96, 214) -/
def listEnd : Z Unit := fun s =>
  match s.baks with
  | [] => (none, s)
  | (p, e) :: t =>
    if s.ec = 0 then (some (), { s with ec := e, baks := t })
    else (none, { s with pay := p, ec := e, baks := t })

/-- `zcbor_list_map_end_force_decode` (zcbor library, called from src/cbor/edhoc_decode_id_cred_x.c:96) -/
def endForce (s : ZS) : ZS :=
  match s.baks with
  | [] => s
  | (p, e) :: t => { s with pay := p, ec := e, baks := t }

/-- `start && ((body) || (zcbor_list_map_end_force_decode(state), false)) && end`: how the generated functions
decode a list or a map (src/cbor/edhoc_decode_id_cred_x.c:94-96) -/
def bracket {α : Type} (start : Z Unit) (body : Z α) : Z α := fun s =>
  match start s with
  | (none, s') => (none, s')
  | (some _, s1) =>
    match body s1 with
    | (none, s2) => (none, endForce s2)
    | (some x, s2) =>
      match listEnd s2 with
      | (none, s3) => (none, s3)
      | (some _, s3) => (some x, s3)

/-- `zcbor_union_start_code` (zcbor library, called from src/cbor/edhoc_decode_id_cred_x.c:38) -/
def unionStart : Z Unit := fun s => newBackup s.ec s

/-- `zcbor_union_elem_code(state) && a`: back to the beginning of the union, then `a`
(zcbor library, called from src/cbor/edhoc_decode_message_1.c:30) -/
def unionElem {α : Type} (a : Z α) : Z α := fun s =>
  match s.baks with
  | [] => (none, s)
  | (p, e) :: _ => a { s with pay := p, ec := e }

/-- `zcbor_union_end_code` (zcbor library, called from src/cbor/edhoc_decode_id_cred_x.c:39) -/
def unionEnd (s : ZS) : ZS := { s with baks := s.baks.tail }

/-- `zcbor_union_start_code(state) && (int_res = (alternatives), zcbor_union_end_code(state), int_res)`
(src/cbor/edhoc_decode_id_cred_x.c:38-39) -/
def union {α : Type} (alts : Z α) : Z α := fun s =>
  match unionStart s with
  | (none, s') => (none, s')
  | (some _, s1) =>
    match alts s1 with
    | (r, s2) => (r, unionEnd s2)

/-- `zcbor_multi_decode(min, max, ...)`, `i` elements already decoded: stops at the first element that fails
(zcbor library, called from src/cbor/edhoc_decode_message_1.c:29) -/
def multiGo {α : Type} (dec : Z α) (min : Nat) : Nat → Nat → List α → Z (List α)
  | 0, _, acc => fun s => (some acc.reverse, s)
  | n + 1, i, acc => fun s =>
    match dec s with
    | (some x, s') => multiGo dec min n (i + 1) (x :: acc) s'
    | (none, s') =>
      let s'' := { s' with pay := s.pay, ec := s.ec }
      if i < min then (none, s'') else (some acc.reverse, s'')

/-- `zcbor_multi_decode` (zcbor library, called from src/cbor/edhoc_decode_message_1.c:29) -/
def multiDecode {α : Type} (min max : Nat) (dec : Z α) : Z (List α) := multiGo dec min max 0 []

/-- `zcbor_present_decode`: zero or one (zcbor library, called from src/cbor/edhoc_decode_id_cred_x.c:206-213) -/
def presentDecode {α : Type} (dec : Z α) : Z (Option α) :=
  andThen (multiDecode 0 1 dec) fun l => done l.head?

/-- `present = a, 1`: an optional element at the end of a sequence (src/cbor/edhoc_decode_message_1.c:34) -/
def optional {α : Type} (a : Z α) : Z (Option α) := fun s =>
  match a s with
  | (some x, s') => (some (some x), s')
  | (none, s') => (some none, s')

/-- `zcbor_entry_function` with an array of `n` states (one of them the state itself, one shared, the others backups)
and `ec` expected elements; it does not ask that all input is consumed
(zcbor library, called from src/cbor/edhoc_decode_bstr_type.c:48) -/
def entry {α : Type} (n ec : Nat) (dec : Z α) (payload : Bytes) : Option α × Bytes :=
  let (r, s) := dec ⟨payload, ec, [], n - 2⟩
  (r, s.pay)

/-! ### encoding -/

/-- `zcbor_state_t` of an encoder: what has been written, the size of the buffer, `elem_count` (counted up), the
backups (position and elem_count) and how many there may be (zcbor library, behind src/cbor/edhoc_encode_*.c) -/
structure ES where
  out : Bytes
  cap : Nat
  ec : Nat
  baks : List (Nat × Nat)
  nb : Nat
  deriving DecidableEq, Repr

/-- an encoder fails or succeeds with a new state; what a failed call leaves in the buffer is not modelled
(the type of the functions of src/cbor/edhoc_encode_*.c) -/
abbrev E := ES → Option ES

/-- one encoded element (zcbor library) -/
def put (b : Bytes) : E := fun s =>
  if s.out.length + b.length ≤ s.cap then some { s with out := s.out ++ b, ec := s.ec + 1 } else none

/-- `a && b` (src/cbor/edhoc_encode_*.c, the C operator) -/
def eAnd (a b : E) : E := fun s =>
  match a s with
  | none => none
  | some s' => b s'

/-- `zcbor_uint32_encode`, `zcbor_uint32_put` (zcbor library, called from src/cbor/edhoc_encode_info.c:27) -/
def uintEncode (n : Nat) : E := put (cborUint n)
/-- `zcbor_int32_encode` (zcbor library, called from src/cbor/edhoc_encode_data_2.c:28) -/
def intEncode (i : Int) : E := put (cborInt i)
/-- `zcbor_bstr_encode` (zcbor library, called from src/cbor/edhoc_encode_bstr_type.c:27) -/
def bstrEncode (b : Bytes) : E := put (cborBstr b)
/-- `zcbor_tstr_encode` (zcbor library, called from src/cbor/edhoc_encode_enc_structure.c:27) -/
def tstrEncode (b : Bytes) : E := put (cborTstr b)
/-- `zcbor_nil_put` (zcbor library, called from src/cbor/oscore_info.c:29) -/
def nilPut : E := put cborNil

/-- `zcbor_list_start_encode(state, max)`, `zcbor_map_start_encode` (ZCBOR_CANONICAL): a backup, and a header for
`max` elements that is replaced at the end (zcbor library, called from src/cbor/edhoc_encode_enc_structure.c:27) -/
def startEncode (major max : Nat) : E := fun s =>
  if s.baks.length < s.nb then
    match put (cborHead major max) { s with baks := (s.out.length, s.ec) :: s.baks } with
    | none => none
    | some s' => some { s' with ec := 0 }
  else none

/-- `zcbor_list_end_encode(state, max)` (`per` = 1), `zcbor_map_end_encode` (`per` = 2): the header is written
again with the number of elements there are; what follows it is moved if the header became shorter
(zcbor library, called from src/cbor/edhoc_encode_enc_structure.c:29) -/
def endEncode (major per max : Nat) : E := fun s =>
  match s.baks with
  | [] => none
  | (p, e) :: t =>
    if max < s.ec / per then none
    else
      let body := s.out.drop (p + (cborHead major max).length)
      some { s with out := s.out.take p ++ cborHead major (s.ec / per) ++ body, ec := e + 1, baks := t }

/-- `start(max) && ((body) || (force, false)) && end(max)` (src/cbor/edhoc_encode_enc_structure.c:27-29) -/
def listEncode (max : Nat) (body : E) : E := eAnd (startEncode 4 max) (eAnd body (endEncode 4 1 max))
/-- the same for a map of at most `max` pairs (src/cbor/edhoc_encode_id_cred_x.c:206-214) -/
def mapEncode (max : Nat) (body : E) : E := eAnd (startEncode 5 max) (eAnd body (endEncode 5 2 max))

/-- `!present || encode` (src/cbor/edhoc_encode_id_cred_x.c:206-213) -/
def optEncode {α : Type} (f : α → E) : Option α → E
  | none => fun s => some s
  | some x => f x

/-- the elements one after the other (zcbor library, called from src/cbor/edhoc_encode_message_1.c:28) -/
def seqEncode {α : Type} (f : α → E) : List α → E
  | [] => fun s => some s
  | x :: l => eAnd (f x) (seqEncode f l)

/-- `zcbor_multi_encode_minmax(min, max, ...)` (zcbor library, called from src/cbor/edhoc_encode_message_1.c:28) -/
def multiEncode {α : Type} (min max : Nat) (f : α → E) (l : List α) : E := fun s =>
  if min ≤ l.length ∧ l.length ≤ max then seqEncode f l s else none

/-- `zcbor_entry_function` of an encoder, into a buffer of `cap` bytes: what was written
(zcbor library, called from src/cbor/edhoc_encode_bstr_type.c:48) -/
def entryE (n ec : Nat) (f : E) (cap : Nat) : Option Bytes :=
  match f ⟨[], cap, ec, [], n - 2⟩ with
  | none => none
  | some s => some s.out

end Verif.Zcbor
