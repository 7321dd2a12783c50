import Verif.Model.Coap
/-
src/oscore/oscore_interactions.c
-/
namespace Verif

/-- inc/oscore/oscore_interactions.h:33-44 `struct oscore_interaction_t` (occupied records) -/
structure Rec where
  reqType : MsgType
  piv : Bytes
  kid : Bytes
  token : Bytes
  uri : Bytes
  deriving DecidableEq, Repr

/-- The interactions array; `none` is an unoccupied (zeroed) slot.  Slots are only ever written as a
whole with `is_occupied = true` (line 215) or zeroed (170-179, 268), so this loses nothing. Inc/oscore/oscore_interactions.h. -/
abbrev Table := List (Option Rec)

/-- oscore_interactions.c:170-179 `oscore_interactions_init` -/
def Table.init (n : Nat) : Table := List.replicate n none

/-- oscore_interactions.c:106-116 `find_unoccupied_index` -/
def Table.findFree (t : Table) : Nat := t.findIdx (fun r => r.isNone)

/-- oscore_interactions.c:126-145 `find_record_index_by_resource` -/
def Table.findRes (t : Table) (uri : Bytes) (ty : MsgType) : Nat :=
  t.findIdx (fun r => match r with
    | none => false
    | some r => r.reqType == ty && r.uri == uri)

/-- oscore_interactions.c:154-168 `find_record_index_by_token` -/
def Table.findTok (t : Table) (token : Bytes) : Nat :=
  t.findIdx (fun r => match r with
    | none => false
    | some r => r.token == token)

/-- oscore_interactions.c:181-221 `oscore_interactions_set_record` -/
def Table.set (cfg : Cfg) (t : Table) (r : Rec) : R Table :=
  if r.token.length > 8 ∨ r.uri.length > cfg.uriMax ∨ r.piv.length > 5 ∨ r.kid.length > 8 then
    .err .wrong_parameter
  else
    let byUri := t.findRes r.uri r.reqType
    let slot := if byUri ≥ t.length then t.findFree else byUri
    if slot ≥ t.length then .err .oscore_max_interactions
    else
      let byTok := t.findTok r.token
      if byTok < t.length ∧ byTok ≠ slot then .err .oscore_interaction_duplicated_token
      else .ok (List.set t slot (some r))

/-- oscore_interactions.c:223-247 `oscore_interactions_get_record` -/
def Table.get (t : Table) (token : Bytes) : R Rec :=
  if token.length > 8 then .err .wrong_parameter
  else
    match t[t.findTok token]? with
    | some (some r) => .ok r
    | _ => .err .oscore_interaction_not_found

/-- oscore_interactions.c:249-272 `oscore_interactions_remove_record` -/
def Table.remove (t : Table) (token : Bytes) : R Table :=
  if token.length > 8 then .err .wrong_parameter
  else if t.findTok token ≥ t.length then .err .oscore_interaction_not_found
  else .ok (List.set t (t.findTok token) none)

/-- oscore_interactions.c:274-298 `oscore_interactions_read_wrapper`: for responses (request PIV,
request KID) come from the record, otherwise they stay as given. -/
def readWrapper (t : Table) (ty : MsgType) (token : Bytes) (pivKid : R (Bytes × Bytes)) :
    R (Bytes × Bytes) :=
  if ty = .response ∨ ty = .notification then do
    let r ← t.get token
    pure (r.piv, r.kid)
  else pivKid

/-- oscore_interactions.c:300-343 `oscore_interactions_update_wrapper`.  The length fields are
8-bit casts; after the checked copies only the URI length can exceed 255. -/
def updateWrapper (cfg : Cfg) (t : Table) (ty : MsgType) (token uri piv kid : Bytes) : R Table :=
  let ty := if ty = .cancellation then .registration else ty
  if ty = .request ∨ ty = .registration then do
    let piv ← memcpyS 5 piv
    let kid ← memcpyS 8 kid
    let token ← memcpyS 8 token
    let uri ← memcpyS cfg.uriMax uri
    t.set cfg { reqType := ty, piv, kid, token, uri := uri.take (uri.length % 256) }
  else if ty = .response then t.remove token
  else .ok t

end Verif
