import Verif.Model.Unprotect
import Verif.Model.EdhocMsg
/-
The loops of the code with their counters.  The other models write loops as recursion over lists, which always ends; in C
the counter has a fixed width and the loop goes on for ever when its bound does not fit.  Here every loop whose bound is a
configuration value or comes from the caller is written with its counter; C83 connects them with the other models.
The loops over the options of one packet (`uint8_t` counters, bound `uint8_t`), the loops over limbs in crypto_p256.c and
the loops with literal bounds end because of their types; `hkdf_expand` is C37, `options_deserialize` counts down in
`optLoop` (lines 215-219 end it after 20 options).
-/
namespace Verif.Loops

/-- what one execution of a loop body does: go on with new values of the variables, or leave the loop with a result
(auxiliary, no counterpart in the C code) -/
inductive Ctl (σ ρ : Type) where
  | next (s : σ)
  | stop (r : ρ)

/-- `for (uintW_t i = i0; i < n; i++) body`, started with `i = i0` and the variables `s`; `done` is the code after the loop.
`none`: not finished after `fuel` iterations. The `for` statements cited below, e.g. src/oscore/replay_protection.c:90-94. -/
def cfor {σ ρ : Type} (W n : Nat) (body : Nat → σ → Ctl σ ρ) (done : Nat → σ → ρ) : (fuel i : Nat) → σ → Option ρ
  | 0, _, _ => none
  | fuel + 1, i, s =>
    if i < n then
      match body i s with
      | .stop r => some r
      | .next s' => cfor W n body done fuel ((i + 1) % 2 ^ W) s'
    else some (done i s)

/-- a computation, given how many iterations it may take (auxiliary, no counterpart in the C code) -/
abbrev Comp (ρ : Type) := Nat → Option ρ

/-- it ends with this result (auxiliary, no counterpart in the C code) -/
def Returns {ρ : Type} (c : Comp ρ) (r : ρ) : Prop := ∃ fuel, ∀ more, fuel ≤ more → c more = some r

/-- it never ends (auxiliary, no counterpart in the C code) -/
def Forever {ρ : Type} (c : Comp ρ) : Prop := ∀ fuel, c fuel = none

/-- replay_protection.c:66-97 `server_is_sequence_number_valid`, loop 90-94 with a `uint8_t` counter -/
def validC (w : ReplayWindow) (n : Nat) : Comp Bool := fun fuel =>
  if n = 0 then some (!w.zeroReceived && wget w.window 0 == 0)
  else if n > wget w.window (w.window.length - 1) then some true
  else if n < wget w.window 0 then some false
  else cfor 8 w.window.length (fun i _ => if n = wget w.window i then .stop false else .next ()) (fun _ _ => true) fuel 0 ()

/-- replay_protection.c:44-64 `server_replay_window_reinit`, loop 52-58 with a `uint8_t` counter -/
def reinitC (w : ReplayWindow) (cur : Nat) : Comp ReplayWindow := fun fuel =>
  cfor 8 w.window.length
    (fun j (s : List Nat × Nat) =>
      .next (s.1.set (w.window.length - 1 - j) s.2, if s.2 > 0 then s.2 - 1 else s.2))
    (fun _ s => { window := s.1, zeroReceived := true }) fuel 0 (w.window, cur)

/-- replay_protection.c:99-124 `server_replay_window_update`, loop 115-121 with a `uint16_t` counter -/
def updateC (w : ReplayWindow) (n : Nat) : Comp (Bool × ReplayWindow) := fun fuel =>
  match validC w n fuel with
  | none => none
  | some false => some (false, w)
  | some true =>
    if n = 0 then some (true, { w with zeroReceived := true })
    else cfor 16 (w.window.length - 1)
      (fun i _ => if wget w.window i < n ∧ wget w.window (i + 1) > n then
        .stop (true, { w with window := windowInsert w.window n i }) else .next ())
      (fun i _ => (true, { w with window := windowInsert w.window n i })) fuel 0 ()

/-- oscore_interactions.c:106-116, 126-145, 154-168: the three searches have the same loop with a `uint32_t` counter; `p` is
the test in the body -/
def findC (t : Table) (p : Option Rec → Bool) : Comp Nat := fun fuel =>
  cfor 32 t.length (fun i _ => if p (t.getD i none) then .stop i else .next ()) (fun i _ => i) fuel 0 ()

/-- byte_array.c:47-58 `array_equals`, loop 52-56 with a `uint32_t` counter -/
def equalsC (l r : Bytes) : Comp Bool := fun fuel =>
  if l.length ≠ r.length then some false
  else cfor 32 l.length (fun i _ => if l.getD i 0 ≠ r.getD i 0 then .stop false else .next ()) (fun _ _ => true) fuel 0 ()

/-- ciphertext.c:42-44 `xor_arrays`: the loop, after the test of the lengths; `s` is the output array -/
def xorC (a b out : Bytes) : Comp Bytes := fun fuel =>
  cfor 32 a.length (fun i s => .next (s.set i (a.getD i 0 ^^^ b.getD i 0))) (fun _ s => s) fuel 0 out

open Verif.Edhoc

/-- cert.c:204-241 `ca_pk_get`, the search over the CA certificates with a `uint16_t` counter (MBEDTLS; simplifications as in
`caSearch`) -/
def caSearchC (C : ECrypto) (issuerMem : Bytes) (creds : List Cred) : Comp (R Bytes) := fun fuel =>
  cfor 16 creds.length
    (fun i _ =>
      match creds[i]? with
      | none => .stop .ub
      | some c =>
        if c.ca.length = 0 then .next ()
        else match C.x509 c.ca with
          | none => .stop (.err .unexpected_result_from_ext_lib)
          | some x => if issuerMem.take x.subject.length = x.subject then .stop (.ok c.caPk) else .next ())
    (fun _ _ => .err .no_such_ca) fuel 0 ()

/-- retrieve_cred.c:98-145 `get_local_cred`, loop 104-142 with a `uint32_t` counter -/
def getLocalCredC (staticDh : Bool) (idCred : Bytes) (credCap : Nat) (creds : List Cred) : Comp (R CredOut) := fun fuel =>
  cfor 32 creds.length
    (fun i _ =>
      match creds[i]? with
      | none => .stop .ub
      | some c =>
        if c.idCred.length = idCred.length ∧ c.idCred = idCred then
          .stop (do
            let cred ← memcpyS credCap c.cred
            let (pk, g) ← localKeys staticDh c
            pure (cred, pk, g))
        else .next ())
    (fun _ _ => .err .credential_not_found) fuel 0 ()

end Verif.Loops
