import Verif.Model.PivNonce
/-
security_context.c:184-211 `ssn2piv`, statement by statement, with its `static uint8_t tmp_piv[5]`
(line 191).  That array is the only mutable object of static storage duration in src/ (EMPTY_ARRAY and
NULL_ARRAY, src/common/byte_array.c:16-25, are never written), so it is all that calls for different
security contexts share.
-/
namespace Verif

/-- A thread inside `ssn2piv`, after the check of lines 186-189: in the loop of lines 193-197 (`ssn`,
`len`), in the loop of lines 205-207 (`len`, the bytes of `piv` written so far), or returned (the PIV).
Src/oscore/security_context.c:184-211. -/
inductive PivThread where
  | fill (ssn len : Nat)
  | copy (len : Nat) (out : Bytes)
  | done (out : Bytes)
  deriving DecidableEq, Repr

/-- One iteration of a loop, or leaving it.  `tmp` is the static array. Src/oscore/security_context.c:190-208. -/
def PivThread.step : PivThread → Bytes → PivThread × Bytes
  | .fill ssn len, tmp =>
    if ssn > 0 then (.fill (ssn / 256) (len + 1), tmp.set len (byte (ssn % 256)))
    else if len = 0 then (.done [0], tmp)
    else (.copy len [], tmp)
  | .copy len out, tmp =>
    if out.length < len then (.copy len (out ++ [tmp.getD (len - 1 - out.length) 0]), tmp)
    else (.done out, tmp)
  | .done out, tmp => (.done out, tmp)

/-- all threads and the static array (src/oscore/security_context.c:184-211) -/
structure PivSys where
  threads : List PivThread
  tmp : Bytes
  deriving DecidableEq, Repr

/-- thread `i` makes a step (auxiliary, no counterpart in the C code) -/
def PivSys.step (s : PivSys) (i : Nat) : PivSys :=
  match s.threads[i]? with
  | none => s
  | some t => ⟨s.threads.set i (t.step s.tmp).1, (t.step s.tmp).2⟩

/-- a schedule: which thread makes the next step (auxiliary, no counterpart in the C code) -/
def PivSys.run (s : PivSys) (sched : List Nat) : PivSys := sched.foldl PivSys.step s

end Verif
