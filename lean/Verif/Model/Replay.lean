import Verif.Model.Base
/-
src/oscore/replay_protection.c – server replay window and notification number.
-/
namespace Verif

/-- inc/oscore/replay_protection.h `struct server_replay_window_t`: `window` is the array of
`OSCORE_SERVER_REPLAY_WINDOW_SIZE` 64-bit numbers, lowest index first.  The size is the list
length, so the model covers every configured window size (that the C loops, which have counters of 8 and
16 bits, end is a separate question: `Model/Loops`, C83). Numbers are `Nat` (the code only
compares, copies and decrements positive values, so 64-bit wrap-around cannot occur). -/
structure ReplayWindow where
  window : List Nat
  zeroReceived : Bool
  deriving DecidableEq, Repr

/-- replay_protection.c:32-42 `server_replay_window_init` -/
def ReplayWindow.init (size : Nat) : ReplayWindow :=
  { window := List.replicate size 0, zeroReceived := false }

/-- replay_protection.c:52-58: the loop writes `current`, `current-1`, … (never below 0) from the
last index down to index 0. -/
def reinitList : Nat → Nat → List Nat
  | 0, _ => []
  | n + 1, cur => reinitList n (if cur > 0 then cur - 1 else cur) ++ [cur]

/-- replay_protection.c:44-64 `server_replay_window_reinit` -/
def ReplayWindow.reinit (w : ReplayWindow) (cur : Nat) : ReplayWindow :=
  { window := reinitList w.window.length cur, zeroReceived := true }

/-- `window[i]` of an array access that is always in bounds in the C code
(indices 0..WINDOW_SIZE-1). Src/oscore/replay_protection.c:18-124. -/
def wget (l : List Nat) (i : Nat) : Nat := l.getD i 0

/-- replay_protection.c:66-97 `server_is_sequence_number_valid` -/
def ReplayWindow.valid (w : ReplayWindow) (n : Nat) : Bool :=
  if n = 0 then
    !w.zeroReceived && wget w.window 0 == 0
  else if n > wget w.window (w.window.length - 1) then true
  else if n < wget w.window 0 then false
  else !w.window.any (fun x => n == x)

/-- replay_protection.c:114-121: first index `i < size-1` with `w[i] < n < w[i+1]`, otherwise
`size-1`. -/
def insertIndex (l : List Nat) (n : Nat) : Nat :=
  match l with
  | a :: b :: l' => if a < n ∧ b > n then 0 else insertIndex (b :: l') n + 1
  | _ => 0

/-- replay_protection.c:18-30 `server_replay_window_insert`: memmove of `position` entries one to
the left, then `window[position] = n`. -/
def windowInsert (l : List Nat) (n pos : Nat) : List Nat :=
  (l.drop 1).take pos ++ [n] ++ l.drop (pos + 1)

/-- replay_protection.c:99-124 `server_replay_window_update`; returns the flag and the window. -/
def ReplayWindow.update (w : ReplayWindow) (n : Nat) : Bool × ReplayWindow :=
  if w.valid n = false then (false, w)
  else if n = 0 then (true, { w with zeroReceived := true })
  else (true, { w with window := windowInsert w.window n (insertIndex w.window n) })

end Verif
