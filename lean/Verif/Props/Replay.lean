import Verif.Lemmas.ReplayLemmas
/-
Properties C01, C02, C03: the server replay window.
The window size is a parameter `W > 0` (the default build uses 32).
-/
namespace Verif
open Spec

/-- Window state after recording the numbers of a history one by one with
`server_replay_window_update` (which rejects invalid numbers itself). -/
def ReplayWindow.record (w : ReplayWindow) (h : List Nat) : ReplayWindow :=
  h.foldl (fun w n => (w.update n).2) w

theorem update_eq_false {w : ReplayWindow} {n : Nat} (h : w.valid n = false) :
    w.update n = (false, w) := by simp [ReplayWindow.update, h]

theorem update_fst {w : ReplayWindow} {n : Nat} : (w.update n).1 = w.valid n := by
  unfold ReplayWindow.update
  cases h : w.valid n
  · simp
  · by_cases h0 : n = 0 <;> simp [h0]

/-- The window after any history represents exactly the numbers accepted by the perfect-memory
receiver. -/
theorem record_inv {W : Nat} {w : ReplayWindow} {seen : List Nat} (h : WInv W w seen)
    (hist : List Nat) : WInv W (w.record hist) (remember W seen hist) := by
  induction hist generalizing w seen with
  | nil => exact h
  | cons n hist ih =>
    show WInv W ((w.update n).2.record hist) _
    unfold remember
    by_cases hv : w.valid n = true
    · rw [if_pos ((valid_iff h n).1 hv)]
      exact ih (h.update hv)
    · have hf : w.valid n = false := by simpa using hv
      rw [if_neg (fun hh => hv ((valid_iff h n).2 hh)), update_eq_false hf]
      exact ih h

theorem subset_remember {W : Nat} {seen hist : List Nat} {n : Nat} (h : n ∈ seen) :
    n ∈ remember W seen hist := by
  induction hist generalizing seen with
  | nil => exact h
  | cons m hist ih =>
    unfold remember; split
    · exact ih (List.mem_cons_of_mem _ h)
    · exact ih h

/-- **C02** For every window size, every history and every next number, the window accepts the
number exactly when a receiver with perfect memory would: it was never accepted before and fewer
than `W` accepted numbers are larger.  `server_replay_window_update` returns the same verdict. -/
theorem C02_window_exact (W : Nat) (hW : 0 < W) (hist : List Nat) (n : Nat) :
    (((ReplayWindow.init W).record hist).valid n = true ↔
      accepts W (remember W [] hist) n) ∧
    (((ReplayWindow.init W).record hist).update n).1 =
      ((ReplayWindow.init W).record hist).valid n :=
  ⟨valid_iff (record_inv (WInv.init hW) hist) n, update_fst⟩

/-- **C01** Once a number was accepted (the update returned true), it is rejected after every
further history. -/
theorem C01_never_twice (W : Nat) (hW : 0 < W) (hist : List Nat) (n : Nat)
    (hacc : (((ReplayWindow.init W).record hist).update n).1 = true) (later : List Nat) :
    ((((ReplayWindow.init W).record hist).update n).2.record later).valid n = false := by
  have hinv := record_inv (WInv.init hW) hist
  rw [update_fst] at hacc
  have h2 := record_inv (hinv.update hacc) later
  cases hv : ((((ReplayWindow.init W).record hist).update n).2.record later).valid n
  · rfl
  · have := ((valid_iff h2 n).1 hv).1
    exact absurd (subset_remember (by simp)) this

/-- **C03** After `server_replay_window_reinit` at `cur` (whatever the window contained) the window
behaves, for every later history, like a perfect-memory receiver that has already accepted all
numbers `0..cur`. -/
theorem C03_reinit_exact (w : ReplayWindow) (hW : 0 < w.window.length) (cur : Nat)
    (hist : List Nat) (n : Nat) :
    ((w.reinit cur).record hist).valid n = true ↔
      accepts w.window.length (remember w.window.length (List.range (cur + 1)) hist) n :=
  valid_iff (record_inv (WInv.reinit hW rfl cur) hist) n

/-- **C03** (consequence) numbers up to the synchronisation point are rejected for ever. -/
theorem C03_old_rejected (w : ReplayWindow) (hW : 0 < w.window.length) (cur n : Nat) (hn : n ≤ cur)
    (hist : List Nat) : ((w.reinit cur).record hist).valid n = false := by
  cases hv : ((w.reinit cur).record hist).valid n
  · rfl
  · have := ((C03_reinit_exact w hW cur hist n).1 hv).1
    exact absurd (subset_remember (by simp; omega)) this

/-- **C03** (consequence) right after the synchronisation every larger number is fresh. -/
theorem C03_new_accepted (w : ReplayWindow) (hW : 0 < w.window.length) (cur n : Nat) (hn : cur < n) :
    (w.reinit cur).valid n = true := by
  have := (C03_reinit_exact w hW cur [] n).2 (by
    unfold remember accepts
    refine ⟨by simp; omega, ?_⟩
    have : (List.range (cur + 1)).filter (fun s => decide (n < s)) = [] := by
      rw [List.filter_eq_nil_iff]; intro a ha; simp at *; omega
    rw [this]; simpa using hW)
  exact this

/-- A number that is rejected stays rejected whatever is recorded later (well-formed windows). -/
theorem rejected_stays_rejected {W : Nat} {w : ReplayWindow} {seen : List Nat} (h : WInv W w seen)
    {n : Nat} (hn : n ∈ seen) (later : List Nat) : (w.record later).valid n = false := by
  cases hv : (w.record later).valid n
  · rfl
  · have := ((valid_iff (record_inv h later) n).1 hv).1
    exact absurd (subset_remember hn) this

/-! Non-vacuity: concrete windows of the default size. -/
example : (((ReplayWindow.init 32).record [5, 3, 40, 0]).update 7).1 = true := by decide +kernel
example : (((ReplayWindow.init 32).record [5, 3, 40, 0]).valid 5) = false := by decide +kernel
example : ((ReplayWindow.init 32).record (List.range 40)).valid 3 = false := by decide +kernel
example : (((ReplayWindow.init 32).reinit 300).valid 300, ((ReplayWindow.init 32).reinit 300).valid 301)
    = (false, true) := by decide +kernel

end Verif
