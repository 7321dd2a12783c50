/-
Independent specification of anti-replay: what a receiver that remembers *every* accepted number
would do with a window of `W` numbers.
-/
namespace Verif.Spec

/-- A number is acceptable iff it was never accepted before and fewer than `W` accepted numbers are
larger than it. -/
def accepts (W : Nat) (seen : List Nat) (n : Nat) : Prop :=
  n ∉ seen ∧ (seen.filter (fun s => n < s)).length < W

instance (W seen n) : Decidable (accepts W seen n) := by unfold accepts; infer_instance

/-- The perfect-memory receiver: the list of accepted numbers after a history (newest first). -/
def remember (W : Nat) (seen : List Nat) : List Nat → List Nat
  | [] => seen
  | n :: h => if accepts W seen n then remember W (n :: seen) h else remember W seen h

end Verif.Spec
