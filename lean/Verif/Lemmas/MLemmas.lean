import Verif.Model.Unprotect
import Verif.Lemmas.BytesLemmas
namespace Verif
namespace M
variable {σ α β γ : Type}

theorem bind_get (f : σ → M σ β) (s : σ) : ((M.get : M σ σ) >>= f) s = f s s := rfl
theorem bind_modify (g : σ → σ) (f : Unit → M σ β) (s : σ) : (M.modify g >>= f) s = f () (g s) := rfl
theorem bind_pure (a : α) (f : α → M σ β) (s : σ) : ((Pure.pure a : M σ α) >>= f) s = f a s := rfl
theorem bind_fail (e : Err) (f : α → M σ β) (s : σ) :
    ((M.fail e : M σ α) >>= f) s = (R.err e, s) := rfl
theorem bind_lift_ok (a : α) (f : α → M σ β) (s : σ) : ((M.lift (.ok a) : M σ α) >>= f) s = f a s := rfl
theorem bind_lift_err (e : Err) (f : α → M σ β) (s : σ) :
    ((M.lift (.err e) : M σ α) >>= f) s = (R.err e, s) := rfl
theorem bind_lift_ub (f : α → M σ β) (s : σ) :
    ((M.lift .ub : M σ α) >>= f) s = (R.ub, s) := rfl

theorem bind_assoc (m : M σ α) (f : α → M σ β) (g : β → M σ γ) (s : σ) :
    ((m >>= f) >>= g) s = (m >>= fun a => f a >>= g) s := by
  simp only [run_bind]
  rcases m s with ⟨r, s'⟩
  cases r <;> rfl

/-- outcome of a lifted computation followed by a continuation -/
theorem bind_lift_cases (x : R α) (f : α → M σ β) (s : σ) :
    (∃ a, x = .ok a ∧ ((M.lift x : M σ α) >>= f) s = f a s) ∨
    (((M.lift x : M σ α) >>= f) s).2 = s ∧ ∀ b, (((M.lift x : M σ α) >>= f) s).1 ≠ .ok b := by
  cases x with
  | ok a => exact Or.inl ⟨a, rfl, rfl⟩
  | err e => exact Or.inr ⟨rfl, by intro b; simp [run_bind]⟩
  | ub => exact Or.inr ⟨rfl, by intro b; simp [run_bind]⟩

/-- `m` only changes the state as the relation allows -/
def Rel (P : σ → σ → Prop) (m : M σ α) : Prop := ∀ s, P s (m s).2

theorem Rel.bind {P : σ → σ → Prop} (ht : ∀ a b c, P a b → P b c → P a c) {m : M σ α} {f : α → M σ β} (hm : Rel P m) (hf : ∀ a, Rel P (f a)) :
    Rel P (m >>= f) := by
  intro s
  have h := hm s
  rw [run_bind]
  rcases hms : m s with ⟨r, s'⟩
  rw [hms] at h
  cases r with
  | ok a => exact ht _ _ _ h (hf a s')
  | err e => exact h
  | ub => exact h

theorem Rel.lift {P : σ → σ → Prop} (hr : ∀ s, P s s) (x : R α) : Rel P (M.lift x : M σ α) :=
  fun s => hr s
theorem Rel.get {P : σ → σ → Prop} (hr : ∀ s, P s s) : Rel P (M.get : M σ σ) := fun s => hr s
theorem Rel.pure {P : σ → σ → Prop} (hr : ∀ s, P s s) (a : α) : Rel P (Pure.pure a : M σ α) :=
  fun s => hr s
theorem Rel.fail {P : σ → σ → Prop} (hr : ∀ s, P s s) (e : Err) : Rel P (M.fail e : M σ α) :=
  fun s => hr s
theorem Rel.modify {P : σ → σ → Prop} {g : σ → σ} (h : ∀ s, P s (g s)) : Rel P (M.modify g) :=
  fun s => h s
end M

end Verif
