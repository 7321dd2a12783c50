import Verif.Spec.ThreadSpec
import Verif.Lemmas.PsaLemmas
/-
Programs of the crypto wrapper under interference: at any moment a program owns at most one key.
-/
namespace Verif.Psa
open Verif Verif.Edhoc

@[simp] theorem Prog.bind_call (x : Psa γ) (k : Option γ → Prog α) (f : α → Prog β) :
    (Prog.call x k >>= f) = Prog.call x fun r => k r >>= f := rfl
@[simp] theorem Prog.bind_ok (a : α) (f : α → Prog β) : (Prog.done (.ok a) >>= f) = f a := rfl
@[simp] theorem Prog.bind_err (er : Err) (f : α → Prog β) : (Prog.done (.err er) >>= f) = Prog.done (.err er) := rfl
@[simp] theorem Prog.bind_ub (f : α → Prog β) : (Prog.done .ub >>= f) = Prog.done .ub := rfl

/-- one call of the library changes what the program owns -/
def Moves (s s' : St) (own own' : Option Slot) : Prop :=
  (own' = own ∧ s'.slots = s.slots) ∨
  (own = none ∧ ∃ k, own' = some k ∧ s'.slots = k :: s.slots ∧ k.id ∉ s.slots.map (·.id)) ∨
  (∃ k, own = some k ∧ own' = none ∧ s'.slots = s.slots.filter (fun x => !(x.id == k.id)))

/-- the keys in the store have different identifiers -/
def Unique (s : St) : Prop := (s.slots.map (·.id)).Nodup

/-- `I` holds of the library whenever the program goes on; it may return an error if `E` -/
def Safe (e : Env) (I : St → Prop) (E : Prop) (Q : α → Option Slot → Prop) : Option Slot → Prog α → Prop
  | own, .done r => match r with
    | .ok a => Q a own
    | .err _ => E ∧ (own.isSome = true → ∃ n, e.failDestroy n = true)
    | .ub => False
  | own, .call x k => ∀ s, I s → Unique s → (∀ k ∈ own, k ∈ s.slots) →
      ∃ own', Moves s (x s).2 own own' ∧ Safe e I E Q own' (k (x s).1)

/-- something other than the arguments made a call of the library fail -/
def Noisy (e : Env) (I : St → Prop) : Prop :=
  (∃ n, e.fail n = true) ∨ (∃ n, e.failDestroy n = true) ∨ ∃ s, I s ∧ (s.inited = false ∨ e.cap ≤ s.slots.length)

theorem Safe.mono {e : Env} {I : St → Prop} {E E' : Prop} {Q Q' : α → Option Slot → Prop} (hE : E → E')
    (hQ : ∀ a o, Q a o → Q' a o) : ∀ {own : Option Slot} {p : Prog α}, Safe e I E Q own p → Safe e I E' Q' own p
  | own, .done r, h => by
    cases r with
    | ok a => exact hQ _ _ h
    | err er => exact ⟨hE h.1, h.2⟩
    | ub => exact h
  | own, .call x k, h => fun s h1 h2 h3 => by
    obtain ⟨own', hm, hs⟩ := h s h1 h2 h3
    exact ⟨own', hm, hs.mono hE hQ⟩

theorem Safe.bind {e : Env} {I : St → Prop} {E : Prop} {Q : α → Option Slot → Prop} {Q' : β → Option Slot → Prop}
    {f : α → Prog β} (hf : ∀ a o, Q a o → Safe e I E Q' o (f a)) :
    ∀ {own : Option Slot} {p : Prog α}, Safe e I E Q own p → Safe e I E Q' own (p >>= f)
  | own, .done r, h => by
    cases r with
    | ok a => exact hf _ _ h
    | err er => exact h
    | ub => exact h
  | own, .call x k, h => fun s h1 h2 h3 => by
    obtain ⟨own', hm, hs⟩ := h s h1 h2 h3
    exact ⟨own', hm, hs.bind hf⟩

theorem find_mem {s : St} {k : Slot} (hu : Unique s) (hk : k ∈ s.slots) : find s k.id = some k := by
  unfold find
  unfold Unique at hu
  generalize s.slots = l at hu hk
  induction l with
  | nil => cases hk
  | cons x l ih =>
    rw [List.map_cons, List.nodup_cons] at hu
    rcases List.mem_cons.1 hk with rfl | hk
    · simp
    · have : x.id ≠ k.id := fun h => hu.1 (h ▸ List.mem_map.2 ⟨k, hk, rfl⟩)
      rw [List.find?_cons_of_neg (by simpa using this)]
      exact ih hu.2 hk

section calls
variable {e : Env} {I : St → Prop} {E : Prop}

theorem Safe.init (hE : Noisy e I → E) :
    Safe e I E (fun _ o => o = none) none (tryPsaP e 0 ext (psaInit e)) := by
  intro s hI hu ho
  unfold psaInit
  by_cases hf : e.fail s.clock = true
  · rw [if_pos hf]
    exact ⟨none, Or.inl ⟨rfl, rfl⟩, hE (Or.inl ⟨_, hf⟩), by simp⟩
  · rw [if_neg hf]
    exact ⟨none, Or.inl ⟨rfl, rfl⟩, rfl⟩

theorem full_noisy {s : St} (hI : I s) (h : full e s = true) : Noisy e I := by
  simp only [full, Bool.or_eq_true, Bool.not_eq_true', decide_eq_true_eq] at h
  rcases h with (h | h) | h
  · exact Or.inl ⟨_, h⟩
  · exact Or.inr (Or.inr ⟨s, hI, Or.inl h⟩)
  · exact Or.inr (Or.inr ⟨s, hI, Or.inr h⟩)

/-- the new key -/
def New (kd : Kind) (P : Bytes → Prop) (id : Nat) (o : Option Slot) : Prop :=
  ∃ k, o = some k ∧ k.id = id ∧ k.id ≠ 0 ∧ k.kind = kd ∧ P k.bytes

theorem Safe.import (he : e.Lawful) (hE : Noisy e I → E) {kd : Kind} {b : Bytes} (hb : e.lib.keyOk kd b = false → E) :
    Safe e I E (New kd (· = b)) none (tryPsaP e 0 ext (psaImport e kd b)) := by
  intro s hI hu ho
  unfold psaImport
  split
  · rename_i h
    refine ⟨none, Or.inl ⟨rfl, rfl⟩, ?_, by simp⟩
    rw [Bool.or_eq_true] at h
    rcases h with h | h
    · exact hE (full_noisy hI h)
    · exact hb (by simpa using h)
  · refine ⟨some ⟨e.alloc (s.slots.map (·.id)), kd, b⟩, Or.inr (Or.inl ⟨rfl, _, rfl, rfl, he.alloc_fresh _⟩), ?_⟩
    exact ⟨_, rfl, rfl, he.alloc_ne _, rfl, rfl⟩

theorem Safe.generate (he : e.Lawful) (hE : Noisy e I → E) {kd : Kind} :
    Safe e I E (New kd (fun b => ∃ n, b = e.lib.generate n)) none (tryPsaP e 0 ext (psaGenerate e kd)) := by
  intro s hI hu ho
  unfold psaGenerate
  split
  · rename_i h
    exact ⟨none, Or.inl ⟨rfl, rfl⟩, hE (full_noisy hI h), by simp⟩
  · refine ⟨some ⟨e.alloc (s.slots.map (·.id)), kd, e.lib.generate s.clock⟩,
      Or.inr (Or.inl ⟨rfl, _, rfl, rfl, he.alloc_fresh _⟩), ?_⟩
    exact ⟨_, rfl, rfl, he.alloc_ne _, rfl, _, rfl⟩

/-- `psa_destroy_key` on the program's own key -/
theorem destroy_own {k : Slot} {s : St} (hu : Unique s) (hk : k ∈ s.slots) :
    ((psaDestroy e k.id s).1 = none ∧ (psaDestroy e k.id s).2.slots = s.slots ∧ ∃ n, e.failDestroy n = true) ∨
    ((psaDestroy e k.id s).1 = some () ∧ Moves s (psaDestroy e k.id s).2 (some k) none) := by
  unfold psaDestroy
  rw [find_mem hu hk]
  by_cases hf : e.failDestroy s.clock = true
  · left
    rw [if_pos (by simp [hf])]
    exact ⟨rfl, rfl, _, hf⟩
  · right
    rw [if_neg (by simp [hf])]
    exact ⟨rfl, Or.inr (Or.inr ⟨k, rfl, rfl, rfl⟩)⟩

/-- the error exit of `TRY_EXPECT_PSA` -/
theorem Safe.bail {Q : α → Option Slot → Prop} (hE : E) {k : Slot} {er : Err} :
    Safe e I E Q (some k) (if k.id ≠ 0 then .call (psaDestroy e k.id) fun _ => .done (.err er) else .done (.err er)) ∨ k.id = 0 := by
  by_cases h0 : k.id = 0
  · exact Or.inr h0
  · left
    rw [if_pos h0]
    intro s hI hu ho
    rcases destroy_own (e := e) hu (ho k rfl) with ⟨_, h2, h3⟩ | ⟨_, h2⟩
    · exact ⟨some k, Or.inl ⟨rfl, h2⟩, hE, fun _ => h3⟩
    · exact ⟨none, h2, hE, by simp⟩

theorem Safe.use (hE : Noisy e I → E) {k : Slot} (h0 : k.id ≠ 0) {er : Err} {f : Nat → Slot → Option α}
    (hf : ∀ rnd, f rnd k = none → E) :
    Safe e I E (fun a o => o = some k ∧ ∃ rnd, f rnd k = some a) (some k) (tryPsaP e k.id er (psaUse e k.id f)) := by
  intro s hI hu ho
  refine ⟨some k, Or.inl ⟨rfl, rfl⟩, ?_⟩
  unfold psaUse
  rw [find_mem hu (ho k rfl)]
  by_cases h : (e.fail s.clock || !s.inited) = true
  · rw [if_pos h]
    refine (Safe.bail ?_).resolve_right h0
    simp only [Bool.or_eq_true, Bool.not_eq_true'] at h
    rcases h with h | h
    · exact hE (Or.inl ⟨_, h⟩)
    · exact hE (Or.inr (Or.inr ⟨s, hI, Or.inl h⟩))
  · rw [if_neg h]
    simp only [Option.bind_some]
    cases hr : f s.clock k with
    | none => exact (Safe.bail (hf _ hr)).resolve_right h0
    | some a => exact ⟨rfl, _, hr⟩

theorem Safe.check {k : Slot} (h0 : k.id ≠ 0) {er : Err} {b : Bool} (hb : b = false → E) :
    Safe e I E (fun _ o => o = some k ∧ b = true) (some k) (checkP e k.id er b) := by
  unfold checkP
  cases b with
  | true => exact ⟨rfl, rfl⟩
  | false => exact (Safe.bail (hb rfl)).resolve_right h0

theorem Safe.destroy (hE : Noisy e I → E) {k : Slot} :
    Safe e I E (fun _ o => o = none) (some k) (tryExpectP (psaDestroy e k.id)) := by
  intro s hI hu ho
  rcases destroy_own (e := e) hu (ho k rfl) with ⟨h1, h2, h3⟩ | ⟨h1, h2⟩
  · refine ⟨some k, Or.inl ⟨rfl, h2⟩, ?_⟩
    rw [h1]
    exact ⟨hE (Or.inr (Or.inl h3)), fun _ => h3⟩
  · refine ⟨none, h2, ?_⟩
    rw [h1]
    exact rfl

/-- destroy the key and return `a` -/
theorem Safe.close (hE : Noisy e I → E) {k : Slot} {Q : α → Option Slot → Prop} {a : α} (h : Q a none) :
    Safe e I E Q (some k) (tryExpectP (psaDestroy e k.id) >>= fun _ => Pure.pure a) :=
  (Safe.destroy hE).bind fun _ o ho => by subst ho; exact h
end calls

/-! The number of library calls of a program. -/

/-- at most `n` calls of the library -/
def Prog.Ends : Nat → Prog α → Prop
  | _, .done _ => True
  | 0, .call _ _ => False
  | n + 1, .call _ k => ∀ r, (k r).Ends n

theorem Prog.Ends.mono : ∀ {n m : Nat} {p : Prog α}, p.Ends n → n ≤ m → p.Ends m
  | _, _, .done _, _, _ => by simp [Prog.Ends]
  | 0, _, .call _ _, h, _ => h.elim
  | n + 1, 0, .call _ _, _, hm => by omega
  | n + 1, m + 1, .call x k, h, hm => fun r => (h r).mono (by omega)

theorem Prog.Ends.bind {m : Nat} {f : α → Prog β} (hf : ∀ a, (f a).Ends m) :
    ∀ {n : Nat} {p : Prog α}, p.Ends n → (p >>= f).Ends (n + m)
  | n, .done (.ok a), _ => (hf a).mono (by omega)
  | n, .done (.err er), _ => by simp [Prog.Ends]
  | n, .done .ub, _ => by simp [Prog.Ends]
  | 0, .call _ _, h => h.elim
  | n + 1, .call x k, h => by
    rw [Prog.bind_call]
    have : n + 1 + m = (n + m) + 1 := by omega
    rw [this]
    exact fun r => Prog.Ends.bind hf (h r)

theorem ends_tryPsa (e : Env) (kid : Nat) (er : Err) (x : Psa α) : (tryPsaP e kid er x).Ends 2 := by
  intro r
  cases r with
  | some a => simp [Prog.Ends]
  | none =>
    dsimp only
    split
    · intro _; simp [Prog.Ends]
    · simp [Prog.Ends]

theorem ends_tryExpect (x : Psa α) : (tryExpectP x).Ends 1 := by
  intro r
  cases r <;> simp [Prog.Ends]

theorem ends_check (e : Env) (kid : Nat) (er : Err) (b : Bool) : (checkP e kid er b).Ends 1 := by
  unfold checkP
  split
  · simp [Prog.Ends]
  · split
    · intro _; simp [Prog.Ends]
    · simp [Prog.Ends]

theorem ends_done (r : R α) (n : Nat) : (Prog.done r).Ends n := by simp [Prog.Ends]
theorem ends_pure (a : α) (n : Nat) : (Pure.pure a : Prog α).Ends n := ends_done (.ok a) n

/-! A program run without interruption. -/

theorem alone_bind (f : α → Prog β) : ∀ p : Prog α, (p >>= f).alone = (p.alone >>= fun a => (f a).alone)
  | .done (.ok a) => rfl
  | .done (.err er) => rfl
  | .done .ub => rfl
  | .call x k => by
    rw [Prog.bind_call]
    funext s
    simp only [Prog.alone]
    rw [alone_bind f]
    rfl

theorem alone_tryPsa (e : Env) (kid : Nat) (er : Err) (x : Psa α) : (tryPsaP e kid er x).alone = tryPsa e kid er x := by
  funext s
  simp only [tryPsaP, Prog.alone, tryPsa]
  rcases x s with ⟨_ | a, s'⟩
  · dsimp only
    split <;> rfl
  · rfl

theorem alone_tryExpect (x : Psa α) : (tryExpectP x).alone = tryExpect x := by
  funext s
  simp only [tryExpectP, Prog.alone, tryExpect]
  rcases x s with ⟨_ | a, s'⟩ <;> rfl

theorem alone_check (e : Env) (kid : Nat) (er : Err) (b : Bool) : (checkP e kid er b).alone = tryPsa e kid er (check b) := by
  funext s
  cases b
  · simp only [checkP, tryPsa, check]
    by_cases h : kid = 0 <;> simp [h, Prog.alone]
  · rfl

theorem alone_done (r : R α) : (Prog.done r).alone = (M.lift r : M St α) := rfl
theorem alone_pure (a : α) : (Pure.pure a : Prog α).alone = (Pure.pure a : M St α) := rfl

end Verif.Psa
