import Verif.Model.PsaStore
import Verif.Lemmas.MLemmas
import Verif.Props.Hkdf
/-
The key store under the functions of src/common/crypto_wrapper.c: a calculus for "at most this one key is
on top of what was there".
-/
namespace Verif.Psa
open Verif Verif.Edhoc

/-- identifiers of new keys are not in use and not PSA_KEY_ID_NULL -/
structure Env.Lawful (e : Env) : Prop where
  alloc_ne : ∀ l, e.alloc l ≠ 0
  alloc_fresh : ∀ l, e.alloc l ∉ l

/-- some `psa_destroy_key` failed between the two states -/
def DestroyFailed (e : Env) (s s' : St) : Prop := ∃ n, s.clock ≤ n ∧ n < s'.clock ∧ e.failDestroy n = true

theorem DestroyFailed.left {e : Env} {s s1 s2 : St} (h : DestroyFailed e s1 s2) (hc : s.clock ≤ s1.clock) :
    DestroyFailed e s s2 := by
  obtain ⟨n, h1, h2, h3⟩ := h; exact ⟨n, by omega, h2, h3⟩

theorem DestroyFailed.right {e : Env} {s s1 s2 : St} (h : DestroyFailed e s s1) (hc : s1.clock ≤ s2.clock) :
    DestroyFailed e s s2 := by
  obtain ⟨n, h1, h2, h3⟩ := h; exact ⟨n, h1, by omega, h3⟩

/-- key `k`, not in `K` -/
def Top (k : Slot) (K : List Slot) : Prop := k.id ≠ 0 ∧ k.id ∉ K.map (·.id)

/-- outcome of a computation with key `k` on top of `K`: the store after success is `Kok` -/
def Post (e : Env) (k : Slot) (K Kok : List Slot) (P : α → Prop) (s : St) (o : R α × St) : Prop :=
  s.clock ≤ o.2.clock ∧ (s.inited = true → o.2.inited = true) ∧
  match o.1 with
  | .ok a => o.2.slots = Kok ∧ P a
  | .err _ => o.2.slots = K ∨ (o.2.slots = k :: K ∧ DestroyFailed e s o.2)
  | .ub => False

/-- keeps the key -/
def Body (e : Env) (k : Slot) (P : α → Prop) (m : M St α) : Prop :=
  ∀ K, Top k K → ∀ s : St, s.slots = k :: K → Post e k K (k :: K) P s (m s)

/-- destroys the key -/
def Closes (e : Env) (k : Slot) (P : α → Prop) (m : M St α) : Prop :=
  ∀ K, Top k K → ∀ s : St, s.slots = k :: K → Post e k K K P s (m s)

theorem post_bind {e : Env} {k : Slot} {K Kok : List Slot} {P : α → Prop} {P' : β → Prop} {m : M St α}
    {f : α → M St β} {s : St} (hm : Post e k K (k :: K) P s (m s))
    (hf : ∀ a s1, P a → s1.slots = k :: K → Post e k K Kok P' s1 (f a s1)) :
    Post e k K Kok P' s ((m >>= f) s) := by
  rw [M.run_bind]
  rcases hr : m s with ⟨r, s1⟩
  rw [hr] at hm
  obtain ⟨hc, hi, hm⟩ := hm
  cases r with
  | err er => exact ⟨hc, hi, hm⟩
  | ub => exact hm.elim
  | ok a =>
    obtain ⟨h1, h2⟩ := hm
    have h3 := hf a s1 h2 h1
    simp only at hc hi ⊢
    rcases hr2 : f a s1 with ⟨r2, s2⟩
    rw [hr2] at h3
    obtain ⟨hc2, hi2, h3⟩ := h3
    simp only at hc2 hi2
    refine ⟨Nat.le_trans hc hc2, fun h => hi2 (hi h), ?_⟩
    cases r2 with
    | ok b => exact h3
    | ub => exact h3
    | err er =>
      rcases h3 with h3 | ⟨h3, h4⟩
      · exact Or.inl h3
      · exact Or.inr ⟨h3, h4.left hc⟩

theorem Body.bind {e : Env} {k : Slot} {P : α → Prop} {P' : β → Prop} {m : M St α} {f : α → M St β}
    (hm : Body e k P m) (hf : ∀ a, P a → Body e k P' (f a)) : Body e k P' (m >>= f) :=
  fun K hK s hs => post_bind (hm K hK s hs) fun a s1 ha h1 => hf a ha K hK s1 h1

theorem Body.closes {e : Env} {k : Slot} {P : α → Prop} {P' : β → Prop} {m : M St α} {f : α → M St β}
    (hm : Body e k P m) (hf : ∀ a, P a → Closes e k P' (f a)) : Closes e k P' (m >>= f) :=
  fun K hK s hs => post_bind (hm K hK s hs) fun a s1 ha h1 => hf a ha K hK s1 h1

theorem Body.pure {e : Env} {k : Slot} {P : α → Prop} {a : α} (h : P a) :
    Body e k P (Pure.pure a : M St α) :=
  fun _ _ _ hs => ⟨Nat.le_refl _, id, hs, h⟩

/-- a pure computation that does not fail -/
theorem Body.lift {e : Env} {k : Slot} {x : R α} {a : α} (h : x = .ok a) :
    Body e k (fun b => b = a) (M.lift x : M St α) := by
  intro K hK s hs
  rw [h]
  exact ⟨Nat.le_refl _, id, hs, rfl⟩

theorem find_top {k : Slot} {K : List Slot} {s : St} (hs : s.slots = k :: K) : find s k.id = some k := by
  unfold find
  rw [hs, List.find?_cons_of_pos (by simp)]

theorem filter_top {k : Slot} {K : List Slot} (hK : Top k K) :
    (k :: K).filter (fun x => !(x.id == k.id)) = K := by
  rw [List.filter_cons_of_neg (by simp), List.filter_eq_self]
  intro a ha
  simp only [Bool.not_eq_eq_eq_not, Bool.not_true, beq_eq_false_iff_ne, ne_eq]
  intro h
  exact hK.2 (h ▸ List.mem_map_of_mem ha)

/-- destroying the key on top -/
theorem destroy_top (e : Env) {k : Slot} {K : List Slot} (hK : Top k K) {s : St} (hs : s.slots = k :: K) :
    (psaDestroy e k.id s = (some (), { tick s with slots := K })) ∨
    (psaDestroy e k.id s = (none, tick s) ∧ e.failDestroy s.clock = true) := by
  unfold psaDestroy
  rw [find_top hs]
  cases h : e.failDestroy s.clock with
  | true => exact Or.inr ⟨rfl, rfl⟩
  | false =>
    refine Or.inl ?_
    simp only [Bool.false_or, Option.isNone_some, Bool.false_eq_true, if_false]
    rw [hs, filter_top hK]

/-- `TRY_EXPECT_PSA` around a call that leaves the key store alone -/
theorem Body.tryPsa {e : Env} {k : Slot} {er : Err} {x : Psa α} {P : α → Prop}
    (hx : ∀ s K, s.slots = k :: K → (x s).2.slots = s.slots ∧ s.clock ≤ (x s).2.clock ∧
      (s.inited = true → (x s).2.inited = true) ∧ ∀ a, (x s).1 = some a → P a) :
    Body e k P (tryPsa e k.id er x) := by
  intro K hK s hs
  obtain ⟨h1, h2, h3, h4⟩ := hx s K hs
  unfold Psa.tryPsa
  rcases hr : x s with ⟨r, s1⟩
  rw [hr] at h1 h2 h3 h4
  simp only at h1 h2 h3 h4
  cases r with
  | some a => exact ⟨h2, h3, by rw [h1, hs], h4 a rfl⟩
  | none =>
    simp only [ne_eq, hK.1, not_false_eq_true, if_true]
    have h1' : s1.slots = k :: K := by rw [h1, hs]
    rcases destroy_top e hK h1' with h | ⟨h, hf⟩
    · rw [h]
      exact ⟨by simp only [tick]; omega, h3, Or.inl rfl⟩
    · rw [h]
      refine ⟨by simp only [tick]; omega, h3, Or.inr ⟨h1', s1.clock, h2, by simp only [tick]; omega, hf⟩⟩

theorem Body.use {e : Env} {k : Slot} {er : Err} (f : Nat → Slot → Option α) :
    Body e k (fun a => ∃ rnd, f rnd k = some a) (Psa.tryPsa e k.id er (psaUse e k.id f)) := by
  refine Body.tryPsa fun s K hs => ⟨rfl, by simp only [psaUse, tick]; omega, id, ?_⟩
  intro a ha
  simp only [psaUse, find_top hs, Option.bind_some] at ha
  split at ha
  · cases ha
  · exact ⟨_, ha⟩

theorem Body.check {e : Env} {k : Slot} {er : Err} (b : Bool) :
    Body e k (fun _ => b = true) (Psa.tryPsa e k.id er (check b)) := by
  refine Body.tryPsa fun s K hs => ⟨rfl, Nat.le_refl _, id, ?_⟩
  intro a ha
  cases b with
  | true => rfl
  | false => exact absurd ha (by simp [Psa.check])

theorem Body.mono {e : Env} {k : Slot} {P Q : α → Prop} {m : M St α} (h : Body e k P m) (hPQ : ∀ a, P a → Q a) :
    Body e k Q m := by
  intro K hK s hs
  have := h K hK s hs
  unfold Post at this ⊢
  refine ⟨this.1, this.2.1, ?_⟩
  have h2 := this.2.2
  cases hr : (m s).1 with
  | ok a => rw [hr] at h2; exact ⟨h2.1, hPQ a h2.2⟩
  | err er => rw [hr] at h2; exact h2
  | ub => rw [hr] at h2; exact h2

/-- the last step: `TRY_EXPECT(psa_destroy_key(key_id), PSA_SUCCESS)` and return -/
theorem Closes.destroy {e : Env} {k : Slot} {P : β → Prop} {x : R β} (hu : x ≠ .ub) (hP : ∀ b, x = .ok b → P b) :
    Closes e k P (tryExpect (psaDestroy e k.id) >>= fun _ => (M.lift x : M St β)) := by
  intro K hK s hs
  rw [M.run_bind]
  unfold tryExpect
  rcases destroy_top e hK hs with h | ⟨h, hf⟩
  · rw [h]
    have hc : s.clock ≤ s.clock + 1 := Nat.le_succ _
    cases x with
    | ok b => exact ⟨hc, id, rfl, hP b rfl⟩
    | err er => exact ⟨hc, id, Or.inl rfl⟩
    | ub => exact absurd rfl hu
  · rw [h]
    exact ⟨by simp only [tick]; omega, id, Or.inr ⟨hs, s.clock, Nat.le_refl _, by simp only [tick]; omega, hf⟩⟩

theorem lift_ok_eq_pure (a : α) : (M.lift (.ok a) : M St α) = Pure.pure a := rfl

theorem Closes.destroy_pure {e : Env} {k : Slot} {P : β → Prop} {b : β} (hP : P b) :
    Closes e k P (tryExpect (psaDestroy e k.id) >>= fun _ => (Pure.pure b : M St β)) := by
  have := Closes.destroy (e := e) (k := k) (P := P) (x := .ok b) (by simp) (fun b' h => by cases h; exact hP)
  rwa [lift_ok_eq_pure] at this

/-- what a whole function does: after success the key store is what it was; after an error it is, or one
key more is in it and a `psa_destroy_key` failed; no undefined behaviour -/
def Clean (e : Env) (P : α → Prop) (s : St) (o : R α × St) : Prop :=
  s.clock ≤ o.2.clock ∧ (s.inited = true → o.2.inited = true) ∧
  match o.1 with
  | .ok a => o.2.slots = s.slots ∧ P a
  | .err _ => o.2.slots = s.slots ∨ ((∃ k, o.2.slots = k :: s.slots) ∧ DestroyFailed e s o.2)
  | .ub => False

theorem Clean.mono {e : Env} {P Q : α → Prop} {s : St} {o : R α × St} (h : Clean e P s o) (hPQ : ∀ a, P a → Q a) :
    Clean e Q s o := by
  unfold Clean at h ⊢
  refine ⟨h.1, h.2.1, ?_⟩
  have h2 := h.2.2
  cases hr : o.1 with
  | ok a => rw [hr] at h2; exact ⟨h2.1, hPQ a h2.2⟩
  | err er => rw [hr] at h2; exact h2
  | ub => rw [hr] at h2; exact h2

theorem Clean.bind {e : Env} {P : α → Prop} {P' : β → Prop} {m : M St α} {f : α → M St β} {s : St}
    (hm : Clean e P s (m s)) (hf : ∀ a s1, P a → s1.slots = s.slots → s.clock ≤ s1.clock → Clean e P' s1 (f a s1)) :
    Clean e P' s ((m >>= f) s) := by
  rw [M.run_bind]
  rcases hr : m s with ⟨r, s1⟩
  rw [hr] at hm
  obtain ⟨hc, hi, hm⟩ := hm
  cases r with
  | err er => exact ⟨hc, hi, hm⟩
  | ub => exact hm.elim
  | ok a =>
    obtain ⟨h1, h2⟩ := hm
    have h3 := hf a s1 h2 h1 hc
    simp only at hc hi h1 ⊢
    rcases hr2 : f a s1 with ⟨r2, s2⟩
    rw [hr2] at h3
    obtain ⟨hc2, hi2, h3⟩ := h3
    simp only at hc2 hi2
    refine ⟨Nat.le_trans hc hc2, fun h => hi2 (hi h), ?_⟩
    cases r2 with
    | ok b => exact ⟨h3.1.trans h1, h3.2⟩
    | ub => exact h3
    | err er =>
      rcases h3 with h3 | ⟨⟨k, h3⟩, h4⟩
      · exact Or.inl (h3.trans h1)
      · exact Or.inr ⟨⟨k, by rw [h3, h1]⟩, h4.left hc⟩

theorem Clean.lift {e : Env} {s : St} {x : R α} (hu : x ≠ .ub) : Clean e (fun a => x = .ok a) s ((M.lift x : M St α) s) := by
  cases x with
  | ok a => exact ⟨Nat.le_refl _, id, rfl, rfl⟩
  | err er => exact ⟨Nat.le_refl _, id, Or.inl rfl⟩
  | ub => exact absurd rfl hu

theorem Clean.pure {e : Env} {s : St} {P : α → Prop} {a : α} (h : P a) : Clean e P s ((Pure.pure a : M St α) s) :=
  ⟨Nat.le_refl _, id, rfl, h⟩

theorem Clean.fail {e : Env} {s : St} {P : α → Prop} (er : Err) : Clean e P s ((M.fail er : M St α) s) :=
  ⟨Nat.le_refl _, id, Or.inl rfl⟩

/-- `psa_crypto_init` -/
theorem Clean.init (e : Env) (s : St) : Clean e (fun _ => True) s (tryPsa e 0 ext (psaInit e) s) := by
  unfold tryPsa psaInit
  cases h : e.fail s.clock with
  | true => exact ⟨by simp [tick], id, Or.inl rfl⟩
  | false => exact ⟨by simp [tick], fun _ => rfl, rfl, trivial⟩

/-- creation of a key, and a computation that destroys it -/
theorem Clean.key {e : Env} (he : e.Lawful) {P : α → Prop} {x : Psa Nat} {f : Nat → M St α} (Q : Slot → Prop)
    {s : St} (hx : x s = (none, tick s) ∨ ∃ kd b, x s = addKey e s kd b ∧ ∀ id, Q ⟨id, kd, b⟩)
    (hf : ∀ k, Q k → Closes e k P (f k.id)) :
    Clean e P s ((tryPsa e 0 ext x >>= f) s) := by
  rw [M.run_bind]
  unfold tryPsa
  rcases hx with h | ⟨kd, b, h, hq⟩
  · rw [h]
    exact ⟨by simp [tick], id, Or.inl rfl⟩
  · rw [h]
    simp only [addKey]
    have h1 := hf ⟨e.alloc (s.slots.map (·.id)), kd, b⟩ (hq _) s.slots ⟨he.alloc_ne _, he.alloc_fresh _⟩
      { tick s with slots := ⟨e.alloc (s.slots.map (·.id)), kd, b⟩ :: s.slots } rfl
    unfold Post at h1
    obtain ⟨hc, hi, h1⟩ := h1
    refine ⟨Nat.le_trans (Nat.le_succ _) hc, hi, ?_⟩
    cases hr : (f (e.alloc (s.slots.map (·.id))) { tick s with slots := ⟨e.alloc (s.slots.map (·.id)), kd, b⟩ :: s.slots }).1 with
    | ok a => rw [hr] at h1; exact h1
    | ub => rw [hr] at h1; exact h1
    | err er =>
      rw [hr] at h1
      rcases h1 with h1 | ⟨h1, h2⟩
      · exact Or.inl h1
      · exact Or.inr ⟨⟨_, h1⟩, h2.left (by simp [tick])⟩

theorem import_cases (e : Env) (kd : Kind) (b : Bytes) (s : St) :
    psaImport e kd b s = (none, tick s) ∨ ∃ kd' b', psaImport e kd b s = addKey e s kd' b' ∧
      ∀ id, (fun k : Slot => k.kind = kd ∧ k.bytes = b ∧ e.lib.keyOk kd b = true) ⟨id, kd', b'⟩ := by
  unfold psaImport
  split
  · exact Or.inl rfl
  · rename_i h
    refine Or.inr ⟨kd, b, rfl, fun _ => ⟨rfl, rfl, ?_⟩⟩
    simp only [Bool.or_eq_true, Bool.not_eq_eq_eq_not, Bool.not_true, not_or, Bool.not_eq_false] at h
    exact h.2

theorem generate_cases (e : Env) (kd : Kind) (s : St) :
    psaGenerate e kd s = (none, tick s) ∨ ∃ kd' b', psaGenerate e kd s = addKey e s kd' b' ∧
      ∀ id, (fun k : Slot => k.kind = kd ∧ k.bytes = e.lib.generate s.clock) ⟨id, kd', b'⟩ := by
  unfold psaGenerate
  split
  · exact Or.inl rfl
  · exact Or.inr ⟨kd, _, rfl, fun _ => ⟨rfl, rfl⟩⟩

/-- creation of a key by `psa_import_key` -/
theorem Clean.imported {e : Env} (he : e.Lawful) {P : α → Prop} {kd : Kind} {b : Bytes} {f : Nat → M St α} {s : St}
    (hf : ∀ k : Slot, k.kind = kd → k.bytes = b → e.lib.keyOk kd b = true → Closes e k P (f k.id)) :
    Clean e P s ((Psa.tryPsa e 0 ext (psaImport e kd b) >>= f) s) :=
  Clean.key he (fun k : Slot => k.kind = kd ∧ k.bytes = b ∧ e.lib.keyOk kd b = true) (import_cases e kd b s)
    fun k hk => hf k hk.1 hk.2.1 hk.2.2

/-- creation of a key by `psa_generate_key` -/
theorem Clean.generated {e : Env} (he : e.Lawful) {P : α → Prop} {kd : Kind} {f : Nat → M St α} {s : St}
    (hf : ∀ k : Slot, k.kind = kd → k.bytes = e.lib.generate s.clock → Closes e k P (f k.id)) :
    Clean e P s ((Psa.tryPsa e 0 ext (psaGenerate e kd) >>= f) s) :=
  Clean.key he (fun k : Slot => k.kind = kd ∧ k.bytes = e.lib.generate s.clock) (generate_cases e kd s)
    fun k hk => hf k hk.1 hk.2

theorem fits_some {n : Nat} {x : Option Bytes} {b : Bytes} (h : fits n x = some b) : x = some b ∧ b.length ≤ n := by
  unfold fits at h
  cases x with
  | none => cases h
  | some c =>
    simp only [Option.bind_some] at h
    split at h
    · cases h; exact ⟨rfl, by assumption⟩
    · cases h

end Verif.Psa
