import Verif.Lemmas.PivNonceLemmas
/-
Properties C14 (PIV encoding) and C10 (nonce construction).
-/
namespace Verif
namespace Spec
/-- Shortest big-endian encoding of `n` (one byte for 0). -/
def IsMinimalBE (p : Bytes) (n : Nat) : Prop :=
  beVal p = n ∧ p ≠ [] ∧ (1 < p.length → p.head? ≠ some 0)
end Spec
open Spec

/-- minimal encodings are really the shortest non-empty ones -/
theorem Spec.IsMinimalBE.shortest {p : Bytes} {n : Nat} (h : IsMinimalBE p n) {q : Bytes} (hq : q ≠ [])
    (hv : beVal q = n) : p.length ≤ q.length := by
  obtain ⟨hp, hne, hm⟩ := h
  cases p with
  | nil => exact absurd rfl hne
  | cons a p =>
    cases p with
    | nil => cases q <;> simp at *
    | cons b p =>
      have ha : a ≠ 0 := by
        intro hh; exact hm (by simp) (by simp [hh])
      apply Decidable.byContradiction
      intro hlt
      have h1 := beVal_lt q
      have h2 : q.length ≤ (b :: p).length := by simp at *; omega
      have h3 : 256 ^ q.length ≤ 256 ^ (b :: p).length := Nat.pow_le_pow_right (by omega) h2
      have h4 : 0 < a.toNat := by
        apply Nat.pos_of_ne_zero
        intro hh; exact ha (uint8_ext (by simpa using hh))
      have h5 : 1 * 256 ^ (b :: p).length ≤ a.toNat * 256 ^ (b :: p).length :=
        Nat.mul_le_mul_right _ h4
      have h6 : beVal (a :: b :: p) = a.toNat * 256 ^ (b :: p).length + beVal (b :: p) := rfl
      omega

/-- minimal encodings are unique -/
theorem Spec.IsMinimalBE.unique {p q : Bytes} {n : Nat} (hp : IsMinimalBE p n) (hq : IsMinimalBE q n) :
    p = q := by
  have h1 := hp.shortest hq.2.1 hq.1
  have h2 := hq.shortest hp.2.1 hp.1
  exact beVal_inj (by omega) (by rw [hp.1, hq.1])

/-- **C14** Every number up to `2^40 - 1` is encoded as its shortest big-endian string, of 1 to 5
bytes, and decoding gives the number back. -/
theorem C14_ssn2piv (n : Nat) (h : n ≤ 2 ^ 40 - 1) :
    ∃ p, ssn2piv n = .ok p ∧ 1 ≤ p.length ∧ p.length ≤ 5 ∧ IsMinimalBE p n ∧ piv2ssn p = .ok n := by
  unfold ssn2piv
  rw [if_neg (by unfold maxPivValue; omega)]
  have hlt : n < 256 ^ 5 := by
    have : (256 : Nat) ^ 5 = 2 ^ 40 := by decide
    omega
  by_cases h0 : n = 0
  · subst h0
    exact ⟨[0], by simp [pivDigitsLE], by simp, by simp, by simp [IsMinimalBE, beVal],
      by simp [piv2ssn, beVal]⟩
  · obtain ⟨d, l, he, hd⟩ := pivDigitsLE_last 5 n hlt (by omega)
    have hl := pivDigitsLE_len 5 n
    have hv := pivDigitsLE_val 5 n hlt
    refine ⟨(pivDigitsLE 5 n).reverse, ?_, ?_, ?_, ⟨hv, ?_, ?_⟩, ?_⟩
    · simp [he]
    · simp [he]
    · simpa using hl
    · simp [he]
    · intro _; simp [he, hd]
    · simp [piv2ssn, hl, hv]

/-- **C14** Larger numbers and longer strings are rejected. -/
theorem C14_rejects (n : Nat) (p : Bytes) :
    (2 ^ 40 ≤ n → ssn2piv n = .err .wrong_parameter) ∧
    (5 < p.length → piv2ssn p = .err .wrong_parameter) := by
  constructor
  · intro h; unfold ssn2piv maxPivValue; rw [if_pos (by omega)]
  · intro h; unfold piv2ssn; rw [if_pos (by omega)]

/-- **C14** Distinct numbers have distinct encodings, and a minimal string is re-encoded to itself. -/
theorem C14_injective {n m : Nat} {p : Bytes} (hn : ssn2piv n = .ok p) (hm : ssn2piv m = .ok p) :
    n = m := by
  have bound : ∀ k q, ssn2piv k = .ok q → k ≤ 2 ^ 40 - 1 := by
    intro k q hk
    unfold ssn2piv maxPivValue at hk
    split at hk
    · simp at hk
    · omega
  obtain ⟨p1, h1, _, _, _, h1'⟩ := C14_ssn2piv n (bound n p hn)
  obtain ⟨p2, h2, _, _, _, h2'⟩ := C14_ssn2piv m (bound m p hm)
  rw [hn] at h1; rw [hm] at h2
  obtain rfl := R.ok.inj h1
  obtain rfl := R.ok.inj h2
  rw [h1'] at h2'
  exact R.ok.inj h2'

theorem ssn2piv_minimal {n : Nat} {p : Bytes} (h : ssn2piv n = .ok p) :
    IsMinimalBE p n ∧ 1 ≤ p.length ∧ p.length ≤ 5 := by
  have hb : n ≤ 2 ^ 40 - 1 := by
    unfold ssn2piv maxPivValue at h
    split at h
    · simp at h
    · omega
  obtain ⟨p1, h1, h2, h3, h4, _⟩ := C14_ssn2piv n hb
  rw [h] at h1
  obtain rfl := R.ok.inj h1
  exact ⟨h4, h2, h3⟩

example : ssn2piv 0 = .ok [0] ∧ ssn2piv 255 = .ok [255] ∧ ssn2piv 256 = .ok [1, 0] ∧
    ssn2piv (2 ^ 40 - 1) = .ok [255, 255, 255, 255, 255] ∧
    ssn2piv (2 ^ 40) = .err .wrong_parameter := by decide +kernel

/-- **C10** For one Common IV, equal nonces mean equal IDs and equal PIV values. -/
theorem C10_nonce_injective (iv id₁ id₂ piv₁ piv₂ n : Bytes)
    (h₁ : createNonce id₁ piv₁ iv = .ok n) (h₂ : createNonce id₂ piv₂ iv = .ok n) :
    id₁ = id₂ ∧ beVal piv₁ = beVal piv₂ := by
  obtain ⟨a1, b1, _, e1⟩ := createNonce_ok.1 h₁
  obtain ⟨a2, b2, _, e2⟩ := createNonce_ok.1 h₂
  rw [e1] at e2
  have h := xorWith_inj (by simp; omega) e2
  simp only [List.cons.injEq] at h
  obtain ⟨hlen, hrest⟩ := h
  have hl : id₁.length = id₂.length := byte_inj (by omega) (by omega) hlen
  have hsplit := List.append_inj hrest (by simp; omega)
  have hid := (List.append_inj hsplit.1 (by simp; omega)).2
  refine ⟨hid, ?_⟩
  have := congrArg beVal hsplit.2
  rwa [beVal_replicate_zero, beVal_replicate_zero] at this

/-- **C10** For PIVs as produced by `ssn2piv` (minimal encodings) the PIVs themselves are equal. -/
theorem C10_nonce_injective_minimal (iv id₁ id₂ piv₁ piv₂ n : Bytes) (s₁ s₂ : Nat)
    (hp₁ : ssn2piv s₁ = .ok piv₁) (hp₂ : ssn2piv s₂ = .ok piv₂)
    (h₁ : createNonce id₁ piv₁ iv = .ok n) (h₂ : createNonce id₂ piv₂ iv = .ok n) :
    id₁ = id₂ ∧ s₁ = s₂ ∧ piv₁ = piv₂ := by
  obtain ⟨hid, hv⟩ := C10_nonce_injective iv id₁ id₂ piv₁ piv₂ n h₁ h₂
  have m1 := (ssn2piv_minimal hp₁).1
  have m2 := (ssn2piv_minimal hp₂).1
  have hs : s₁ = s₂ := by rw [← m1.1, ← m2.1, hv]
  subst hs
  exact ⟨hid, rfl, m1.unique m2⟩

/-- **C10** The nonce is produced for all IDs up to 7 bytes and PIVs up to 5 bytes and has 13 bytes. -/
theorem C10_nonce_defined (iv id piv : Bytes) (hid : id.length ≤ 7) (hp : piv.length ≤ 5)
    (hiv : iv.length = 13) : ∃ n, createNonce id piv iv = .ok n ∧ n.length = 13 := by
  obtain ⟨n, hn⟩ : ∃ n, createNonce id piv iv = .ok n := ⟨_, createNonce_ok.2 ⟨hid, hp, by omega, rfl⟩⟩
  exact ⟨n, hn, createNonce_length hn⟩

/-- **C10** (boundary) any longer ID or PIV writes before the stack arrays of `create_nonce`. -/
theorem C10_nonce_oob (iv id piv : Bytes) (h : 7 < id.length ∨ 5 < piv.length) :
    createNonce id piv iv = .ub := by
  unfold createNonce leftPad
  by_cases hp : piv.length > 5
  · simp [hp]
  · have : id.length > 7 := by omega
    simp [hp, this]

example : createNonce [1, 2] [5] (List.replicate 13 0xAA) =
    .ok [0xA8, 0xAA, 0xAA, 0xAA, 0xAA, 0xAA, 0xAB, 0xA8, 0xAA, 0xAA, 0xAA, 0xAA, 0xAF] := by
  decide +kernel
end Verif
