import Verif.Model.PivNonce
import Verif.Lemmas.BytesLemmas
namespace Verif

theorem pivDigitsLE_val (f n : Nat) (h : n < 256 ^ f) : beVal (pivDigitsLE f n).reverse = n := by
  induction f generalizing n with
  | zero => simp at h; simp [pivDigitsLE, beVal, h]
  | succ f ih =>
    unfold pivDigitsLE
    split
    · rw [List.reverse_cons, beVal_append, ih (n / 256) (by
        rw [Nat.div_lt_iff_lt_mul (by omega)]; rwa [Nat.pow_succ] at h)]
      simp only [beVal, List.length_nil, List.length_singleton, Nat.pow_zero, Nat.mul_one, Nat.pow_one,
        byte_toNat (show n % 256 < 256 by omega)]
      omega
    · simp [beVal]; omega

theorem pivDigitsLE_len (f n : Nat) : (pivDigitsLE f n).length ≤ f := by
  induction f generalizing n with
  | zero => simp [pivDigitsLE]
  | succ f ih =>
    unfold pivDigitsLE
    split
    · simp [ih]
    · simp

/-- the most significant digit is not zero -/
theorem pivDigitsLE_last (f n : Nat) (h : n < 256 ^ f) (hn : 0 < n) :
    ∃ d l, pivDigitsLE f n = l ++ [d] ∧ d ≠ 0 := by
  induction f generalizing n with
  | zero => simp at h; omega
  | succ f ih =>
    unfold pivDigitsLE
    rw [if_pos hn]
    by_cases h2 : n / 256 = 0
    · refine ⟨byte (n % 256), [], ?_, ?_⟩
      · rw [h2]; cases f <;> simp [pivDigitsLE]
      · intro hh
        have := congrArg UInt8.toNat hh
        rw [byte_toNat (by omega)] at this
        simp at this; omega
    · obtain ⟨d, l, he, hd⟩ := ih (n / 256) (by
        rw [Nat.div_lt_iff_lt_mul (by omega)]; rwa [Nat.pow_succ] at h) (by omega)
      exact ⟨d, byte (n % 256) :: l, by rw [he]; rfl, hd⟩

theorem xorWith_inj {k : Bytes} : ∀ {x y : Bytes}, x.length = y.length →
    xorWith x k = xorWith y k → x = y := by
  induction k with
  | nil => intro x y _ h; cases x <;> cases y <;> simp [xorWith] at h ⊢; exact h
  | cons c k ih =>
    intro x y hl h
    cases x with
    | nil => exact (List.length_eq_zero_iff.1 (by simpa using hl.symm)).symm
    | cons a x =>
      cases y with
      | nil => simp at hl
      | cons b y =>
        simp only [xorWith, List.cons.injEq, UInt8.xor_left_inj] at h
        rw [h.1, ih (by simpa using hl) h.2]

theorem createNonce_ok {id piv iv n : Bytes} : createNonce id piv iv = .ok n ↔
    id.length ≤ 7 ∧ piv.length ≤ 5 ∧ iv.length ≤ 13 ∧
    n = xorWith (byte id.length :: (List.replicate (7 - id.length) 0 ++ id ++
      (List.replicate (5 - piv.length) 0 ++ piv))) iv := by
  unfold createNonce leftPad
  by_cases h1 : piv.length > 5
  · simp [h1]; omega
  · by_cases h2 : id.length > 7
    · simp [h1, h2]; omega
    · by_cases h3 : iv.length > 13
      · simp [h1, h2, h3]; omega
      · simp only [h1, h2, h3, if_false, R.ok_bind, R.pure_eq, R.ok.injEq, eq_comm (a := n)]
        constructor
        · intro h; exact ⟨by omega, by omega, by omega, h⟩
        · intro h; exact h.2.2.2

theorem xorWith_length : ∀ {x k : Bytes}, (xorWith x k).length = x.length := by
  intro x k
  induction k generalizing x with
  | nil => cases x <;> simp [xorWith]
  | cons c k ih => cases x <;> simp [xorWith, ih]

theorem createNonce_length {id piv iv n : Bytes} (h : createNonce id piv iv = .ok n) :
    n.length = 13 := by
  obtain ⟨h1, h2, _, rfl⟩ := createNonce_ok.1 h
  simp [xorWith_length]; omega

end Verif
