import Verif.Model.P256
/-
Limb arithmetic of src/common/crypto_p256.c computes what its comments say.
-/
namespace Verif.P256
open Verif

/-- the number represented by limbs -/
def val : Limbs → Nat
  | [] => 0
  | x :: xs => x.toNat + 2 ^ 32 * val xs

theorem val_lt (x : Limbs) : val x < 2 ^ (32 * x.length) := by
  induction x with
  | nil => simp [val]
  | cons a x ih =>
    have ha : a.toNat < 2 ^ 32 := a.toNat_lt
    have e : 2 ^ (32 * (a :: x).length) = 2 ^ 32 * 2 ^ (32 * x.length) := by
      rw [List.length_cons, Nat.mul_add, Nat.mul_one, Nat.pow_add, Nat.mul_comm]
    rw [e, val]
    have : val x + 1 ≤ 2 ^ (32 * x.length) := ih
    have := Nat.mul_le_mul_left (2 ^ 32) this
    omega

theorem pow_cons (a : UInt32) (x : Limbs) :
    2 ^ (32 * (a :: x).length) = 2 ^ 32 * 2 ^ (32 * x.length) := by
  rw [List.length_cons, Nat.mul_add, Nat.mul_one, Nat.pow_add, Nat.mul_comm]

theorem val_append (x y : Limbs) : val (x ++ y) = val x + 2 ^ (32 * x.length) * val y := by
  induction x with
  | nil => simp [val]
  | cons a x ih => rw [List.cons_append, val, ih, val, pow_cons, Nat.mul_add, Nat.mul_assoc]; omega

theorem val_inj (x y : Limbs) (hl : x.length = y.length) (h : val x = val y) : x = y := by
  induction x generalizing y with
  | nil => cases y with
    | nil => rfl
    | cons b y => simp at hl
  | cons a x ih =>
    cases y with
    | nil => simp at hl
    | cons b y =>
      have ha : a.toNat < 2 ^ 32 := a.toNat_lt
      have hb : b.toNat < 2 ^ 32 := b.toNat_lt
      simp only [val] at h
      have e1 : a.toNat = b.toNat := by omega
      have e2 : val x = val y := by omega
      rw [ih y (by simpa using hl) e2, UInt32.toNat_inj.1 e1]

theorem lo32 (s : UInt64) : s.toUInt32.toNat = s.toNat % 2 ^ 32 := by simp
theorem hi32 (s : UInt64) : (s >>> 32).toUInt32.toNat = s.toNat / 2 ^ 32 := by
  have := s.toNat_lt
  simp [Nat.shiftRight_eq_div_pow]
  omega

theorem borrow1 (a b c : UInt32) (hc : c.toNat ≤ 1) :
   (a.toUInt64 - b.toUInt64 - c.toUInt64).toNat = if a.toNat < b.toNat + c.toNat then a.toNat + 2^64 - b.toNat - c.toNat else a.toNat - b.toNat - c.toNat := by
  have ha : a.toNat < 2 ^ 32 := a.toNat_lt
  have hb : b.toNat < 2 ^ 32 := b.toNat_lt
  rw [UInt64.toNat_sub, UInt64.toNat_sub, UInt32.toNat_toUInt64, UInt32.toNat_toUInt64, UInt32.toNat_toUInt64]
  generalize a.toNat = a at *
  generalize b.toNat = b at *
  generalize c.toNat = c at *
  split <;> omega
theorem neg32 (a : UInt32) : ((0:UInt32) - a).toNat = (2^32 - a.toNat) % 2^32 := by
  rw [UInt32.toNat_sub]; simp

theorem addGo_spec (x y : Limbs) (h : x.length = y.length) (c : UInt32) (hc : c.toNat ≤ 1) :
    val (u256AddGo c x y).1 + 2 ^ (32 * x.length) * (u256AddGo c x y).2.toNat
      = val x + val y + c.toNat ∧ (u256AddGo c x y).2.toNat ≤ 1 ∧
    (u256AddGo c x y).1.length = x.length := by
  induction x generalizing y c with
  | nil => cases y with
    | nil => simp [u256AddGo, val, hc]
    | cons b y => simp at h
  | cons a x ih =>
    cases y with
    | nil => simp at h
    | cons b y =>
      have ha : a.toNat < 2 ^ 32 := a.toNat_lt
      have hb : b.toNat < 2 ^ 32 := b.toNat_lt
      simp only [u256AddGo]
      generalize hs : c.toUInt64 + a.toUInt64 + b.toUInt64 = s
      have es : s.toNat = c.toNat + a.toNat + b.toNat := by
        rw [← hs]; simp; omega
      have hc' : (s >>> 32).toUInt32.toNat ≤ 1 := by rw [hi32]; omega
      obtain ⟨i1, i2, i3⟩ := ih y (by simpa using h) (s >>> 32).toUInt32 hc'
      refine ⟨?_, i2, by simp [i3]⟩
      rw [val, pow_cons, val, val, lo32, Nat.mul_assoc]
      rw [hi32] at i1
      generalize 2 ^ (32 * x.length) * (u256AddGo (s >>> 32).toUInt32 x y).2.toNat = k at *
      omega

theorem subGo_spec (x y : Limbs) (h : y.length ≤ x.length) (c : UInt32) (hc : c.toNat ≤ 1) :
    val (u256SubGo c x y).1 + val y + c.toNat
      = val (x.take y.length) + 2 ^ (32 * y.length) * (u256SubGo c x y).2.toNat ∧
    (u256SubGo c x y).2.toNat ≤ 1 ∧ (u256SubGo c x y).1.length = y.length := by
  induction y generalizing x c with
  | nil => cases x <;> simp [u256SubGo, val, hc]
  | cons b y ih =>
    cases x with
    | nil => simp at h
    | cons a x =>
      have ha : a.toNat < 2 ^ 32 := a.toNat_lt
      have hb : b.toNat < 2 ^ 32 := b.toNat_lt
      simp only [u256SubGo]
      have es := borrow1 a b c hc
      generalize a.toUInt64 - b.toUInt64 - c.toUInt64 = s at *
      have e2 : ((0 : UInt32) - (s >>> 32).toUInt32).toNat = if a.toNat < b.toNat + c.toNat then 1 else 0 := by
        rw [neg32, hi32, es]
        split <;> omega
      have hc' : ((0 : UInt32) - (s >>> 32).toUInt32).toNat ≤ 1 := by rw [e2]; split <;> omega
      generalize ((0 : UInt32) - (s >>> 32).toUInt32) = c' at *
      obtain ⟨i1, i2, i3⟩ := ih x (by simpa using h) _ hc'
      refine ⟨?_, i2, by simp [i3]⟩
      have l1 : (b :: y).length = y.length + 1 := rfl
      rw [pow_cons, l1, List.take_succ_cons, val, val, val, lo32, Nat.mul_assoc]
      rw [e2] at i1
      rw [es]
      generalize 2 ^ (32 * y.length) * (u256SubGo c' x y).2.toNat = k at *
      split at i1
      · rename_i hlt; rw [if_pos hlt]; omega
      · rename_i hlt; rw [if_neg hlt]; omega

/-- `u256_add` (crypto_p256.c:41-50) -/
theorem add_spec (x y : Limbs) (h : x.length = y.length) :
    val (u256Add x y).1 + 2 ^ (32 * x.length) * (u256Add x y).2.toNat = val x + val y ∧
    (u256Add x y).2.toNat ≤ 1 ∧ (u256Add x y).1.length = x.length := by
  have := addGo_spec x y h 0 (by decide)
  simpa [u256Add] using this

/-- `u256_sub` (crypto_p256.c:65-74) -/
theorem sub_spec (x y : Limbs) (h : y.length ≤ x.length) :
    val (u256Sub x y).1 + val y
      = val (x.take y.length) + 2 ^ (32 * y.length) * (u256Sub x y).2.toNat ∧
    (u256Sub x y).2.toNat ≤ 1 ∧ (u256Sub x y).1.length = y.length := by
  have := subGo_spec x y h 0 (by decide)
  simpa [u256Sub] using this

theorem le_one_cases (c : UInt32) (h : c.toNat ≤ 1) : c = 0 ∨ c = 1 := by
  have : c.toNat = 0 ∨ c.toNat = 1 := by omega
  rcases this with h | h
  · left; exact UInt32.toNat_inj.1 h
  · right; exact UInt32.toNat_inj.1 h

theorem cmov_zero (z x : Limbs) (h : z.length ≤ x.length) : u256Cmov z x 0 = z := by
  unfold u256Cmov
  induction z generalizing x with
  | nil => simp
  | cons a z ih =>
    cases x with
    | nil => simp at h
    | cons b x =>
      rw [List.zipWith_cons_cons, ih x (by simpa using h)]
      simp

theorem cmov_one (z x : Limbs) (h : x.length = z.length) : u256Cmov z x 1 = x := by
  unfold u256Cmov
  induction z generalizing x with
  | nil => cases x with
    | nil => rfl
    | cons b x => simp at h
  | cons a z ih =>
    cases x with
    | nil => simp at h
    | cons b x =>
      rw [List.zipWith_cons_cons, ih x (by simpa using h)]
      have : (0 : UInt32) - 1 = 0xFFFFFFFF := by decide
      rw [this]
      have e : b &&& 0xFFFFFFFF = b := by
        apply UInt32.toBitVec_inj.1; simp
        exact BitVec.and_allOnes (x := b.toBitVec)
      have e2 : a &&& ~~~(0xFFFFFFFF : UInt32) = 0 := by
        have : ~~~(0xFFFFFFFF : UInt32) = 0 := by decide
        rw [this]; simp
      rw [e, e2]; simp

end Verif.P256
