import Mathlib.AlgebraicGeometry.EllipticCurve.Affine.Point
import Mathlib.Data.ZMod.Basic
import Mathlib.Tactic.LinearCombination
import Mathlib.Tactic.FieldSimp
import Verif.Spec.Curves
import Verif.Lemmas.Prime25519
import Verif.Lemmas.P256Std
/-
X25519 as written out in `Spec/Curves` (the Montgomery ladder of RFC 7748) computes multiples in Mathlib's group
of Curve25519.
-/
namespace Verif.C25519
open WeierstrassCurve.Affine Verif.Curves

instance : Fact (Nat.Prime p25519) := ⟨prime_p⟩

/-- the field -/
abbrev K := ZMod p25519

/-- Curve25519 (RFC 7748, 4.1): v^2 = u^3 + 486662 u^2 + u -/
def curve : WeierstrassCurve.Affine K where
  a₁ := 0
  a₂ := 486662
  a₃ := 0
  a₄ := 1
  a₆ := 0

theorem c_a1 : curve.a₁ = 0 := rfl
theorem c_a2 : curve.a₂ = 486662 := rfl
theorem c_a3 : curve.a₃ = 0 := rfl
theorem c_a4 : curve.a₄ = 1 := rfl
theorem c_a6 : curve.a₆ = 0 := rfl

theorem p_pos : 0 < p25519 := by decide

theorem num_ne {n : Nat} (h0 : 0 < n) (h : n < p25519) : ((n : Nat) : K) ≠ 0 := by
  rw [Ne, ZMod.natCast_eq_zero_iff]
  intro hd
  exact absurd (Nat.le_of_dvd h0 hd) (by omega)

theorem two_ne : (2 : K) ≠ 0 := by exact_mod_cast num_ne (n := 2) (by decide) (by decide)
theorem four_ne : (4 : K) ≠ 0 := by exact_mod_cast num_ne (n := 4) (by decide) (by decide)

theorem eqn (x y : K) : curve.Equation x y ↔ y ^ 2 = x ^ 3 + 486662 * x ^ 2 + x := by
  rw [equation_iff, c_a1, c_a2, c_a3, c_a4, c_a6]
  constructor <;> intro h <;> linear_combination h

theorem negY_eq (x y : K) : curve.negY x y = -y := by rw [negY, c_a1, c_a3]; ring
theorem addX_eq (x x' l : K) : curve.addX x x' l = l ^ 2 - 486662 - x - x' := by rw [addX, c_a1, c_a2]; ring
theorem addY_eq (x x' y l : K) : curve.addY x x' y l = -(l * ((l ^ 2 - 486662 - x - x') - x) + y) := by
  rw [addY, negY_eq, negAddY, addX_eq]

/-- (X : Z) stands for the x-coordinate of `Q` -/
def XRep (X Z : K) (Q : curve.Point) : Prop :=
  (Z = 0 ∧ X ≠ 0 ∧ Q = 0) ∨ ∃ x y h, Q = .some x y h ∧ Z ≠ 0 ∧ X = x * Z

/-- x-coordinate of a double -/
theorem dbl_some {x y : K} {h : curve.Nonsingular x y} (hy : y ≠ 0) :
    ∃ x' y' h', (.some x y h + .some x y h : curve.Point) = .some x' y' h' ∧ x' * (4 * y ^ 2) = (x ^ 2 - 1) ^ 2 := by
  have hy2 : y ≠ curve.negY x y := by
    rw [negY_eq]
    intro e
    have : (2 : K) * y = 0 := by linear_combination e
    rcases mul_eq_zero.1 this with h | h
    · exact two_ne h
    · exact hy h
  refine ⟨_, _, _, Point.add_self_of_Y_ne hy2, ?_⟩
  have e := (eqn x y).1 h.1
  rw [addX_eq, slope_of_Y_ne rfl hy2, negY_eq, c_a1, c_a2, c_a4,
    show (3 * x ^ 2 + 2 * 486662 * x + 1 - 0 * y : K) = 3 * x ^ 2 + 973324 * x + 1 by ring, show y - -y = 2 * y by ring]
  have h2 := two_ne
  field_simp
  linear_combination (-16 * 486662 - 32 * x) * e

theorem dbl_zero {x y : K} {h : curve.Nonsingular x y} (hy : y = 0) : (.some x y h + .some x y h : curve.Point) = 0 :=
  Point.add_self_of_Y_eq (by rw [negY_eq, hy, neg_zero])

theorem XRep.double {X Z : K} {Q : curve.Point} (h : XRep X Z Q) :
    XRep ((X ^ 2 - Z ^ 2) ^ 2) (4 * X * Z * (X ^ 2 + 486662 * X * Z + Z ^ 2)) (Q + Q) := by
  rcases h with ⟨rfl, hX, rfl⟩ | ⟨x, y, hn, rfl, hZ, rfl⟩
  · refine .inl ⟨by ring, ?_, add_zero _⟩
    have : ((X ^ 2 - 0 ^ 2) ^ 2 : K) = X ^ 4 := by ring
    rw [this]; exact pow_ne_zero _ hX
  · have e := (eqn x y).1 hn.1
    have ez : (4 * (x * Z) * Z * ((x * Z) ^ 2 + 486662 * (x * Z) * Z + Z ^ 2) : K) = 4 * y ^ 2 * Z ^ 4 := by
      rw [e]; ring
    rw [ez]
    by_cases hy : y = 0
    · refine .inl ⟨by rw [hy]; ring, ?_, dbl_zero hy⟩
      have : (((x * Z) ^ 2 - Z ^ 2) ^ 2 : K) = (x ^ 2 - 1) ^ 2 * Z ^ 4 := by ring
      rw [this]
      refine mul_ne_zero (pow_ne_zero _ ?_) (pow_ne_zero _ hZ)
      intro hx
      rw [hy] at e
      have h0 : (486662 : K) + 2 * x = 0 := by linear_combination (-1 : K) * e - (x + 486662) * hx
      have h1 : ((486662 ^ 2 - 4 : Nat) : K) = 0 := by
        rw [Nat.cast_sub (by decide)]
        push_cast
        linear_combination (486662 - 2 * x) * h0 + 4 * hx
      exact num_ne (by decide) (by decide) h1
    · obtain ⟨x', y', h', e1, e2⟩ := dbl_some (h := hn) hy
      refine .inr ⟨x', y', h', e1, mul_ne_zero (mul_ne_zero four_ne (pow_ne_zero _ hy)) (pow_ne_zero _ hZ), ?_⟩
      linear_combination (-(Z ^ 4)) * e2

/-- x-coordinates of sum and difference -/
theorem add_sub_some {a y₁ b y₂ : K} {h₁ : curve.Nonsingular a y₁} {h₂ : curve.Nonsingular b y₂} (hab : a ≠ b)
    {x y : K} {hn : curve.Nonsingular x y} (hd : (.some b y₂ h₂ - .some a y₁ h₁ : curve.Point) = .some x y hn) :
    ∃ x' y' h', (.some a y₁ h₁ + .some b y₂ h₂ : curve.Point) = .some x' y' h' ∧ x' * (x * (a - b) ^ 2) = (a * b - 1) ^ 2 := by
  refine ⟨_, _, _, Point.add_of_X_ne hab, ?_⟩
  rw [sub_eq_add_neg, Point.neg_some, Point.add_of_X_ne (Ne.symm hab)] at hd
  injection hd with hx _
  rw [← hx, addX_eq, addX_eq, slope_of_X_ne hab, slope_of_X_ne (Ne.symm hab), negY_eq]
  have e1 := (eqn a y₁).1 h₁.1
  have e2 := (eqn b y₂).1 h₂.1
  have d1 : a - b ≠ 0 := sub_ne_zero.2 hab
  have d2 : b - a ≠ 0 := sub_ne_zero.2 (Ne.symm hab)
  have r1 : ((y₁ - y₂) / (a - b)) ^ 2 = (y₁ - y₂) ^ 2 / (a - b) ^ 2 := div_pow _ _ _
  have r2 : ((y₂ - -y₁) / (b - a)) ^ 2 = (y₁ + y₂) ^ 2 / (a - b) ^ 2 := by
    rw [div_pow, show (b - a) ^ 2 = (a - b) ^ 2 by ring, show y₂ - -y₁ = y₁ + y₂ by ring]
  rw [r1, r2]
  have d3 : (a - b) ^ 2 ≠ 0 := pow_ne_zero _ d1
  have key : ((y₁ - y₂) ^ 2 / (a - b) ^ 2 - 486662 - a - b) * (((y₁ + y₂) ^ 2 / (a - b) ^ 2 - 486662 - b - a) * (a - b) ^ 2) =
      ((y₁ - y₂) ^ 2 - (486662 + a + b) * (a - b) ^ 2) * ((y₁ + y₂) ^ 2 - (486662 + a + b) * (a - b) ^ 2) / (a - b) ^ 2 := by
    field_simp
    ring
  rw [key, div_eq_iff d3]
  linear_combination (y₁ ^ 2 - y₂ ^ 2 + (a ^ 3 + 486662 * a ^ 2 + a) - (b ^ 3 + 486662 * b ^ 2 + b) - 2 * ((486662 + a + b) * (a - b) ^ 2)) * e1 +
    (-(y₁ ^ 2 - y₂ ^ 2 + (a ^ 3 + 486662 * a ^ 2 + a) - (b ^ 3 + 486662 * b ^ 2 + b)) - 2 * ((486662 + a + b) * (a - b) ^ 2)) * e2

/-- the differential addition of the ladder -/
theorem XRep.dadd {X₁ Z₁ X₂ Z₂ x y : K} {P Q : curve.Point} {hn : curve.Nonsingular x y} (h₁ : XRep X₁ Z₁ P) (h₂ : XRep X₂ Z₂ Q)
    (hd : Q - P = .some x y hn) (hx : x ≠ 0) :
    XRep (4 * (X₁ * X₂ - Z₁ * Z₂) ^ 2) (4 * x * (X₂ * Z₁ - X₁ * Z₂) ^ 2) (P + Q) := by
  have h4 := four_ne
  rcases h₁ with ⟨rfl, hX, rfl⟩ | ⟨a, y₁, n₁, rfl, hZ₁, rfl⟩
  · rw [sub_zero] at hd
    subst hd
    rcases h₂ with ⟨_, _, h⟩ | ⟨b, y₂, n₂, e, hZ₂, rfl⟩
    · exact absurd h (Point.some_ne_zero _)
    · injection e with e1 e2
      subst e1 e2
      refine .inr ⟨x, y, hn, zero_add _, ?_, by ring⟩
      have : (4 * x * (x * Z₂ * 0 - X₁ * Z₂) ^ 2 : K) = 4 * x * (X₁ * Z₂) ^ 2 := by ring
      rw [this]
      exact mul_ne_zero (mul_ne_zero h4 hx) (pow_ne_zero _ (mul_ne_zero hX hZ₂))
  · rcases h₂ with ⟨rfl, hX₂, rfl⟩ | ⟨b, y₂, n₂, rfl, hZ₂, rfl⟩
    · rw [zero_sub, Point.neg_some] at hd
      injection hd with e1 e2
      subst e1
      refine .inr ⟨_, _, n₁, add_zero _, ?_, by ring⟩
      have : (4 * a * (X₂ * Z₁ - a * Z₁ * 0) ^ 2 : K) = 4 * a * (X₂ * Z₁) ^ 2 := by ring
      rw [this]
      exact mul_ne_zero (mul_ne_zero h4 hx) (pow_ne_zero _ (mul_ne_zero hX₂ hZ₁))
    · by_cases hab : a = b
      · have hs : (.some a y₁ n₁ : curve.Point) = -.some b y₂ n₂ := by
          rcases Point.X_eq_iff.1 hab with h | h
          · rw [h, sub_self] at hd
            exact absurd hd.symm (Point.some_ne_zero _)
          · exact h
        refine .inl ⟨by rw [hab]; ring, ?_, by rw [hs]; exact neg_add_cancel _⟩
        rw [hs, sub_neg_eq_add] at hd
        have hy : y₂ ≠ 0 := by
          intro h
          rw [dbl_zero h] at hd
          exact absurd hd.symm (Point.some_ne_zero _)
        obtain ⟨x', y', h', e1, e2⟩ := dbl_some (h := n₂) hy
        rw [hd] at e1
        injection e1 with e3 _
        subst e3
        have hb : (b ^ 2 - 1) ≠ 0 := by
          intro h0
          rw [h0] at e2
          have h5 : x * (4 * y₂ ^ 2) ≠ 0 := mul_ne_zero hx (mul_ne_zero h4 (pow_ne_zero _ hy))
          exact h5 (by rw [e2]; ring)
        have : (4 * (a * Z₁ * (b * Z₂) - Z₁ * Z₂) ^ 2 : K) = 4 * ((b ^ 2 - 1) * (Z₁ * Z₂)) ^ 2 := by rw [hab]; ring
        rw [this]
        exact mul_ne_zero h4 (pow_ne_zero _ (mul_ne_zero hb (mul_ne_zero hZ₁ hZ₂)))
      · obtain ⟨x', y', h', e1, e2⟩ := add_sub_some hab hd
        refine .inr ⟨x', y', h', e1, ?_, ?_⟩
        · have : (4 * x * (b * Z₂ * Z₁ - a * Z₁ * Z₂) ^ 2 : K) = 4 * x * ((b - a) * (Z₁ * Z₂)) ^ 2 := by ring
          rw [this]
          exact mul_ne_zero (mul_ne_zero h4 hx) (pow_ne_zero _ (mul_ne_zero (sub_ne_zero.2 (Ne.symm hab)) (mul_ne_zero hZ₁ hZ₂)))
        · linear_combination (-4 * (Z₁ * Z₂) ^ 2) * e2

/-! ### the ladder on natural numbers -/

theorem cast_mod (n : Nat) : ((n % p25519 : Nat) : K) = (n : K) := ZMod.natCast_mod _ _

theorem cast_subMod {x y : Nat} (h : y < p25519) : ((subMod p25519 x y : Nat) : K) = (x : K) - (y : K) := by
  rw [subMod, cast_mod, Nat.cast_sub (by omega), Nat.cast_add]
  simp

theorem cast_inj' {m n : Nat} (hm : m < p25519) (hn : n < p25519) : ((m : K)) = (n : K) ↔ m = n := by
  rw [ZMod.natCast_eq_natCast_iff', Nat.mod_eq_of_lt hm, Nat.mod_eq_of_lt hn]

theorem val_cast {n : Nat} (h : n < p25519) : ((n : K)).val = n := by
  rw [ZMod.val_natCast, Nat.mod_eq_of_lt h]

/-- all four coordinates are reduced -/
def Red (s : Nat × Nat × Nat × Nat) : Prop := s.1 < p25519 ∧ s.2.1 < p25519 ∧ s.2.2.1 < p25519 ∧ s.2.2.2 < p25519

/-- the state of the ladder for the multiples m and m + 1 -/
def LRep (P : curve.Point) (m : Nat) (s : Nat × Nat × Nat × Nat) : Prop :=
  Red s ∧ XRep (s.1 : K) (s.2.1 : K) (m • P) ∧ XRep (s.2.2.1 : K) (s.2.2.2 : K) ((m + 1) • P)

theorem ladderStep_k (x1 : Nat) (b : Bool) (s : Nat × Nat × Nat × Nat) {α : Type} (k : Nat × Nat × Nat × Nat → α) :
    ladderStep x1 b s k = k (ladderStep x1 b s id) := by
  cases b <;> simp only [ladderStep, Curves.force_eq, id, Bool.false_eq_true, if_false, if_true]

theorem step_rep {P : curve.Point} {x : Nat} {y : K} {hn : curve.Nonsingular (x : K) y} (hP : P = .some _ _ hn) (hx : (x : K) ≠ 0)
    {m : Nat} {s : Nat × Nat × Nat × Nat} (h : LRep P m s) (b : Bool) : LRep P (2 * m + b.toNat) (ladderStep x b s id) := by
  obtain ⟨⟨r1, r2, r3, r4⟩, h1, h2⟩ := h
  have hm := fun n => Nat.mod_lt n p_pos
  have hd : (m + 1) • P - m • P = .some _ _ hn := by rw [succ_nsmul, add_sub_cancel_left, hP]
  have hd' : m • P - (m + 1) • P = .some _ _ ((nonsingular_neg ..).2 hn) := by
    rw [← neg_sub, hd, Point.neg_some]
  cases b with
  | false =>
    have e2 : (2 * m + false.toNat) • P = m • P + m • P := by rw [Bool.toNat_false, add_zero, two_mul, add_nsmul]
    have e3 : (2 * m + false.toNat + 1) • P = m • P + (m + 1) • P := by
      rw [← add_nsmul]; congr 1; simp; ring
    have a1 := h1.double
    have a2 := h1.dadd h2 hd hx
    refine ⟨⟨?_, ?_, ?_, ?_⟩, ?_, ?_⟩
    · simp only [ladderStep, Curves.force_eq, id, Bool.false_eq_true, if_false]; exact hm _
    · simp only [ladderStep, Curves.force_eq, id, Bool.false_eq_true, if_false]; exact hm _
    · simp only [ladderStep, Curves.force_eq, id, Bool.false_eq_true, if_false]; exact hm _
    · simp only [ladderStep, Curves.force_eq, id, Bool.false_eq_true, if_false]; exact hm _
    · rw [e2]
      convert a1 using 1
      · simp only [ladderStep, Curves.force_eq, id, Bool.false_eq_true, if_false]
        simp only [cast_mod, Nat.cast_mul, Nat.cast_add, cast_subMod r2]
        ring
      · simp only [ladderStep, Curves.force_eq, id, Bool.false_eq_true, if_false]
        simp only [cast_mod, Nat.cast_mul, Nat.cast_add, cast_subMod r2, cast_subMod (hm _)]
        push_cast
        ring
    · rw [e3]
      convert a2 using 1
      · simp only [ladderStep, Curves.force_eq, id, Bool.false_eq_true, if_false]
        simp only [cast_mod, Nat.cast_mul, Nat.cast_add, cast_subMod r2, cast_subMod r4]
        ring
      · simp only [ladderStep, Curves.force_eq, id, Bool.false_eq_true, if_false]
        simp only [cast_mod, Nat.cast_mul, Nat.cast_add, cast_subMod r2, cast_subMod r4, cast_subMod (hm _)]
        ring
  | true =>
    have e2 : (2 * m + true.toNat) • P = (m + 1) • P + m • P := by
      rw [← add_nsmul]; congr 1; simp; ring
    have e3 : (2 * m + true.toNat + 1) • P = (m + 1) • P + (m + 1) • P := by
      rw [← add_nsmul]; congr 1; simp; ring
    have a1 := h2.double
    have a2 := h2.dadd h1 hd' hx
    refine ⟨⟨?_, ?_, ?_, ?_⟩, ?_, ?_⟩
    · simp only [ladderStep, Curves.force_eq, id, if_true]; exact hm _
    · simp only [ladderStep, Curves.force_eq, id, if_true]; exact hm _
    · simp only [ladderStep, Curves.force_eq, id, if_true]; exact hm _
    · simp only [ladderStep, Curves.force_eq, id, if_true]; exact hm _
    · rw [e2]
      convert a2 using 1
      · simp only [ladderStep, Curves.force_eq, id, if_true]
        simp only [cast_mod, Nat.cast_mul, Nat.cast_add, cast_subMod r2, cast_subMod r4]
        ring
      · simp only [ladderStep, Curves.force_eq, id, if_true]
        simp only [cast_mod, Nat.cast_mul, Nat.cast_add, cast_subMod r2, cast_subMod r4, cast_subMod (hm _)]
        ring
    · rw [e3]
      convert a1 using 1
      · simp only [ladderStep, Curves.force_eq, id, if_true]
        simp only [cast_mod, Nat.cast_mul, Nat.cast_add, cast_subMod r4]
        ring
      · simp only [ladderStep, Curves.force_eq, id, if_true]
        simp only [cast_mod, Nat.cast_mul, Nat.cast_add, cast_subMod r4, cast_subMod (hm _)]
        push_cast
        ring

theorem ladder_rep {P : curve.Point} {x : Nat} {y : K} {hn : curve.Nonsingular (x : K) y} (hP : P = .some _ _ hn) (hx : (x : K) ≠ 0)
    (k : Nat) : ∀ (n : Nat) {m : Nat} {s : Nat × Nat × Nat × Nat}, LRep P m s → LRep P (m * 2 ^ n + k % 2 ^ n) (ladder x k n s)
  | 0, m, s, h => by simpa [ladder, Nat.mod_one] using h
  | n + 1, m, s, h => by
    rw [ladder, ladderStep_k]
    have := ladder_rep hP hx k n (step_rep hP hx h (k.testBit n))
    convert this using 1
    rw [Nat.mod_pow_succ, Nat.testBit_eq_decide_div_mod_eq]
    by_cases hb : k / 2 ^ n % 2 = 1
    · simp only [hb, decide_true, Bool.toNat_true, pow_succ]; ring
    · have hb' : k / 2 ^ n % 2 = 0 := by omega
      simp only [hb', pow_succ, show decide (0 = 1) = false from rfl, Bool.toNat_false]; ring

/-- x-coordinate of a point, 0 for the point at infinity -/
def ux : curve.Point → K
  | .zero => 0
  | .some x _ _ => x

/-- the x-only ladder computes the x-coordinate of the multiple -/
theorem ladder_spec {P : curve.Point} {x : Nat} {y : K} {hn : curve.Nonsingular (x : K) y} (hP : P = .some _ _ hn) (hx : (x : K) ≠ 0)
    (hxl : x < p25519) {k : Nat} (hk : k < 2 ^ 255) : xOf (ladder x k 255 (1, 0, x, 1)) = (ux (k • P)).val := by
  have h0 : LRep P 0 (1, 0, x, 1) := by
    refine ⟨⟨(by decide : 1 < p25519), (by decide : 0 < p25519), hxl, (by decide : 1 < p25519)⟩, .inl ⟨by simp, by simp, zero_nsmul _⟩, .inr ⟨_, _, hn, ?_, by simp, by simp⟩⟩
    rw [zero_add, one_nsmul, hP]
  have h := ladder_rep hP hx k 255 h0
  rw [zero_mul, zero_add, Nat.mod_eq_of_lt hk] at h
  generalize ladder x k 255 (1, 0, x, 1) = s at h
  obtain ⟨⟨r1, r2, _, _⟩, h1, _⟩ := h
  rw [xOf]
  rcases h1 with ⟨hz, _, hQ⟩ | ⟨a, b, hn', hQ, hz, hX⟩
  · have : s.2.1 = 0 := (cast_inj' r2 (by decide)).1 (by simpa using hz)
    rw [this, hQ]
    have e : invMod p25519 0 = 0 := by decide +kernel
    rw [e]
    show _ = (ux .zero).val
    simp [ux]
  · have e : ((s.1 * invMod p25519 s.2.1 % p25519 : Nat) : K) = a := by
      rw [cast_mod, Nat.cast_mul, P256.invMod_cast (by decide) hz, hX]
      field_simp
    rw [hQ, ux, ← e, val_cast (Nat.mod_lt _ p_pos)]

/-! ### the base point -/

/-- v-coordinate of the base point (RFC 7748, 4.1) -/
def vB : Nat := 14781619447589544791020593568409986887264606134616475288964881837755586237401

theorem disc_ne : curve.Δ ≠ 0 := by
  have e : curve.Δ = 16 * (486662 ^ 2 - 4) := by
    simp only [WeierstrassCurve.Δ, WeierstrassCurve.b₂, WeierstrassCurve.b₄, WeierstrassCurve.b₆,
      WeierstrassCurve.b₈, c_a1, c_a2, c_a3, c_a4, c_a6]
    ring
  rw [e]
  have : ((16 * (486662 ^ 2 - 4) : Nat) : K) ≠ 0 := num_ne (by decide) (by decide)
  rw [Nat.cast_mul, Nat.cast_sub (by decide)] at this
  push_cast at this
  exact this

theorem nonsing {x y : K} (h : y ^ 2 = x ^ 3 + 486662 * x ^ 2 + x) : curve.Nonsingular x y := by
  rw [← equation_iff_nonsingular_of_Δ_ne_zero disc_ne, eqn]; exact h

theorem b_on : curve.Nonsingular ((9 : Nat) : K) (vB : K) := by
  apply nonsing
  have : ((vB ^ 2 : Nat) : K) = ((9 ^ 3 + 486662 * 9 ^ 2 + 9 : Nat) : K) := by
    rw [ZMod.natCast_eq_natCast_iff']; decide +kernel
  push_cast at this
  push_cast
  exact this

/-- the base point of Curve25519 -/
def B : curve.Point := .some _ _ b_on

theorem B_ne : B ≠ 0 := Point.some_ne_zero _

theorem nine_ne : ((9 : Nat) : K) ≠ 0 := num_ne (by decide) (by decide)

set_option maxRecDepth 100000 in
theorem l_eval : (ladder 9 edL 255 (1, 0, 9, 1)).2.1 = 0 := by decide +kernel

theorem l_B : edL • B = 0 := by
  have h0 : LRep B 0 (1, 0, 9, 1) := by
    refine ⟨⟨(by decide : 1 < p25519), (by decide : 0 < p25519), (by decide : 9 < p25519), (by decide : 1 < p25519)⟩,
      .inl ⟨by simp, by simp, zero_nsmul _⟩, .inr ⟨_, _, b_on, ?_, by simp, by simp⟩⟩
    rw [zero_add, one_nsmul]; rfl
  have h := ladder_rep (P := B) rfl nine_ne edL 255 h0
  rw [zero_mul, zero_add, Nat.mod_eq_of_lt (by decide)] at h
  rcases h.2.1 with ⟨_, _, hQ⟩ | ⟨_, _, _, _, hz, _⟩
  · exact hQ
  · rw [l_eval] at hz; exact absurd Nat.cast_zero hz

theorem prime_edL : Nat.Prime edL := prime_l
instance : Fact (Nat.Prime edL) := ⟨prime_edL⟩

theorem smul_B_eq_zero {k : Nat} : k • B = 0 ↔ edL ∣ k := by
  have ho : addOrderOf B = edL := addOrderOf_eq_prime l_B B_ne
  rw [← ho]
  exact addOrderOf_dvd_iff_nsmul_eq_zero.symm

/-! ### X25519 -/

theorem scalar_bounds (k : Bytes) : 2 ^ 254 ≤ decodeScalar k ∧ decodeScalar k < 2 ^ 255 ∧ 8 ∣ decodeScalar k := by
  have h := Nat.mod_lt (leNat (k.take 32)) (by decide : 0 < 2 ^ 254)
  unfold decodeScalar
  generalize leNat (k.take 32) % 2 ^ 254 = v at h
  refine ⟨by omega, by omega, ?_⟩
  exact Nat.dvd_add (Nat.dvd_mul_left _ _) (by decide)

theorem scalar_ndvd (k : Bytes) : ¬ edL ∣ decodeScalar k := by
  obtain ⟨h1, h2, c, hc⟩ := scalar_bounds k
  rw [hc]
  intro h
  rcases (Nat.Prime.dvd_mul prime_edL).1 h with h | h
  · exact absurd (Nat.le_of_dvd (by decide) h) (by decide)
  · have := Nat.le_of_dvd (by omega) h
    unfold edL at this
    omega

theorem leNat_toLe (x : Nat) (h : x < 2 ^ 256) : leNat (toLe 32 x) = x := by
  have e : ∀ l : Bytes, leNat l.reverse = beVal l := by
    intro l
    rw [← P256.beNat_eq, leNat, Fips.beNat, List.foldr_reverse]
  rw [toLe, e, P256.toBe_val, Nat.mod_eq_of_lt]
  exact h

theorem toLe_length (k n : Nat) : (toLe k n).length = k := by simp [toLe, Fips.toBe_length]

theorem decodeU_toLe (x : K) : decodeU (toLe 32 x.val) = x.val := by
  have h := ZMod.val_lt x
  have h' : x.val < 2 ^ 255 := lt_trans h (by decide)
  rw [decodeU, List.take_of_length_le (by rw [toLe_length]), leNat_toLe _ (lt_trans h' (by decide)),
    Nat.mod_eq_of_lt h', Nat.mod_eq_of_lt h]

/-- X25519 of the u-coordinate of a point other than (0, 0) -/
theorem x25519_spec {P : curve.Point} {x y : K} {hn : curve.Nonsingular x y} (hP : P = .some x y hn) (hx : x ≠ 0) (k : Bytes) {u : Bytes}
    (hu : decodeU u = x.val) : Curves.x25519 k u = toLe 32 (ux (decodeScalar k • P)).val := by
  have hc : ((x.val : Nat) : K) = x := by rw [ZMod.natCast_val, ZMod.cast_id]
  rw [Curves.x25519, hu]
  have hn' : curve.Nonsingular ((x.val : Nat) : K) y := by rw [hc]; exact hn
  rw [ladder_spec (P := P) (hn := hn') (by rw [hP]; simp only [hc]) (by rw [hc]; exact hx) (ZMod.val_lt x) (scalar_bounds k).2.1]

/-- the encoding of the base point (RFC 7748, 6.1): 9 -/
def base : Bytes := 9 :: List.replicate 31 0

theorem base_u : decodeU base = ((9 : Nat) : K).val := by rw [val_cast (by decide)]; decide +kernel

theorem public_eq (k : Bytes) : Curves.x25519 k base = toLe 32 (ux (decodeScalar k • B)).val :=
  x25519_spec (P := B) rfl nine_ne k base_u

/-- the public key of `k` is the coordinate of a point of the curve other than (0, 0) -/
theorem public_point (k : Bytes) : ∃ x y hn, decodeScalar k • B = .some x y hn ∧ x ≠ 0 := by
  match h : decodeScalar k • B, mt smul_B_eq_zero.1 (scalar_ndvd k) with
  | .zero, h0 => exact absurd rfl h0
  | .some x y hn, _ =>
    refine ⟨x, y, hn, rfl, ?_⟩
    intro hx
    have e := (eqn x y).1 hn.1
    have hy : y = 0 := by
      rw [hx] at e
      have : y ^ 2 = 0 := by rw [e]; ring
      exact pow_eq_zero_iff (two_ne_zero) |>.1 this
    have h2 : (2 * decodeScalar k) • B = 0 := by
      rw [two_mul, add_nsmul, h]; exact dbl_zero hy
    rcases (Nat.Prime.dvd_mul prime_edL).1 (smul_B_eq_zero.1 h2) with h | h
    · exact absurd (Nat.le_of_dvd (by decide) h) (by decide)
    · exact scalar_ndvd k h

/-- both parties of an exchange compute the same secret -/
theorem x25519_agree (a b : Bytes) :
    Curves.x25519 a (Curves.x25519 b base) = Curves.x25519 b (Curves.x25519 a base) := by
  have key : ∀ a b : Bytes, Curves.x25519 a (Curves.x25519 b base) = toLe 32 (ux ((decodeScalar a * decodeScalar b) • B)).val := by
    intro a b
    obtain ⟨x, y, hn, hP, hx⟩ := public_point b
    rw [public_eq b, hP, ux]
    rw [x25519_spec hP hx a (decodeU_toLe x), mul_nsmul']
  rw [key, key, Nat.mul_comm]

end Verif.C25519
