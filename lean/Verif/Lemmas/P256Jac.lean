import Verif.Spec.Curves
import Verif.Spec.P256Group
import Verif.Lemmas.P256Field
import Mathlib.Tactic.LinearCombination
import Mathlib.Tactic.FieldSimp
/-
The arithmetic of `Spec/Curves` on P-256 (Jacobian coordinates over natural numbers) computes the group law of
Mathlib's curve `P256Spec.curve`.
-/
namespace Verif.P256
open WeierstrassCurve.Affine Verif.Curves
open Verif.P256Spec (curve)

theorem p256_eq : Curves.p256 = P256Spec.p := rfl

theorem p_pos : 0 < P256Spec.p := by decide

/-- the coordinates are reduced and stand for the point `Q` -/
structure Rep (J : JPoint) (Q : curve.Point) : Prop where
  x : J.x < P256Spec.p
  y : J.y < P256Spec.p
  z : J.z < P256Spec.p
  pt : (J.z = 0 ∧ Q = 0) ∨
    ∃ x y h, Q = .some x y h ∧ J.z ≠ 0 ∧ (J.x : F) = x * (J.z : F) ^ 2 ∧ (J.y : F) = y * (J.z : F) ^ 3

theorem cast_mod (n : Nat) : ((n % P256Spec.p : Nat) : F) = (n : F) := ZMod.natCast_mod _ _

theorem cast_subMod {x y : Nat} (h : y < P256Spec.p) : ((subMod P256Spec.p x y : Nat) : F) = (x : F) - (y : F) := by
  rw [subMod, cast_mod, Nat.cast_sub (by omega), Nat.cast_add]
  simp

theorem cast_psub {y : Nat} (h : y ≤ P256Spec.p) : ((P256Spec.p - y : Nat) : F) = - (y : F) := by
  rw [Nat.cast_sub h]; simp

theorem cast_eq_zero {n : Nat} (h : n < P256Spec.p) : ((n : F)) = 0 ↔ n = 0 := by
  rw [ZMod.natCast_eq_zero_iff]
  constructor
  · intro hd; exact Nat.eq_zero_of_dvd_of_lt hd h
  · rintro rfl; exact dvd_zero _

theorem cast_inj' {m n : Nat} (hm : m < P256Spec.p) (hn : n < P256Spec.p) : ((m : F)) = (n : F) ↔ m = n := by
  rw [ZMod.natCast_eq_natCast_iff', Nat.mod_eq_of_lt hm, Nat.mod_eq_of_lt hn]

theorem jDouble_k (P : JPoint) {α : Type} (k : JPoint → α) : jDouble P k = k (jDouble P id) := by
  simp only [jDouble, Curves.force_eq, id]

theorem jAdd_k (P Q : JPoint) {α : Type} (k : JPoint → α) : jAdd P Q k = k (jAdd P Q id) := by
  simp only [jAdd, Curves.force_eq]
  rw [jDouble_k P k]
  repeat' split
  all_goals rfl

theorem two_ne : (2 : F) ≠ 0 := by
  have : ((2 : Nat) : F) ≠ 0 := by rw [Ne, cast_eq_zero (by decide)]; decide
  exact_mod_cast this

theorem c_a1 : curve.a₁ = 0 := rfl
theorem c_a2 : curve.a₂ = 0 := rfl
theorem c_a3 : curve.a₃ = 0 := rfl
theorem c_a4 : curve.a₄ = -3 := rfl

theorem negY_eq (x y : F) : curve.negY x y = -y := by rw [negY, c_a1, c_a3]; ring

theorem addX_eq (x x' l : F) : curve.addX x x' l = l ^ 2 - x - x' := by rw [addX, c_a1, c_a2]; ring

theorem addY_eq (x x' y l : F) : curve.addY x x' y l = -(l * ((l ^ 2 - x - x') - x) + y) := by
  rw [addY, negY_eq, negAddY, addX_eq]

theorem Rep.double {J : JPoint} {Q : curve.Point} (h : Rep J Q) : Rep (jDouble J id) (Q + Q) := by
  obtain ⟨hx, hy, hz, hp⟩ := h
  have hm := fun n => Nat.mod_lt n p_pos
  rcases hp with ⟨h0, rfl⟩ | ⟨x, y, hn, rfl, h0, ex, ey⟩
  · refine ⟨?_, ?_, ?_, .inl ⟨?_, ?_⟩⟩
    · simp only [jDouble, Curves.force_eq, id, p256_eq]; exact hm _
    · simp only [jDouble, Curves.force_eq, id, p256_eq]; exact hm _
    · simp only [jDouble, Curves.force_eq, id, p256_eq]; exact hm _
    · simp only [jDouble, Curves.force_eq, id, p256_eq, h0, Nat.mul_zero, Nat.zero_mod]
    · simp
  · have hZ : ((J.z : F)) ≠ 0 := by rwa [Ne, cast_eq_zero hz]
    by_cases hy0 : y = 0
    · have hJ : J.y = 0 := by
        rw [← cast_eq_zero hy, ey, hy0, zero_mul]
      refine ⟨?_, ?_, ?_, .inl ⟨?_, ?_⟩⟩
      · simp only [jDouble, Curves.force_eq, id, p256_eq]; exact hm _
      · simp only [jDouble, Curves.force_eq, id, p256_eq]; exact hm _
      · simp only [jDouble, Curves.force_eq, id, p256_eq]; exact hm _
      · simp only [jDouble, Curves.force_eq, id, p256_eq, hJ, Nat.mul_zero, Nat.zero_mul, Nat.zero_mod]
      · exact Point.add_self_of_Y_eq (by rw [negY_eq, hy0, neg_zero])
    · have hy2 : y ≠ curve.negY x y := by
        rw [negY_eq]
        intro e
        have : (2 : F) * y = 0 := by linear_combination e
        rcases mul_eq_zero.1 this with h | h
        · exact two_ne h
        · exact hy0 h
      have ez : ((jDouble J id).z : F) = 2 * (J.y : F) * (J.z : F) := by
        simp only [jDouble, Curves.force_eq, id, p256_eq, cast_mod]; push_cast; ring
      have eX : ((jDouble J id).x : F) = (3 * ((J.x : F) - (J.z : F) ^ 2) * ((J.x : F) + (J.z : F) ^ 2)) ^ 2 - 8 * (J.x : F) * (J.y : F) ^ 2 := by
        simp only [jDouble, Curves.force_eq, id, p256_eq]
        simp only [cast_mod, Nat.cast_add, Nat.cast_mul, cast_psub (Nat.le_of_lt (hm _)), cast_subMod (hm _)]
        push_cast
        ring
      have eY : ((jDouble J id).y : F) = (3 * ((J.x : F) - (J.z : F) ^ 2) * ((J.x : F) + (J.z : F) ^ 2)) *
          (4 * (J.x : F) * (J.y : F) ^ 2 - ((jDouble J id).x : F)) - 8 * (J.y : F) ^ 4 := by
        rw [eX]
        simp only [jDouble, Curves.force_eq, id, p256_eq]
        simp only [cast_mod, Nat.cast_add, Nat.cast_mul, cast_psub (Nat.le_of_lt (hm _)), cast_subMod (hm _)]
        push_cast
        ring
      have eZ : ((jDouble J id).z : F) ≠ 0 := by
        rw [ez, ey]
        exact mul_ne_zero (mul_ne_zero two_ne (mul_ne_zero hy0 (pow_ne_zero _ hZ))) hZ
      have hzlt : (jDouble J id).z < P256Spec.p := by simp only [jDouble, Curves.force_eq, id, p256_eq]; exact hm _
      have esl : curve.slope x x y y = (3 * x ^ 2 - 3) / (2 * y) := by
        rw [slope_of_Y_ne rfl hy2, negY_eq, c_a1, c_a2, c_a4,
          show (3 * x ^ 2 + 2 * 0 * x + -3 - 0 * y : F) = 3 * x ^ 2 - 3 by ring, show y - -y = 2 * y by ring]
      refine ⟨?_, ?_, hzlt, .inr ⟨_, _, _, Point.add_self_of_Y_ne hy2, ?_, ?_, ?_⟩⟩
      · simp only [jDouble, Curves.force_eq, id, p256_eq]; exact hm _
      · simp only [jDouble, Curves.force_eq, id, p256_eq]; exact hm _
      · rwa [Ne, ← cast_eq_zero hzlt]
      · rw [eX, ez, addX_eq, esl, ex, ey]
        have := two_ne
        field_simp
        ring
      · rw [eY, eX, ez, addY_eq, esl, ex, ey]
        have := two_ne
        field_simp
        ring

theorem Rep.add {J K : JPoint} {P Q : curve.Point} (hJ : Rep J P) (hK : Rep K Q) : Rep (jAdd J K id) (P + Q) := by
  have hm := fun n => Nat.mod_lt n p_pos
  rcases hJ.pt with ⟨hz, rfl⟩ | ⟨x₁, y₁, hn₁, rfl, hz₁, ex₁, ey₁⟩
  · rw [jAdd, if_pos hz, zero_add]; exact hK
  rcases hK.pt with ⟨hz, rfl⟩ | ⟨x₂, y₂, hn₂, rfl, hz₂, ex₂, ey₂⟩
  · rw [jAdd, if_neg hz₁, if_pos hz, add_zero]; exact hJ
  have hZ₁ : ((J.z : F)) ≠ 0 := by rwa [Ne, cast_eq_zero hJ.z]
  have hZ₂ : ((K.z : F)) ≠ 0 := by rwa [Ne, cast_eq_zero hK.z]
  have cx : (J.x * (K.z * K.z % P256Spec.p) % P256Spec.p = K.x * (J.z * J.z % P256Spec.p) % P256Spec.p) ↔ x₁ = x₂ := by
    rw [← cast_inj' (hm _) (hm _)]
    simp only [cast_mod, Nat.cast_mul, ex₁, ex₂]
    constructor
    · intro e
      have : (x₁ - x₂) * ((J.z : F) ^ 2 * (K.z : F) ^ 2) = 0 := by linear_combination e
      rcases mul_eq_zero.1 this with h | h
      · exact sub_eq_zero.1 h
      · exact absurd h (mul_ne_zero (pow_ne_zero _ hZ₁) (pow_ne_zero _ hZ₂))
    · rintro rfl; ring
  have cy : (J.y * (K.z * K.z % P256Spec.p) % P256Spec.p * K.z % P256Spec.p =
      K.y * (J.z * J.z % P256Spec.p) % P256Spec.p * J.z % P256Spec.p) ↔ y₁ = y₂ := by
    rw [← cast_inj' (hm _) (hm _)]
    simp only [cast_mod, Nat.cast_mul, ey₁, ey₂]
    constructor
    · intro e
      have : (y₁ - y₂) * ((J.z : F) ^ 3 * (K.z : F) ^ 3) = 0 := by linear_combination e
      rcases mul_eq_zero.1 this with h | h
      · exact sub_eq_zero.1 h
      · exact absurd h (mul_ne_zero (pow_ne_zero _ hZ₁) (pow_ne_zero _ hZ₂))
    · rintro rfl; ring
  by_cases hx : x₁ = x₂
  · by_cases hy : y₁ = y₂
    · have : jAdd J K id = jDouble J id := by
        simp only [jAdd, Curves.force_eq, p256_eq, if_neg hz₁, if_neg hz₂, if_pos (cx.2 hx), if_pos (cy.2 hy)]
      rw [this]
      subst hx hy
      exact hJ.double
    · have : jAdd J K id = ⟨1, 1, 0⟩ := by
        simp only [jAdd, Curves.force_eq, p256_eq, if_neg hz₁, if_neg hz₂, if_pos (cx.2 hx), if_neg (mt cy.1 hy), id]
      rw [this]
      refine ⟨by decide, by decide, by decide, .inl ⟨rfl, ?_⟩⟩
      exact Point.add_of_Y_eq hx ((Y_eq_of_X_eq hn₁.1 hn₂.1 hx).resolve_left hy)
  · have e : jAdd J K id =
        let p := P256Spec.p
        let z1 := J.z * J.z % p
        let z2 := K.z * K.z % p
        let u1 := J.x * z2 % p
        let u2 := K.x * z1 % p
        let s1 := J.y * z2 % p * K.z % p
        let s2 := K.y * z1 % p * J.z % p
        let h := subMod p u2 u1
        let r := subMod p s2 s1
        let h2 := h * h % p
        let h3 := h * h2 % p
        let v := u1 * h2 % p
        let x := (r * r + (p - h3) + 2 * (p - v)) % p
        ⟨x, (r * subMod p v x + (p - s1 * h3 % p)) % p, h * J.z % p * K.z % p⟩ := by
      simp only [jAdd, Curves.force_eq, p256_eq, if_neg hz₁, if_neg hz₂, if_neg (mt cx.1 hx), id]
    have ez : ((jAdd J K id).z : F) = ((K.x : F) * (J.z : F) ^ 2 - (J.x : F) * (K.z : F) ^ 2) * (J.z : F) * (K.z : F) := by
      rw [e]
      simp only [cast_mod, Nat.cast_mul, cast_subMod (hm _)]
      ring
    have eX : ((jAdd J K id).x : F) = ((K.y : F) * (J.z : F) ^ 3 - (J.y : F) * (K.z : F) ^ 3) ^ 2 -
        ((K.x : F) * (J.z : F) ^ 2 - (J.x : F) * (K.z : F) ^ 2) ^ 3 -
        2 * ((J.x : F) * (K.z : F) ^ 2) * ((K.x : F) * (J.z : F) ^ 2 - (J.x : F) * (K.z : F) ^ 2) ^ 2 := by
      rw [e]
      simp only [cast_mod, Nat.cast_add, Nat.cast_mul, cast_subMod (hm _), cast_psub (Nat.le_of_lt (hm _))]
      push_cast
      ring
    have eY : ((jAdd J K id).y : F) = ((K.y : F) * (J.z : F) ^ 3 - (J.y : F) * (K.z : F) ^ 3) *
        ((J.x : F) * (K.z : F) ^ 2 * ((K.x : F) * (J.z : F) ^ 2 - (J.x : F) * (K.z : F) ^ 2) ^ 2 - ((jAdd J K id).x : F)) -
        (J.y : F) * (K.z : F) ^ 3 * ((K.x : F) * (J.z : F) ^ 2 - (J.x : F) * (K.z : F) ^ 2) ^ 3 := by
      rw [eX, e]
      simp only [cast_mod, Nat.cast_add, Nat.cast_mul, cast_subMod (hm _), cast_psub (Nat.le_of_lt (hm _))]
      push_cast
      ring
    have hd : x₂ - x₁ ≠ 0 := sub_ne_zero.2 (Ne.symm hx)
    have hd' : x₁ - x₂ ≠ 0 := sub_ne_zero.2 hx
    have ez' : ((jAdd J K id).z : F) = (x₂ - x₁) * (J.z : F) ^ 3 * (K.z : F) ^ 3 := by rw [ez, ex₁, ex₂]; ring
    have eZ : ((jAdd J K id).z : F) ≠ 0 := by
      rw [ez']
      exact mul_ne_zero (mul_ne_zero hd (pow_ne_zero _ hZ₁)) (pow_ne_zero _ hZ₂)
    have hzlt : (jAdd J K id).z < P256Spec.p := by rw [e]; exact hm _
    have esl : curve.slope x₁ x₂ y₁ y₂ = (y₂ - y₁) / (x₂ - x₁) := by
      rw [slope_of_X_ne hx, ← neg_sub y₂, ← neg_sub x₂, neg_div_neg_eq]
    refine ⟨by rw [e]; exact hm _, by rw [e]; exact hm _, hzlt, .inr ⟨_, _, _, Point.add_of_X_ne hx, ?_, ?_, ?_⟩⟩
    · rwa [Ne, ← cast_eq_zero hzlt]
    · rw [eX, ez', addX_eq, esl, ex₁, ex₂, ey₁, ey₂]
      field_simp
      ring
    · rw [eY, eX, ez', addY_eq, esl, ex₁, ex₂, ey₁, ey₂]
      field_simp
      ring

theorem Rep.mul {J : JPoint} {P : curve.Point} (hJ : Rep J P) (s : Nat) : ∀ (n : Nat) {K : JPoint} {m : Nat},
    Rep K (m • P) → Rep (jMul s J n K) ((m * 2 ^ n + s % 2 ^ n) • P)
  | 0, K, m, hK => by simpa [jMul, Nat.mod_one] using hK
  | n + 1, K, m, hK => by
    rw [jMul, jDouble_k]
    have hD := hK.double
    rw [← add_smul] at hD
    by_cases hb : s.testBit n = true
    · rw [if_pos hb, jAdd_k]
      have hA := hD.add hJ
      rw [← succ_nsmul] at hA
      have := Rep.mul hJ s n hA
      have e : (m + m + 1) * 2 ^ n + s % 2 ^ n = m * 2 ^ (n + 1) + s % 2 ^ (n + 1) := by
        rw [Nat.testBit_eq_decide_div_mod_eq, decide_eq_true_eq] at hb
        rw [Nat.mod_pow_succ, hb, pow_succ]; ring
      rwa [e] at this
    · rw [if_neg hb]
      have := Rep.mul hJ s n hD
      have e : (m + m) * 2 ^ n + s % 2 ^ n = m * 2 ^ (n + 1) + s % 2 ^ (n + 1) := by
        rw [Nat.testBit_eq_decide_div_mod_eq, decide_eq_true_eq] at hb
        have hb' : s / 2 ^ n % 2 = 0 := by omega
        rw [Nat.mod_pow_succ, hb', pow_succ]; ring
      rwa [e] at this

/-- the double-and-add loop computes the multiple of the point -/
theorem Rep.smul {J : JPoint} {P : curve.Point} (hJ : Rep J P) {s : Nat} (hs : s < 2 ^ 256) : Rep (jSmul s J) (s • P) := by
  have h0 : Rep ⟨1, 1, 0⟩ ((0 : Nat) • P) := ⟨by decide, by decide, by decide, .inl ⟨rfl, zero_nsmul _⟩⟩
  have := hJ.mul s 256 h0
  rwa [Nat.zero_mul, Nat.zero_add, Nat.mod_eq_of_lt hs] at this

end Verif.P256
