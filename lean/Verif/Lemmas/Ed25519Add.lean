import Verif.Lemmas.Ed25519Group
namespace Verif.C25519
open WeierstrassCurve.Affine Verif.Curves

theorem On.rel {x y : K} (o : On x y) : 4 * (x ^ 2 * y ^ 2) = sC ^ 2 * ((1 - y ^ 2) * (1 + x ^ 2)) := by
  unfold On at o
  have h := sC_d
  linear_combination (sC ^ 2) * o + (x ^ 2 * y ^ 2) * h

theorem add_double {x y x₃ y₃ u v X V l : K} (o : On x y)
    (e₁ : x₃ * (1 + d * x * x * y * y) = x * y + x * y) (e₂ : y₃ * (1 - d * x * x * y * y) = y * y + x * x)
    (q : v ^ 2 = u ^ 3 + 486662 * u ^ 2 + u)
    (a : u * (1 - y) = 1 + y) (b : v * x = sC * u) (hv : v ≠ 0)
    (hl : l * (2 * v) = 3 * u ^ 2 + 973324 * u + 1) (hX : X = l ^ 2 - 486662 - u - u)
    (hV : V = -(l * (X - u) + v)) : X * (1 - y₃) = 1 + y₃ ∧ V * x₃ = sC * X := by
  obtain ⟨n1, n2⟩ := den_ne o o
  have m := EPt.y_ne (x := x) a
  have rel := o.rel
  have hx : x ≠ 0 := by
    rintro rfl
    have hu : u = 0 := (mul_eq_zero.1 (by rw [← b]; ring : sC * u = 0)).resolve_left sC_ne
    rw [hu] at q
    exact hv (pow_eq_zero_iff two_ne_zero |>.1 (by rw [q]; ring))
  have hy : y + 1 ≠ 0 := by
    intro h; exact hx (o.y_one (by linear_combination (y - 1) * h))
  have hu : u ≠ 0 := by rintro rfl; exact hy (by linear_combination -a)
  have hA : (486662 : K) = -sC ^ 2 - 2 := by rw [sC_sq]; norm_num
  have hy2 : 1 - y ^ 2 ≠ 0 := by
    rw [show 1 - y ^ 2 = (1 - y) * (y + 1) by ring]; exact mul_ne_zero m hy
  have D1 : d * x * x * y * y = y ^ 2 - x ^ 2 - 1 := by unfold On at o; linear_combination -o
  rw [D1] at e₁ e₂ n1 n2
  have X1 : X * (4 * v ^ 2) = (u ^ 2 - 1) ^ 2 := by
    have : X * (4 * v ^ 2) = (l * (2 * v)) ^ 2 - (486662 + 2 * u) * (4 * v ^ 2) := by rw [hX]; ring
    rw [this, hl, q]; ring
  have X2 : X * (1 - y ^ 2) = 1 + x ^ 2 := by
    have t1 : X * (4 * (sC ^ 2 * (1 - y ^ 2) ^ 2)) = 16 * (x ^ 2 * y ^ 2) := by
      have s1 : (1 - y) ^ 2 * (u ^ 2 - 1) = 4 * y := by linear_combination (u * (1 - y) + (1 + y)) * a
      have s2 : X * (4 * (v * x) ^ 2) * (1 - y) ^ 4 = 16 * (x ^ 2 * y ^ 2) := by
        have : X * (4 * (v * x) ^ 2) * (1 - y) ^ 4 = (X * (4 * v ^ 2)) * x ^ 2 * (1 - y) ^ 4 := by ring
        rw [this, X1]
        linear_combination (x ^ 2 * ((1 - y) ^ 2 * (u ^ 2 - 1) + 4 * y)) * s1
      rw [b] at s2
      have s3 : X * (4 * (sC * u) ^ 2) * (1 - y) ^ 4 = X * (4 * (sC ^ 2 * ((u * (1 - y)) * (1 - y)) ^ 2)) := by ring
      rw [s3, a] at s2
      linear_combination s2
    have ns : 4 * sC ^ 2 * (1 - y ^ 2) ≠ 0 := mul_ne_zero (mul_ne_zero four_ne (pow_ne_zero _ sC_ne)) hy2
    apply mul_left_cancel₀ ns
    linear_combination t1 + 4 * rel
  have R1 : X * (1 - y₃) = 1 + y₃ := by
    apply mul_left_cancel₀ (mul_ne_zero n2 hy2)
    have t : (1 - (y ^ 2 - x ^ 2 - 1)) * (1 - y ^ 2) * (X * (1 - y₃)) =
      (X * (1 - y ^ 2)) * ((1 - (y ^ 2 - x ^ 2 - 1)) - y₃ * (1 - (y ^ 2 - x ^ 2 - 1))) := by ring
    rw [t, X2, e₂]
    have t2 : (1 - (y ^ 2 - x ^ 2 - 1)) * (1 - y ^ 2) * (1 + y₃) =
       (1 - y ^ 2) * ((1 - (y ^ 2 - x ^ 2 - 1)) + y₃ * (1 - (y ^ 2 - x ^ 2 - 1))) := by ring
    rw [t2, e₂]; ring
  refine ⟨R1, ?_⟩
  apply mul_left_cancel₀ n1
  have t : (1 + (y ^ 2 - x ^ 2 - 1)) * (V * x₃) = V * (x * y + x * y) := by rw [← e₁]; ring
  rw [t]
  apply mul_left_cancel₀ (mul_ne_zero hv hx)
  have V1 : V * (2 * v) = -((3 * u ^ 2 + 973324 * u + 1) * (X - u) + 2 * (u ^ 3 + 486662 * u ^ 2 + u)) := by
    rw [hV, ← hl, ← q]; ring
  have t3 : v * x * (V * (x * y + x * y)) = x ^ 2 * y * (V * (2 * v)) := by ring
  have t4 : v * x * ((1 + (y ^ 2 - x ^ 2 - 1)) * (sC * X)) = sC ^ 2 * u * (X * (y ^ 2 - x ^ 2)) := by
    rw [b]; ring
  rw [t3, t4, V1]
  have hA2 : (973324 : K) = 2 * (-sC ^ 2 - 2) := by rw [← hA]; norm_num
  rw [hA2, hA]
  generalize sC ^ 2 = S at *
  apply mul_left_cancel₀ (mul_ne_zero (pow_ne_zero 3 m) hy2)
  clear t3 t4 V1 hA2 hA t hV hX hl X1 q b hv R1 e₁ e₂ n1 n2 D1 hx o
  have hU : u = (1 + y) / (1 - y) := by rw [eq_div_iff m]; exact a
  have hXX : X = (1 + x ^ 2) / (1 - y ^ 2) := by rw [eq_div_iff hy2]; exact X2
  subst hU
  subst hXX
  field_simp
  clear hy X2 hu a m
  grind

/-- adding (0, -1), the point (0, 0) of Curve25519 -/
theorem add_T {x₂ y₂ x₃ y₃ u₂ v₂ X V l : K}
    (e₁ : x₃ = -x₂) (e₂ : y₃ = -y₂)
    (q₂ : v₂ ^ 2 = u₂ ^ 3 + 486662 * u₂ ^ 2 + u₂)
    (a₂ : u₂ * (1 - y₂) = 1 + y₂) (b₂ : v₂ * x₂ = sC * u₂)
    (hu : u₂ ≠ 0) (hl : l * u₂ = v₂) (hX : X = l ^ 2 - 486662 - u₂)
    (hV : V = -(l * X)) : X * (1 - y₃) = 1 + y₃ ∧ V * x₃ = sC * X := by
  have h1 : X * u₂ = 1 := by
    apply mul_left_cancel₀ hu
    have : u₂ * (X * u₂) = (l * u₂) ^ 2 - (486662 + u₂) * u₂ ^ 2 := by rw [hX]; ring
    rw [this, hl, q₂]; ring
  have hX0 : X ≠ 0 := by rintro rfl; simp at h1
  subst e₁ e₂
  constructor
  · apply mul_left_cancel₀ hu
    linear_combination (1 + y₂) * h1 - a₂
  · apply mul_left_cancel₀ hu
    have : u₂ * (V * -x₂) = X * ((l * u₂) * x₂) := by rw [hV]; ring
    rw [this, hl, b₂]; ring

theorem y_of_u {u y y' : K} (h : u * (1 - y) = 1 + y) (h' : u * (1 - y') = 1 + y') : y = y' := by
  have hu : u + 1 ≠ 0 := by
    intro h0
    exact two_ne (by linear_combination (-1 : K) * h + (1 - y) * h0)
  apply mul_left_cancel₀ hu
  linear_combination h' - h

theorem On.pm {x x' y : K} (o : On x y) (o' : On x' y) : x = x' ∨ x = -x' := by
  unfold On at o o'
  have hn : 1 + d * y ^ 2 ≠ 0 := by
    intro h
    apply one_d_ne
    have : y ^ 2 = 1 := by linear_combination o + x ^ 2 * h
    rw [this] at h
    linear_combination h
  have : (x - x') * (x + x') * (1 + d * y ^ 2) = 0 := by linear_combination o' - o
  rcases mul_eq_zero.1 this with h | h
  · rcases mul_eq_zero.1 h with h | h
    · left; linear_combination h
    · right; linear_combination h
  · exact absurd h hn

/-- the addition of edwards25519 is the group law -/
theorem EPt.add {x₁ y₁ x₂ y₂ x₃ y₃ : K} {P Q : curve.Point} (hP : EPt x₁ y₁ P) (hQ : EPt x₂ y₂ Q)
    (e₁ : x₃ * (1 + d * x₁ * x₂ * y₁ * y₂) = x₁ * y₂ + x₂ * y₁) (e₂ : y₃ * (1 - d * x₁ * x₂ * y₁ * y₂) = y₁ * y₂ + x₁ * x₂) :
    EPt x₃ y₃ (P + Q) := by
  have o₃ := On.add hP.1 hQ.1 e₁ e₂
  obtain ⟨o₁, hP⟩ := hP
  obtain ⟨o₂, hQ⟩ := hQ
  rcases hP with ⟨rfl, rfl, rfl⟩ | ⟨u₁, v₁, n₁, rfl, a₁, b₁⟩
  · have hx : x₃ = x₂ := by linear_combination e₁
    have hy : y₃ = y₂ := by linear_combination e₂
    subst hx hy
    rw [zero_add]; exact ⟨o₂, hQ⟩
  · rcases hQ with ⟨rfl, rfl, rfl⟩ | ⟨u₂, v₂, n₂, rfl, a₂, b₂⟩
    · have hx : x₃ = x₁ := by linear_combination e₁
      have hy : y₃ = y₁ := by linear_combination e₂
      subst hx hy
      rw [add_zero]; exact ⟨o₁, .inr ⟨_, _, n₁, rfl, a₁, b₁⟩⟩
    · have q₁ := (eqn _ _).1 n₁.1
      have q₂ := (eqn _ _).1 n₂.1
      by_cases hu : u₁ = u₂
      · subst hu
        have hy := y_of_u a₁ a₂
        subst hy
        by_cases hv : v₁ = -v₂
        · -- inverse points
          rw [Point.add_of_Y_eq rfl (by rw [negY_eq]; exact hv)]
          refine ⟨o₃, .inl ⟨rfl, ?_⟩⟩
          have hx : x₁ = -x₂ := by
            rcases o₁.pm o₂ with h | h
            · subst h
              have h2 : (2 : K) * (sC * u₁) = 0 := by rw [hv] at b₁; linear_combination -b₁ - b₂
              have hu0 : u₁ = 0 := (mul_eq_zero.1 ((mul_eq_zero.1 h2).resolve_left two_ne)).resolve_left sC_ne
              have hy1 : y₁ = -1 := by rw [hu0] at a₁; linear_combination -a₁
              rw [o₁.y_one (by rw [hy1]; ring)]; ring
            · exact h
          obtain ⟨m1, m2⟩ := den_ne o₁ o₂
          subst hx
          unfold On at o₂
          constructor
          · apply mul_right_cancel₀ m1
            rw [e₁]; ring
          · apply mul_right_cancel₀ m2
            rw [e₂]; linear_combination o₂
        · have hv2 : v₁ = v₂ := by
            have : (v₁ - v₂) * (v₁ + v₂) = 0 := by linear_combination q₁ - q₂
            rcases mul_eq_zero.1 this with h | h
            · linear_combination h
            · exact absurd (by linear_combination h) hv
          subst hv2
          have hv0 : v₁ ≠ 0 := by rintro rfl; exact hv (by ring)
          have hx : x₁ = x₂ := by apply mul_left_cancel₀ hv0; rw [b₁, b₂]
          subst hx
          have hY : v₁ ≠ curve.negY u₁ v₁ := by rw [negY_eq]; exact hv
          have hs : curve.slope u₁ u₁ v₁ v₁ * (2 * v₁) = 3 * u₁ ^ 2 + 973324 * u₁ + 1 := by
            rw [slope_of_Y_ne rfl hY, negY_eq, c_a1, c_a2, c_a4, show v₁ - -v₁ = 2 * v₁ by ring,
              div_mul_cancel₀ _ (mul_ne_zero two_ne hv0)]
            ring
          rw [Point.add_self_of_Y_ne hY]
          obtain ⟨r1, r2⟩ := add_double o₁ e₁ e₂ q₁ a₁ b₁ hv0 hs (addX_eq _ _ _)
            (V := curve.addY u₁ u₁ v₁ (curve.slope u₁ u₁ v₁ v₁)) (by rw [addY_eq, addX_eq])
          exact EPt.finish o₃ r1 r2
      · rw [Point.add_of_X_ne hu]
        have hd : u₁ - u₂ ≠ 0 := sub_ne_zero.2 hu
        have hs : curve.slope u₁ u₂ v₁ v₂ * (u₁ - u₂) = v₁ - v₂ := by
          rw [slope_of_X_ne hu, div_mul_cancel₀ _ hd]
        by_cases hx₁ : x₁ = 0
        · subst hx₁
          have h0 : u₁ = 0 := (mul_eq_zero.1 (by rw [← b₁]; ring : sC * u₁ = 0)).resolve_left sC_ne
          subst h0
          have hv0 : v₁ = 0 := pow_eq_zero_iff two_ne_zero |>.1 (by rw [q₁]; ring)
          subst hv0
          have hy : y₁ = -1 := by linear_combination -a₁
          subst hy
          obtain ⟨r1, r2⟩ := add_T (x₃ := x₃) (y₃ := y₃) (l := curve.slope 0 u₂ 0 v₂) (by linear_combination e₁) (by linear_combination e₂) q₂ a₂ b₂ (Ne.symm hu)
            (by linear_combination -hs) (X := curve.addX 0 u₂ (curve.slope 0 u₂ 0 v₂)) (by rw [addX_eq]; ring)
            (V := curve.addY 0 u₂ 0 (curve.slope 0 u₂ 0 v₂)) (by rw [addY_eq, addX_eq]; ring)
          exact EPt.finish o₃ r1 r2
        · by_cases hx₂ : x₂ = 0
          · subst hx₂
            have h0 : u₂ = 0 := (mul_eq_zero.1 (by rw [← b₂]; ring : sC * u₂ = 0)).resolve_left sC_ne
            subst h0
            have hv0 : v₂ = 0 := pow_eq_zero_iff two_ne_zero |>.1 (by rw [q₂]; ring)
            subst hv0
            have hy : y₂ = -1 := by linear_combination -a₂
            subst hy
            have hs' : curve.slope u₁ 0 v₁ 0 * u₁ = v₁ := by linear_combination hs
            obtain ⟨r1, r2⟩ := add_T (x₃ := x₃) (y₃ := y₃) (l := curve.slope u₁ 0 v₁ 0) (by linear_combination e₁) (by linear_combination e₂) q₁ a₁ b₁ hu
              hs' (X := curve.addX u₁ 0 (curve.slope u₁ 0 v₁ 0)) (by rw [addX_eq]; ring)
              (V := curve.addY u₁ 0 v₁ (curve.slope u₁ 0 v₁ 0)) (by rw [addY_eq, addX_eq]; linear_combination hs')
            exact EPt.finish o₃ r1 r2
          · obtain ⟨r1, r2⟩ := add_generic o₁ o₂ e₁ e₂ q₁ q₂ a₁ b₁ a₂ b₂ hu hx₁ hx₂ hs (addX_eq _ _ _)
              (V := curve.addY u₁ u₂ v₁ (curve.slope u₁ u₂ v₁ v₂)) (by rw [addY_eq, addX_eq])
            exact EPt.finish o₃ r1 r2

end Verif.C25519
