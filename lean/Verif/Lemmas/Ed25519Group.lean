import Verif.Lemmas.X25519Ladder
import Mathlib.NumberTheory.LegendreSymbol.Basic
/-
Ed25519's curve as written out in `Spec/Curves` (RFC 8032) is Curve25519: the birational map of RFC 7748, 4.1
takes the addition of edwards25519 to the group law.
-/
namespace Verif.C25519
open WeierstrassCurve.Affine Verif.Curves

/-- edwards25519's d -/
def d : K := (edD : K)
/-- a square root of -1 -/
def im : K := (edI : K)
/-- a square root of -486664 -/
def sC : K := ((51042569399160536130206135233146329284152202253034631822681833788666877215207 : Nat) : K)

theorem d_eq : 121666 * d = -121665 := by
  have : ((121666 * edD + 121665 : Nat) : K) = 0 := by
    rw [ZMod.natCast_eq_zero_iff]; decide +kernel
  push_cast at this
  unfold d
  linear_combination this

theorem im_sq : im ^ 2 = -1 := by
  have : ((edI ^ 2 + 1 : Nat) : K) = 0 := by
    rw [ZMod.natCast_eq_zero_iff]; decide +kernel
  push_cast at this
  unfold im
  linear_combination this

theorem sC_sq : sC ^ 2 = -486664 := by
  have : ((51042569399160536130206135233146329284152202253034631822681833788666877215207 ^ 2 + 486664 : Nat) : K) = 0 := by
    rw [ZMod.natCast_eq_zero_iff]; decide +kernel
  push_cast at this
  unfold sC
  push_cast
  linear_combination this

theorem sC_d : sC ^ 2 * (1 + d) = -4 := by
  have h : (121666 : K) ≠ 0 := by exact_mod_cast num_ne (n := 121666) (by decide) (by decide)
  apply mul_left_cancel₀ h
  rw [sC_sq]
  linear_combination (-486664 : K) * d_eq

theorem sC_ne : sC ≠ 0 := by
  intro h
  have := sC_d
  rw [h] at this
  exact four_ne (by linear_combination this)

theorem one_d_ne : 1 + d ≠ 0 := by
  intro h
  have := sC_d
  rw [h] at this
  exact four_ne (by linear_combination this)

/-- d is not a square -/
theorem d_nonsq : ¬ IsSquare d := by
  have h0 : d ≠ 0 := num_ne (by decide +kernel) (by decide +kernel)
  rw [ZMod.euler_criterion p25519 h0]
  have e : ((Curves.powMod p25519 256 edD (p25519 / 2) 1 : Nat) : K) = d ^ (p25519 / 2) := by
    rw [P256.powMod_cast _ _ _ _ _ (by decide), Nat.cast_one, one_mul]; rfl
  rw [← e]
  have : Curves.powMod p25519 256 edD (p25519 / 2) 1 = p25519 - 1 := by decide +kernel
  rw [this]
  intro h
  have h1 : ((p25519 - 1 : Nat) : K) = ((1 : Nat) : K) := by rw [h, Nat.cast_one]
  rw [cast_inj' (by decide) (by decide)] at h1
  exact absurd h1 (by decide)

/-- an affine point of edwards25519 -/
def On (x y : K) : Prop := -x ^ 2 + y ^ 2 = 1 + d * x ^ 2 * y ^ 2

/-- the addition law is complete -/
theorem complete {x₁ y₁ x₂ y₂ ε : K} (h₁ : On x₁ y₁) (h₂ : On x₂ y₂) (hε : ε ^ 2 = 1) : d * x₁ * x₂ * y₁ * y₂ ≠ ε := by
  intro h
  have hi := im_sq
  unfold On at h₁ h₂
  have h0 : ε ≠ 0 := by rintro rfl; simp at hε
  have hx : x₁ * y₁ ≠ 0 := by
    intro h'
    apply h0
    rw [← h]
    linear_combination (d * x₂ * y₂) * h'
  -- the two squares
  have key : ∀ t : K, t ^ 2 = 1 → (im * x₁ + ε * t * y₁) ^ 2 = -d * (im * x₁ * y₁ * (im * x₂ + t * y₂)) ^ 2 := by
    intro t ht
    have e1 : (im * x₁ + ε * t * y₁) ^ 2 - (-d * (im * x₁ * y₁ * (im * x₂ + t * y₂)) ^ 2) =
        0 := by
      have hd : d * x₁ * x₂ * y₁ * y₂ = ε := h
      grind
    linear_combination e1
  have nsq : ∀ t : K, t ^ 2 = 1 → im * x₂ + t * y₂ = 0 := by
    intro t ht
    by_contra hc
    apply d_nonsq
    have hne : im * x₁ * y₁ * (im * x₂ + t * y₂) ≠ 0 := by
      have : im ≠ 0 := by
        intro h; rw [h] at hi; norm_num at hi
      rw [mul_assoc im]
      exact mul_ne_zero (mul_ne_zero this hx) hc
    refine ⟨im * (im * x₁ + ε * t * y₁) / (im * x₁ * y₁ * (im * x₂ + t * y₂)), ?_⟩
    rw [div_mul_div_comm, eq_div_iff (mul_ne_zero hne hne)]
    linear_combination key t ht + (-(im * x₁ + ε * t * y₁) ^ 2) * hi
  have a1 := nsq 1 (by ring)
  have a2 := nsq (-1) (by ring)
  have hy2 : y₂ = 0 := by
    have : (2 : K) * y₂ = 0 := by linear_combination a1 - a2
    rcases mul_eq_zero.1 this with h | h
    · exact absurd h two_ne
    · exact h
  apply h0
  rw [← h, hy2]; ring

/-- the map of RFC 7748, 4.1: u = (1 + y) / (1 - y), v = sqrt(-486664) u / x -/
def EPt (x y : K) (Q : curve.Point) : Prop :=
  On x y ∧ ((Q = 0 ∧ x = 0 ∧ y = 1) ∨ ∃ u v h, Q = .some u v h ∧ u * (1 - y) = 1 + y ∧ v * x = sC * u)

theorem den_ne {x₁ y₁ x₂ y₂ : K} (h₁ : On x₁ y₁) (h₂ : On x₂ y₂) :
    1 + d * x₁ * x₂ * y₁ * y₂ ≠ 0 ∧ 1 - d * x₁ * x₂ * y₁ * y₂ ≠ 0 := by
  constructor
  · intro h
    exact complete h₁ h₂ (ε := -1) (by ring) (by linear_combination h)
  · intro h
    exact complete h₁ h₂ (ε := 1) (by ring) (by linear_combination -h)

/-- the sum of two points is a point -/
theorem On.add {x₁ y₁ x₂ y₂ x₃ y₃ : K} (h₁ : On x₁ y₁) (h₂ : On x₂ y₂) (e₁ : x₃ * (1 + d * x₁ * x₂ * y₁ * y₂) = x₁ * y₂ + x₂ * y₁)
    (e₂ : y₃ * (1 - d * x₁ * x₂ * y₁ * y₂) = y₁ * y₂ + x₁ * x₂) : On x₃ y₃ := by
  obtain ⟨n1, n2⟩ := den_ne h₁ h₂
  unfold On at *
  generalize hD : d * x₁ * x₂ * y₁ * y₂ = D at *
  have n : ((1 + D) * (1 - D)) ^ 2 ≠ 0 := pow_ne_zero _ (mul_ne_zero n1 n2)
  apply mul_left_cancel₀ n
  have a1 : ((1 + D) * (1 - D)) ^ 2 * (-x₃ ^ 2 + y₃ ^ 2) = -(x₁ * y₂ + x₂ * y₁) ^ 2 * (1 - D) ^ 2 + (y₁ * y₂ + x₁ * x₂) ^ 2 * (1 + D) ^ 2 := by
    rw [← e₁, ← e₂]; ring
  have a2 : ((1 + D) * (1 - D)) ^ 2 * (1 + d * x₃ ^ 2 * y₃ ^ 2) = ((1 + D) * (1 - D)) ^ 2 + d * (x₁ * y₂ + x₂ * y₁) ^ 2 * (y₁ * y₂ + x₁ * x₂) ^ 2 := by
    rw [← e₁, ← e₂]; ring
  rw [a1, a2, ← hD]
  clear a1 a2 n n1 n2 e₁ e₂ hD
  grind

theorem EPt.y_ne {x y u : K} (h : u * (1 - y) = 1 + y) : 1 - y ≠ 0 := by
  intro h0
  have hy : y = 1 := by linear_combination -h0
  rw [hy] at h
  exact two_ne (by linear_combination -h)

theorem On.x_zero {y : K} (h : On 0 y) : y = 1 ∨ y = -1 := by
  unfold On at h
  have : (y - 1) * (y + 1) = 0 := by linear_combination h
  rcases mul_eq_zero.1 this with h | h
  · left; linear_combination h
  · right; linear_combination h

theorem On.y_one {x : K} {y : K} (h : On x y) (hy : y ^ 2 = 1) : x = 0 := by
  unfold On at h
  have : x ^ 2 * (1 + d) = 0 := by linear_combination (-1 : K) * h + (1 - d * x ^ 2) * hy
  rcases mul_eq_zero.1 this with h | h
  · exact pow_eq_zero_iff two_ne_zero |>.1 h
  · exact absurd h one_d_ne

/-- the u-coordinate determines y, both coordinates x -/
theorem EPt.inj {x y x' y' : K} {Q : curve.Point} (h : EPt x y Q) (h' : EPt x' y' Q) : x = x' ∧ y = y' := by
  obtain ⟨o, h⟩ := h
  obtain ⟨o', h'⟩ := h'
  rcases h with ⟨rfl, rfl, rfl⟩ | ⟨u, v, hn, rfl, e1, e2⟩
  · rcases h' with ⟨_, rfl, rfl⟩ | ⟨u, v, hn, hQ, _⟩
    · exact ⟨rfl, rfl⟩
    · exact absurd hQ.symm (Point.some_ne_zero _)
  · rcases h' with ⟨hQ, _⟩ | ⟨u', v', hn', hQ, e3, e4⟩
    · exact absurd hQ (Point.some_ne_zero _)
    · injection hQ with hu hv
      subst hu hv
      have hy : y = y' := by
        have hu : u + 1 ≠ 0 := by
          intro h
          exact two_ne (by linear_combination (-1 : K) * e1 + (1 - y) * h)
        apply mul_left_cancel₀ hu
        linear_combination e3 - e1
      refine ⟨?_, hy⟩
      subst hy
      by_cases hv : v = 0
      · rw [hv, zero_mul] at e2
        have hu : u = 0 := (mul_eq_zero.1 e2.symm).resolve_left sC_ne
        have hy : y = -1 := by rw [hu] at e1; linear_combination -e1
        rw [o.y_one (by rw [hy]; ring), o'.y_one (by rw [hy]; ring)]
      · apply mul_left_cancel₀ hv
        rw [e2, e4]

/-- a point with the right coordinates -/
theorem EPt.finish {x y u v : K} {h : curve.Nonsingular u v} (o : On x y) (e1 : u * (1 - y) = 1 + y) (e2 : v * x = sC * u) :
    EPt x y (.some u v h) := ⟨o, .inr ⟨u, v, h, rfl, e1, e2⟩⟩

/-- addition of different points, none of them (0, -1) -/
theorem add_generic {x₁ y₁ x₂ y₂ x₃ y₃ u₁ v₁ u₂ v₂ X V l : K} (o₁ : On x₁ y₁) (o₂ : On x₂ y₂)
    (e₁ : x₃ * (1 + d * x₁ * x₂ * y₁ * y₂) = x₁ * y₂ + x₂ * y₁) (e₂ : y₃ * (1 - d * x₁ * x₂ * y₁ * y₂) = y₁ * y₂ + x₁ * x₂)
    (q₁ : v₁ ^ 2 = u₁ ^ 3 + 486662 * u₁ ^ 2 + u₁) (q₂ : v₂ ^ 2 = u₂ ^ 3 + 486662 * u₂ ^ 2 + u₂)
    (a₁ : u₁ * (1 - y₁) = 1 + y₁) (b₁ : v₁ * x₁ = sC * u₁) (a₂ : u₂ * (1 - y₂) = 1 + y₂) (b₂ : v₂ * x₂ = sC * u₂)
    (hu : u₁ ≠ u₂) (hx₁ : x₁ ≠ 0) (hx₂ : x₂ ≠ 0) (hl : l * (u₁ - u₂) = v₁ - v₂) (hX : X = l ^ 2 - 486662 - u₁ - u₂)
    (hV : V = -(l * (X - u₁) + v₁)) : X * (1 - y₃) = 1 + y₃ ∧ V * x₃ = sC * X := by
  obtain ⟨n1, n2⟩ := den_ne o₁ o₂
  have m₁ := EPt.y_ne (x := x₁) a₁
  have m₂ := EPt.y_ne (x := x₂) a₂
  have hy₁ : y₁ + 1 ≠ 0 := by
    intro h; exact hx₁ (o₁.y_one (by linear_combination (y₁ - 1) * h))
  have hy₂ : y₂ + 1 ≠ 0 := by
    intro h; exact hx₂ (o₂.y_one (by linear_combination (y₂ - 1) * h))
  have hu₁ : u₁ ≠ 0 := by rintro rfl; exact hy₁ (by linear_combination -a₁)
  have hu₂ : u₂ ≠ 0 := by rintro rfl; exact hy₂ (by linear_combination -a₂)
  have hdu : u₁ - u₂ ≠ 0 := sub_ne_zero.2 hu
  have du : (u₁ - u₂) * ((1 - y₁) * (1 - y₂)) = 2 * (y₁ - y₂) := by linear_combination (1 - y₂) * a₁ - (1 - y₁) * a₂
  have hyy : y₁ - y₂ ≠ 0 := by
    intro h
    rw [h, mul_zero] at du
    exact mul_ne_zero hdu (mul_ne_zero m₁ m₂) du
  -- Montgomery
  have M1 : X * (u₁ * u₂ * (u₁ - u₂) ^ 2) = (v₁ * u₂ - v₂ * u₁) ^ 2 := by
    have : X * (u₁ - u₂) ^ 2 = (v₁ - v₂) ^ 2 - (486662 + u₁ + u₂) * (u₁ - u₂) ^ 2 := by rw [← hl, hX]; ring
    linear_combination (u₁ * u₂) * this + (u₁ * u₂ - u₂ ^ 2) * q₁ + (u₁ * u₂ - u₁ ^ 2) * q₂
  have E1 : (v₁ * u₂ - v₂ * u₁) * (x₁ * x₂) = sC * (u₁ * u₂) * (x₂ - x₁) := by
    linear_combination (u₂ * x₂) * b₁ - (u₁ * x₁) * b₂
  have M2 : X * (u₁ - u₂) ^ 2 * (x₁ * x₂) ^ 2 = sC ^ 2 * (u₁ * u₂) * (x₂ - x₁) ^ 2 := by
    apply mul_left_cancel₀ (mul_ne_zero hu₁ hu₂)
    have : (v₁ * u₂ - v₂ * u₁) ^ 2 * (x₁ * x₂) ^ 2 = (sC * (u₁ * u₂) * (x₂ - x₁)) ^ 2 := by rw [← E1]; ring
    linear_combination (x₁ * x₂) ^ 2 * M1 + this
  have c₁ : 1 - y₁ ^ 2 = -(x₁ ^ 2 * (1 + d * y₁ ^ 2)) := by unfold On at o₁; linear_combination -o₁
  have c₂ : 1 - y₂ ^ 2 = -(x₂ ^ 2 * (1 + d * y₂ ^ 2)) := by unfold On at o₂; linear_combination -o₂
  have M3 : X * (4 * (y₁ - y₂) ^ 2) = sC ^ 2 * ((1 + d * y₁ ^ 2) * (1 + d * y₂ ^ 2)) * (x₂ - x₁) ^ 2 := by
    apply mul_left_cancel₀ (pow_ne_zero 2 (mul_ne_zero hx₁ hx₂))
    have t1 : (x₁ * x₂) ^ 2 * (X * (4 * (y₁ - y₂) ^ 2)) = X * (u₁ - u₂) ^ 2 * (x₁ * x₂) ^ 2 * ((1 - y₁) * (1 - y₂)) ^ 2 := by
      rw [show (4 * (y₁ - y₂) ^ 2 : K) = (2 * (y₁ - y₂)) ^ 2 by ring, ← du]; ring
    have t2 : u₁ * u₂ * ((1 - y₁) * (1 - y₂)) ^ 2 = (1 - y₁ ^ 2) * (1 - y₂ ^ 2) := by
      have : u₁ * u₂ * ((1 - y₁) * (1 - y₂)) ^ 2 = (u₁ * (1 - y₁)) * (u₂ * (1 - y₂)) * ((1 - y₁) * (1 - y₂)) := by ring
      rw [this, a₁, a₂]; ring
    rw [t1, M2]
    rw [c₁, c₂] at t2
    linear_combination (sC ^ 2 * (x₂ - x₁) ^ 2) * t2
  have M4 : X * ((1 + d) * (y₁ - y₂) ^ 2) = -((1 + d * y₁ ^ 2) * (1 + d * y₂ ^ 2) * (x₂ - x₁) ^ 2) := by
    apply mul_left_cancel₀ four_ne
    linear_combination (1 + d) * M3 + ((1 + d * y₁ ^ 2) * (1 + d * y₂ ^ 2) * (x₂ - x₁) ^ 2) * sC_d
  have nn : (1 + d) * (y₁ - y₂) ^ 2 ≠ 0 := mul_ne_zero one_d_ne (pow_ne_zero _ hyy)
  have G1 : (1 - d * x₁ * x₂ * y₁ * y₂ + (y₁ * y₂ + x₁ * x₂)) * ((1 + d) * (y₁ - y₂) ^ 2) =
      -((1 - d * x₁ * x₂ * y₁ * y₂ - (y₁ * y₂ + x₁ * x₂)) * ((1 + d * y₁ ^ 2) * (1 + d * y₂ ^ 2) * (x₂ - x₁) ^ 2)) := by
    unfold On at o₁ o₂
    clear M1 E1 M2 c₁ c₂ M3 M4 nn e₁ e₂ q₁ q₂ a₁ a₂ b₁ b₂ hu hl hX hV n1 n2 m₁ m₂ hy₁ hy₂ hu₁ hu₂ hdu du hyy hx₁ hx₂
    grind
  have R1 : X * (1 - y₃) = 1 + y₃ := by
    apply mul_left_cancel₀ (mul_ne_zero n2 nn)
    have : X * (1 - d * x₁ * x₂ * y₁ * y₂ - (y₁ * y₂ + x₁ * x₂)) * ((1 + d) * (y₁ - y₂) ^ 2) =
        (1 - d * x₁ * x₂ * y₁ * y₂ + (y₁ * y₂ + x₁ * x₂)) * ((1 + d) * (y₁ - y₂) ^ 2) := by
      rw [G1]; linear_combination (1 - d * x₁ * x₂ * y₁ * y₂ - (y₁ * y₂ + x₁ * x₂)) * M4
    rw [← e₂] at this
    linear_combination this
  refine ⟨R1, ?_⟩
  -- the other coordinate
  have V1 : -V * (u₂ - u₁) = v₁ * (u₂ - X) + v₂ * (X - u₁) := by rw [hV]; linear_combination (-(X - u₁)) * hl
  have V2 : -V * (2 * (y₂ - y₁)) * (x₁ * x₂) = sC * ((1 + y₁) * (1 + y₂) * (x₂ - x₁) + X * ((1 + y₂) * (1 - y₁) * x₁ - (1 + y₁) * (1 - y₂) * x₂)) := by
    have du' : (u₂ - u₁) * ((1 - y₁) * (1 - y₂)) = 2 * (y₂ - y₁) := by linear_combination -du
    rw [← du']
    have : -V * ((u₂ - u₁) * ((1 - y₁) * (1 - y₂))) * (x₁ * x₂) = (v₁ * (u₂ - X) + v₂ * (X - u₁)) * (x₁ * x₂) * ((1 - y₁) * (1 - y₂)) := by
      rw [← V1]; ring
    rw [this]
    have t : (v₁ * (u₂ - X) + v₂ * (X - u₁)) * (x₁ * x₂) = sC * (u₁ * u₂ * (x₂ - x₁) + X * (u₂ * x₁ - u₁ * x₂)) := by
      linear_combination ((u₂ - X) * x₂) * b₁ + ((X - u₁) * x₁) * b₂
    rw [t]
    linear_combination (sC * ((x₂ - x₁) * (1 - y₂) * u₂ - X * x₂ * (1 - y₂))) * a₁ + (sC * ((x₂ - x₁) * (1 + y₁) + X * x₁ * (1 - y₁))) * a₂
  apply mul_left_cancel₀ n1
  have nm : -(2 * (y₂ - y₁)) * (x₁ * x₂) ≠ 0 := by
    refine mul_ne_zero (neg_ne_zero.2 (mul_ne_zero two_ne ?_)) (mul_ne_zero hx₁ hx₂)
    intro h; exact hyy (by linear_combination -h)
  apply mul_left_cancel₀ (mul_ne_zero nm nn)
  have G2 : (((1 + y₁) * (1 + y₂) * (x₂ - x₁)) * ((1 + d) * (y₁ - y₂) ^ 2) +
      -((1 + d * y₁ ^ 2) * (1 + d * y₂ ^ 2) * (x₂ - x₁) ^ 2) * ((1 + y₂) * (1 - y₁) * x₁ - (1 + y₁) * (1 - y₂) * x₂)) * (x₁ * y₂ + x₂ * y₁) =
      -(2 * (y₂ - y₁)) * (x₁ * x₂) * (1 + d * x₁ * x₂ * y₁ * y₂) * -((1 + d * y₁ ^ 2) * (1 + d * y₂ ^ 2) * (x₂ - x₁) ^ 2) := by
    unfold On at o₁ o₂
    clear M1 E1 M2 c₁ c₂ M3 M4 nn e₁ e₂ q₁ q₂ a₁ a₂ b₁ b₂ hu hl hX hV n1 n2 m₁ m₂ hy₁ hy₂ hu₁ hu₂ hdu du hyy hx₁ hx₂ G1 R1 V1 V2 nm
    grind
  have s1 : -(2 * (y₂ - y₁)) * (x₁ * x₂) * ((1 + d) * (y₁ - y₂) ^ 2) * ((1 + d * x₁ * x₂ * y₁ * y₂) * (V * x₃)) =
      (-V * (2 * (y₂ - y₁)) * (x₁ * x₂)) * ((1 + d) * (y₁ - y₂) ^ 2) * (x₁ * y₂ + x₂ * y₁) := by rw [← e₁]; ring
  rw [s1, V2]
  linear_combination sC * G2 + (sC * (((1 + y₂) * (1 - y₁) * x₁ - (1 + y₁) * (1 - y₂) * x₂) * (x₁ * y₂ + x₂ * y₁)
     + (2 * (y₂ - y₁)) * (x₁ * x₂) * (1 + d * x₁ * x₂ * y₁ * y₂))) * M4

end Verif.C25519
