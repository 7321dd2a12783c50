import Mathlib.AlgebraicGeometry.EllipticCurve.Affine.Point
import Mathlib.Data.ZMod.Basic
import Verif.Spec.P256Spec
import Verif.Lemmas.P256Prime
/-
Specification: the group of P-256 (Mathlib's elliptic curve group law) and ECDH on it.
-/
namespace Verif.P256Spec

instance : Fact (Nat.Prime p) := ⟨P256.prime_p256⟩

/-- the curve y^2 = x^3 - 3x + b over the integers modulo p -/
def curve : WeierstrassCurve.Affine (ZMod p) where
  a₁ := 0
  a₂ := 0
  a₃ := 0
  a₄ := -3
  a₆ := (b : ZMod p)

/-- a byte string encodes a field element: 32 bytes, big-endian, reduced -/
def Enc (l : List UInt8) (x : ZMod p) : Prop := l.length = 32 ∧ be l = x.val

/-- a byte string is the uncompressed encoding (SEC 1, 2.3.3) of a point of the curve -/
def EncPoint (l : List UInt8) (P : curve.Point) : Prop :=
  ∃ x y h xb yb, P = .some x y h ∧ Enc xb x ∧ Enc yb y ∧ l = 4 :: (xb ++ yb)

/-- ECDH (SEC 1, 3.3.1): the x-coordinate of `d · P`; no value if that is the point at infinity -/
def Ecdh (d : Nat) (P : curve.Point) (s : List UInt8) : Prop :=
  ∃ x y h, d • P = .some x y h ∧ Enc s x

end Verif.P256Spec
