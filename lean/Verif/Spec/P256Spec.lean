/-
Specification: the curve P-256 (FIPS 186-4 D.1.2.3, SEC 2 secp256r1) and encodings of its points.
Independent of the model.
-/
namespace Verif.P256Spec

/-- the field prime -/
def p : Nat := 2 ^ 256 - 2 ^ 224 + 2 ^ 192 + 2 ^ 96 - 1

/-- the coefficient b -/
def b : Nat := 0x5ac635d8aa3a93e7b3ebbd55769886bc651d06b0cc53b0f63bce3c3e27d2604b

/-- `(x, y)` is an affine point: coordinates in [0, p) and y^2 = x^3 - 3x + b modulo p -/
def OnCurve (x y : Nat) : Prop :=
  x < p ∧ y < p ∧ (p : Int) ∣ (y : Int) ^ 2 - ((x : Int) ^ 3 - 3 * (x : Int) + (b : Int))

/-- big-endian value of a byte string -/
def be (l : List UInt8) : Nat := l.foldl (fun n x => n * 256 + x.toNat) 0

end Verif.P256Spec
