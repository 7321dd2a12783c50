import Verif.Spec.Fips
/-
The standard key agreement and signature functions, written out: X25519 (RFC 7748), Ed25519 (RFC 8032),
ECDH and ECDSA on P-256 (SEC 1, FIPS 186-4), arithmetic on natural numbers.

The code calls them in compact25519 and MBEDTLS; those libraries are not in the sources.  They are defined
here so that the model can be run on the test vectors of /repo/test_vectors.
-/
namespace Verif.Curves
open Verif.Fips

/-- `k n` where `n` is brought to a numeral first: only steers evaluation, see `force_eq` -/
def force {α : Type} (n : Nat) (k : Nat → α) : α :=
  match n with
  | 0 => k 0
  | m + 1 => k (m + 1)

theorem force_eq {α : Type} (n : Nat) (k : Nat → α) : force n k = k n := by
  cases n <;> rfl

/-- little-endian value of a byte string -/
def leNat (l : Bytes) : Nat := l.foldr (fun x n => n * 256 + x.toNat) 0

/-- the `k` low bytes of `n`, little-endian -/
def toLe (k n : Nat) : Bytes := (toBe k n).reverse

/-- `x ^ e mod p` for `e < 2 ^ n`, square and multiply from the lowest bit -/
def powMod (p : Nat) : Nat → Nat → Nat → Nat → Nat
  | 0, _, _, acc => acc
  | n + 1, x, e, acc =>
    force (x * x % p) fun x2 => force (if e % 2 = 1 then acc * x % p else acc) fun acc' => force (e / 2) fun e2 =>
      powMod p n x2 e2 acc'

/-- inverse modulo a prime, by Fermat -/
def invMod (p x : Nat) : Nat := powMod p 256 (x % p) (p - 2) 1

/-- subtraction modulo `p` of reduced numbers -/
def subMod (p x y : Nat) : Nat := (x + p - y) % p

/-! ### X25519 -/

/-- RFC 7748, 4.1 -/
def p25519 : Nat := 2 ^ 255 - 19

/-- RFC 7748, 5: decodeScalar25519 -/
def decodeScalar (k : Bytes) : Nat := (leNat (k.take 32) % 2 ^ 254) / 8 * 8 + 2 ^ 254

/-- RFC 7748, 5: one step of the ladder for the bit `b` on (x_2 : z_2), (x_3 : z_3); swapping the two
points before and after the step as the bit says -/
def ladderStep (x1 : Nat) (b : Bool) (s : Nat × Nat × Nat × Nat) (k : Nat × Nat × Nat × Nat → α) : α :=
  let p := p25519
  let (x2, z2, x3, z3) := if b then (s.2.2.1, s.2.2.2, s.1, s.2.1) else s
  force ((x2 + z2) % p) fun a => force (a * a % p) fun aa => force (subMod p x2 z2) fun b' => force (b' * b' % p) fun bb =>
  force (subMod p aa bb) fun e => force ((x3 + z3) % p) fun c => force (subMod p x3 z3) fun d =>
  force (d * a % p) fun da => force (c * b' % p) fun cb =>
  force ((da + cb) * (da + cb) % p) fun x3' =>
  force (x1 * (subMod p da cb * subMod p da cb) % p) fun z3' =>
  force (aa * bb % p) fun x2' => force (e * (aa + 121665 * e) % p) fun z2' =>
  k (if b then (x3', z3', x2', z2') else (x2', z2', x3', z3'))

/-- RFC 7748, 5: the bits from `n - 1` down to 0 of the scalar `k` -/
def ladder (x1 k : Nat) : Nat → Nat × Nat × Nat × Nat → Nat × Nat × Nat × Nat
  | 0, s => s
  | n + 1, s => ladderStep x1 (k.testBit n) s fun s' => ladder x1 k n s'

/-- RFC 7748, 5: decodeUCoordinate -/
def decodeU (u : Bytes) : Nat := leNat (u.take 32) % 2 ^ 255 % p25519

/-- RFC 7748, 5: x_2 / z_2 -/
def xOf (s : Nat × Nat × Nat × Nat) : Nat := s.1 * invMod p25519 s.2.1 % p25519

/-- RFC 7748, 5: X25519 -/
def x25519 (k u : Bytes) : Bytes :=
  toLe 32 (xOf (ladder (decodeU u) (decodeScalar k) 255 (1, 0, decodeU u, 1)))

/-! ### Ed25519 -/

/-- RFC 8032, 5.1: the curve constant -121665/121666 -/
def edD : Nat := 37095705934669439343138083508754565189542113879843219016388785533085940283555
/-- RFC 8032, 5.1: the order of the base point -/
def edL : Nat := 2 ^ 252 + 27742317777372353535851937790883648493
/-- RFC 8032, 5.1.3: a square root of -1 -/
def edI : Nat := 19681161376707505956807079304988542015446066515923890162744021073123829784752

/-- a point in extended coordinates (X : Y : Z : T) -/
structure EdPoint where
  x : Nat
  y : Nat
  z : Nat
  t : Nat

/-- RFC 8032, 5.1: the base point -/
def edB : EdPoint :=
  let x := 15112221349535400772501151409588531511454012693041857206046113283949847762202
  let y := 46316835694926478169428394003475163141307993866256225615783033603165251855960
  ⟨x, y, 1, x * y % p25519⟩

/-- RFC 8032, 5.1.4: addition (complete) -/
def edAdd (P Q : EdPoint) (k : EdPoint → α) : α :=
  let p := p25519
  force (subMod p P.y P.x * subMod p Q.y Q.x % p) fun a => force ((P.y + P.x) * (Q.y + Q.x) % p) fun b =>
  force (P.t * 2 * edD * Q.t % p) fun c => force (P.z * 2 * Q.z % p) fun d =>
  force (subMod p b a) fun e => force (subMod p d c) fun f => force ((d + c) % p) fun g => force ((b + a) % p) fun h =>
  force (e * f % p) fun x => force (g * h % p) fun y => force (f * g % p) fun z => force (e * h % p) fun t =>
  k ⟨x, y, z, t⟩

/-- scalar multiplication, bits `n - 1` down to 0 of `s` -/
def edMul (s : Nat) (P : EdPoint) : Nat → EdPoint → EdPoint
  | 0, Q => Q
  | n + 1, Q => edAdd Q Q fun Q2 => if s.testBit n then edAdd Q2 P fun Q3 => edMul s P n Q3 else edMul s P n Q2

/-- `s` times `P` for `s < 2 ^ 256` -/
def edSmul (s : Nat) (P : EdPoint) : EdPoint := edMul s P 256 ⟨0, 1, 1, 0⟩

/-- RFC 8032, 5.1.2: encoding of a point -/
def edPack (P : EdPoint) : Bytes :=
  force (invMod p25519 P.z) fun zi => force (P.x * zi % p25519) fun x => force (P.y * zi % p25519) fun y =>
    toLe 32 (y + 2 ^ 255 * (x % 2))

/-- RFC 8032, 5.1.3: decoding of a point -/
def edUnpack (b : Bytes) : Option EdPoint :=
  let p := p25519
  force (leNat b) fun v => force (v % 2 ^ 255) fun y =>
  if y ≥ p then none
  else force (y * y % p) fun y2 => force (subMod p y2 1) fun u => force ((edD * y2 + 1) % p) fun w =>
    force (w * w % p * w % p) fun w3 => force (w3 * w3 % p * w % p) fun w7 =>
    force (u * w3 % p * powMod p 256 (u * w7 % p) ((p - 5) / 8) 1 % p) fun x0 =>
    force (w * (x0 * x0 % p) % p) fun vx2 =>
    let x1 := if vx2 = u then some x0 else if vx2 = subMod p 0 u then some (x0 * edI % p) else none
    match x1 with
    | none => none
    | some x1 =>
      force x1 fun x1 =>
      if x1 = 0 ∧ v ≥ 2 ^ 255 then none
      else force (if x1 % 2 = v / 2 ^ 255 then x1 else subMod p 0 x1) fun x => some ⟨x, y, 1, x * y % p⟩

/-- RFC 8032, 5.1.5: the secret scalar and the prefix -/
def edExpand (sk : Bytes) : Nat × Bytes :=
  let h := sha512 (sk.take 32)
  (decodeScalar (h.take 32), h.drop 32)

/-- RFC 8032, 5.1.5: the public key -/
def edPublic (sk : Bytes) : Bytes := force (edExpand sk).1 fun s => edPack (edSmul s edB)

/-- RFC 8032, 5.1.6: signing with seed `sk` and public key `pk` -/
def edSign (sk pk m : Bytes) : Bytes :=
  force (edExpand sk).1 fun s => force (leNat (sha512 ((edExpand sk).2 ++ m)) % edL) fun r =>
    let R := edPack (edSmul r edB)
    force (leNat (sha512 (R ++ pk.take 32 ++ m)) % edL) fun h => R ++ toLe 32 ((r + h * s) % edL)

/-- RFC 8032, 5.1.7: verification, S B = R + h A (without the cofactor, as compact25519 does) -/
def edVerify (pk m sig : Bytes) : Bool :=
  match edUnpack (pk.take 32), edUnpack (sig.take 32) with
  | some A, some R =>
    force (leNat ((sig.drop 32).take 32)) fun s => force (leNat (sha512 (sig.take 32 ++ pk.take 32 ++ m)) % edL) fun h =>
      if s ≥ edL then false
      else edPack (edSmul s edB) == edAdd (edSmul h A) R fun Q => edPack Q
  | _, _ => false

/-! ### P-256 -/

/-- SEC 2, 2.4.2 secp256r1 -/
def p256 : Nat := 2 ^ 256 - 2 ^ 224 + 2 ^ 192 + 2 ^ 96 - 1
def b256 : Nat := 0x5ac635d8aa3a93e7b3ebbd55769886bc651d06b0cc53b0f63bce3c3e27d2604b
def n256 : Nat := 0xffffffff00000000ffffffffffffffffbce6faada7179e84f3b9cac2fc632551

/-- Jacobian coordinates: x = X / Z^2, y = Y / Z^3; Z = 0 is the point at infinity -/
structure JPoint where
  x : Nat
  y : Nat
  z : Nat

/-- the base point -/
def g256 : JPoint where
  x := 0x6b17d1f2e12c4247f8bce6e563a440f277037d812deb33a0f4a13945d898c296
  y := 0x4fe342e2fe1a7f9b8ee7eb4a7c0f9e162bce33576b315ececbb6406837bf51f5
  z := 1

/-- doubling (a = -3) -/
def jDouble (P : JPoint) (k : JPoint → α) : α :=
  let p := p256
  force (P.z * P.z % p) fun z2 => force (P.y * P.y % p) fun y2 => force (4 * P.x * y2 % p) fun s =>
  force (3 * (subMod p P.x z2) * (P.x + z2) % p) fun m =>
  force ((m * m + 2 * (p - s)) % p) fun x => force (((m * subMod p s x) + 8 * (p - y2 * y2 % p)) % p) fun y =>
  force (2 * P.y * P.z % p) fun z => k ⟨x, y, z⟩

/-- addition -/
def jAdd (P Q : JPoint) (k : JPoint → α) : α :=
  let p := p256
  if P.z = 0 then k Q
  else if Q.z = 0 then k P
  else
    force (P.z * P.z % p) fun z1 => force (Q.z * Q.z % p) fun z2 =>
    force (P.x * z2 % p) fun u1 => force (Q.x * z1 % p) fun u2 =>
    force (P.y * z2 % p * Q.z % p) fun s1 => force (Q.y * z1 % p * P.z % p) fun s2 =>
    if u1 = u2 then (if s1 = s2 then jDouble P k else k ⟨1, 1, 0⟩)
    else
      force (subMod p u2 u1) fun h => force (subMod p s2 s1) fun r => force (h * h % p) fun h2 => force (h * h2 % p) fun h3 =>
      force (u1 * h2 % p) fun v =>
      force ((r * r + (p - h3) + 2 * (p - v)) % p) fun x =>
      force ((r * subMod p v x + (p - s1 * h3 % p)) % p) fun y => force (h * P.z % p * Q.z % p) fun z => k ⟨x, y, z⟩

/-- scalar multiplication, bits `n - 1` down to 0 of `s` -/
def jMul (s : Nat) (P : JPoint) : Nat → JPoint → JPoint
  | 0, Q => Q
  | n + 1, Q => jDouble Q fun Q2 => if s.testBit n then jAdd Q2 P fun Q3 => jMul s P n Q3 else jMul s P n Q2

/-- `s` times `P` for `s < 2 ^ 256` -/
def jSmul (s : Nat) (P : JPoint) : JPoint := jMul s P 256 ⟨1, 1, 0⟩

/-- affine coordinates, nothing for the point at infinity -/
def jAffine (P : JPoint) : Option (Nat × Nat) :=
  if P.z = 0 then none
  else force (invMod p256 P.z) fun zi => force (zi * zi % p256) fun z2 =>
    force (P.x * z2 % p256) fun x => force (P.y * z2 % p256 * zi % p256) fun y => some (x, y)

/-- SEC 1, 2.3.4: a public key: the x coordinate alone (an even y is taken: the x coordinate of the shared
secret does not depend on it), 02/03 || x, or 04 || x || y; it must be on the curve -/
def p256Point (pk : Bytes) : Option JPoint :=
  let xb := if pk.length = 32 then pk else (pk.drop 1).take 32
  if pk.length = 32 ∨ (pk.length = 33 ∧ (pk.head? = some 2 ∨ pk.head? = some 3)) then
    force (beNat xb) fun x =>
    if x ≥ p256 then none
    else force ((x * x % p256 * x + 3 * (p256 - x) + b256) % p256) fun y2 =>
      force (powMod p256 256 y2 ((p256 + 1) / 4) 1) fun y =>
      if y * y % p256 ≠ y2 then none
      else force (if y % 2 = 1 ↔ pk.length = 33 ∧ pk.head? = some 3 then y else subMod p256 0 y) fun y => some ⟨x, y, 1⟩
  else if pk.length = 65 ∧ pk.head? = some 4 then
    force (beNat xb) fun x => force (beNat (pk.drop 33)) fun y =>
    if x ≥ p256 ∨ y ≥ p256 ∨ y * y % p256 ≠ (x * x % p256 * x + 3 * (p256 - x) + b256) % p256 then none
    else some ⟨x, y, 1⟩
  else none

/-- SEC 1, 3.3.1: ECDH, the x coordinate of `d P` -/
def p256Dh (sk pk : Bytes) : Option Bytes :=
  force (beNat sk) fun d =>
  if sk.length = 32 ∧ 0 < d ∧ d < n256 then
    match p256Point pk with
    | none => none
    | some P => match jAffine (jSmul d P) with
      | none => none
      | some (x, _) => some (toBe 32 x)
  else none

/-- the public key of a secret key, 04 || x || y -/
def p256Public (sk : Bytes) : Option Bytes :=
  match jAffine (jSmul (beNat sk) g256) with
  | none => none
  | some (x, y) => some ([4] ++ toBe 32 x ++ toBe 32 y)

/-- SEC 1, 4.1.4: ECDSA verification with SHA-256 -/
def ecdsaVerify (pk m sig : Bytes) : Bool :=
  match p256Point pk with
  | none => false
  | some P =>
    force (beNat (sig.take 32)) fun r => force (beNat (sig.drop 32)) fun s =>
    if sig.length ≠ 64 ∨ r = 0 ∨ n256 ≤ r ∨ s = 0 ∨ n256 ≤ s then false
    else force (beNat (sha256 m)) fun e => force (invMod n256 s) fun w =>
      jAdd (jSmul (e * w % n256) g256) (jSmul (r * w % n256) P) fun Q => match jAffine Q with
        | none => false
        | some (x, _) => x % n256 == r

/-- SEC 1, 4.1.3: ECDSA signature with SHA-256 and nonce `k` -/
def ecdsaSign (k : Nat) (sk m : Bytes) : Option Bytes :=
  match jAffine (jSmul k g256) with
  | none => none
  | some (x, _) =>
    force (x % n256) fun r => force (beNat (sha256 m)) fun e => force (invMod n256 k * (e + r * beNat sk) % n256) fun s =>
    if r = 0 ∨ s = 0 then none else some (toBe 32 r ++ toBe 32 s)

end Verif.Curves
