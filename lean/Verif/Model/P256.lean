import Verif.Model.Base
/-
src/common/crypto_p256.c – decompression of P-256 points (MBEDTLS configuration), limb by limb.
-/
namespace Verif.P256
open Verif

/-- A 256-bit (or 288-bit) number: 32-bit limbs, least significant first
(crypto_p256.c:20-23).  All arrays of the code have 8 limbs (9 for the accumulator of `m256_mul`). -/
abbrev Limbs := List UInt32

/-- crypto_p256.c:33-39 `u256_set32` -/
def u256Set32 (x : UInt32) : Limbs := [x, 0, 0, 0, 0, 0, 0, 0]

/-- crypto_p256.c:51-63 `u256_add`: the loop from a given carry; (sum, carry) -/
def u256AddGo (carry : UInt32) : Limbs → Limbs → Limbs × UInt32
  | x :: xs, y :: ys =>
    let sum : UInt64 := carry.toUInt64 + x.toUInt64 + y.toUInt64
    let r := u256AddGo (sum >>> 32).toUInt32 xs ys
    (sum.toUInt32 :: r.1, r.2)
  | _, _ => ([], carry)

/-- crypto_p256.c:51-63 `u256_add` -/
def u256Add (x y : Limbs) : Limbs × UInt32 := u256AddGo 0 x y

/-- crypto_p256.c:75-87 `u256_sub`: the loop from a given borrow; (difference, borrow) -/
def u256SubGo (carry : UInt32) : Limbs → Limbs → Limbs × UInt32
  | x :: xs, y :: ys =>
    let diff : UInt64 := x.toUInt64 - y.toUInt64 - carry.toUInt64
    let r := u256SubGo ((0 : UInt32) - (diff >>> 32).toUInt32) xs ys
    (diff.toUInt32 :: r.1, r.2)
  | _, _ => ([], carry)

/-- crypto_p256.c:75-87 `u256_sub`.  (The call in `m256_mul` passes the 9-limb accumulator as `x`; the
loop reads its first 8 limbs, which is where this recursion stops too.) -/
def u256Sub (x y : Limbs) : Limbs × UInt32 := u256SubGo 0 x y

/-- crypto_p256.c:98-104 `u256_cmov`: `z` after the call -/
def u256Cmov (z x : Limbs) (c : UInt32) : Limbs :=
  List.zipWith (fun zi xi => (zi &&& ~~~(0 - c)) ||| (xi &&& (0 - c))) z x

/-- crypto_p256.c:113-120 `u256_diff` -/
def u256DiffGo (diff : UInt32) : Limbs → Limbs → UInt32
  | x :: xs, y :: ys => u256DiffGo (diff ||| (x ^^^ y)) xs ys
  | _, _ => diff

/-- crypto_p256.c:113-120 `u256_diff` -/
def u256Diff (x y : Limbs) : UInt32 := u256DiffGo 0 x y

/-- crypto_p256.c:253-256 `u32_muladd64` (MUL64_IS_CONSTANT_TIME) -/
def muladd64Direct (x y z t : UInt32) : UInt64 :=
  x.toUInt64 * y.toUInt64 + z.toUInt64 + t.toUInt64

/-- crypto_p256.c:259-282 `u32_muladd64` (portable version, 16-bit halves).  The casts to `uint16_t`
are written as a mask and a shift; `m1 << 16` is a 32-bit shift that drops the upper half. -/
def muladd64 (x y z t : UInt32) : UInt64 :=
  let xl := x &&& 0xFFFF
  let yl := y &&& 0xFFFF
  let xh := x >>> 16
  let yh := y >>> 16
  let lo := xl * yl
  let m1 := xh * yl
  let m2 := xl * yh
  let hi := xh * yh
  let acc : UInt64 := lo.toUInt64 + ((hi + (m1 >>> 16) + (m2 >>> 16)).toUInt64 <<< 32)
  let acc := acc + (m1 <<< 16).toUInt64
  let acc := acc + (m2 <<< 16).toUInt64
  let acc := acc + z.toUInt64
  acc + t.toUInt64

/-- crypto_p256.c:299-331 `u288_muladd`, from limb `i` on with a given carry: the 8 steps while `y`
lasts, then the addition of the carry to `z[8]`. -/
def u288MuladdGo (x carry : UInt32) : Limbs → Limbs → Limbs × UInt32
  | z :: zs, y :: ys =>
    let prod := muladd64 x y z carry
    let r := u288MuladdGo x (prod >>> 32).toUInt32 zs ys
    (prod.toUInt32 :: r.1, r.2)
  | z :: zs, [] =>
    let sum : UInt64 := z.toUInt64 + carry.toUInt64
    (sum.toUInt32 :: zs, (sum >>> 32).toUInt32)
  | [], _ => ([], carry)

/-- crypto_p256.c:299-331 `u288_muladd`: (z, carry) -/
def u288Muladd (z : Limbs) (x : UInt32) (y : Limbs) : Limbs × UInt32 := u288MuladdGo x 0 z y

/-- crypto_p256.c:342-348 `u288_rshift32` -/
def u288Rshift32 (z : Limbs) (c : UInt32) : Limbs := z.drop 1 ++ [c]

/-- crypto_p256.c:359-364: one limb from four bytes, most significant first -/
def limbOfBytes (a b c d : UInt8) : UInt32 :=
  (a.toUInt32 <<< 24) ||| (b.toUInt32 <<< 16) ||| (c.toUInt32 <<< 8) ||| d.toUInt32

/-- crypto_p256.c:356-366 `u256_from_bytes`: limb `i` is made of the bytes `4*(7-i)..`, so the bytes
from the front give the limbs from the end. -/
def u256FromBytes : Bytes → Limbs
  | a :: b :: c :: d :: p => u256FromBytes p ++ [limbOfBytes a b c d]
  | _ => []

/-- crypto_p256.c:378-381: four bytes of one limb -/
def bytesOfLimb (z : UInt32) : Bytes :=
  [(z >>> 24).toUInt8, (z >>> 16).toUInt8, (z >>> 8).toUInt8, z.toUInt8]

/-- crypto_p256.c:374-383 `u256_to_bytes` -/
def u256ToBytes (z : Limbs) : Bytes := (z.reverse.map bytesOfLimb).flatten

/-- crypto_p256.c:414-419 `m256_mod` -/
structure Mod where
  m : Limbs
  r2 : Limbs
  ni : UInt32

/-- crypto_p256.c:424-434 `p256_p` -/
def p256p : Mod where
  m := [0xFFFFFFFF, 0xFFFFFFFF, 0xFFFFFFFF, 0x00000000, 0x00000000, 0x00000000, 0x00000001, 0xFFFFFFFF]
  r2 := [0x00000003, 0x00000000, 0xffffffff, 0xfffffffb, 0xfffffffe, 0xffffffff, 0xfffffffd, 0x00000004]
  ni := 0x00000001

/-- crypto_p256.c:445-457 `m256_add` -/
def m256Add (x y : Limbs) (mod : Mod) : Limbs :=
  let z := u256Add x y
  let r := u256Sub z.1 mod.m
  u256Cmov z.1 r.1 (z.2 ||| (1 - r.2))

/-- crypto_p256.c:482-493 `m256_sub` -/
def m256Sub (x y : Limbs) (mod : Mod) : Limbs :=
  let z := u256Sub x y
  let r := u256Add z.1 mod.m
  u256Cmov z.1 r.1 z.2

/-- crypto_p256.c:533-541: one iteration of `m256_mul` -/
def m256MulStep (a : Limbs) (xi : UInt32) (y : Limbs) (mod : Mod) : Limbs :=
  let u := (a.headD 0 + xi * y.headD 0) * mod.ni
  let s := u288Muladd a xi y
  let t := u288Muladd s.1 u mod.m
  u288Rshift32 t.1 (s.2 + t.2)

/-- crypto_p256.c:533-541: the loop of `m256_mul` over the limbs of `x` -/
def m256MulLoop (y : Limbs) (mod : Mod) : Limbs → Limbs → Limbs
  | a, [] => a
  | a, xi :: xs => m256MulLoop y mod (m256MulStep a xi y mod) xs

/-- crypto_p256.c:518-548 `m256_mul`.  The output `z` may overlap `x` or `y`; it is only written after
the loop. -/
def m256Mul (x y : Limbs) (mod : Mod) : Limbs :=
  let a := m256MulLoop y mod [0, 0, 0, 0, 0, 0, 0, 0, 0] x
  let s := u256Sub a mod.m
  let useSub := a.getD 8 0 ||| (1 - s.2)
  u256Cmov s.1 a (1 - useSub)

/-- crypto_p256.c:571-574 `m256_prep` -/
def m256Prep (z : Limbs) (mod : Mod) : Limbs := m256Mul z mod.r2 mod

/-- crypto_p256.c:584-589 `m256_done` -/
def m256Done (z : Limbs) (mod : Mod) : Limbs := m256Mul z (u256Set32 1) mod

/-- crypto_p256.c:599-603 `m256_set32` -/
def m256Set32 (x : UInt32) (mod : Mod) : Limbs := m256Prep (u256Set32 x) mod

/-- crypto_p256.c:614-626 `m256_from_bytes`; `none` is the return value -1 -/
def m256FromBytes (p : Bytes) (mod : Mod) : Option Limbs :=
  let z := u256FromBytes p
  if (u256Sub z mod.m).2 ≠ 1 then none else some (m256Prep z mod)

/-- crypto_p256.c:636-644 `m256_to_bytes`; `junk` is the uninitialised local array -/
def m256ToBytes (junk z : Limbs) (mod : Mod) : Bytes := u256ToBytes (m256Done (u256Cmov junk z 1) mod)

/-- crypto_p256.c:682-685 `p256_b` -/
def p256b : Limbs :=
  [0x29c4bddf, 0xd89cdf62, 0x78843090, 0xacf005cd, 0xf7212ed6, 0xe5a220ab, 0x04874834, 0xdc30061d]

/-- crypto_p256.c:702-707, 759-764: x^3 - 3x + b -/
def curveRhs (x : Limbs) : Limbs :=
  let r := m256Mul x x p256p
  let r := m256Mul r x p256p
  let r := m256Sub r x p256p
  let r := m256Sub r x p256p
  let r := m256Sub r x p256p
  m256Add r p256b p256p

/-- crypto_p256.c:695-710 `point_check` -/
def pointCheck (x y : Limbs) : UInt32 := u256Diff (m256Mul y y p256p) (curveRhs x)

/-- crypto_p256.c:722-735 `point_from_bytes`: true is the return value 0 -/
def pointFromBytes (px py : Bytes) : Bool :=
  match m256FromBytes px p256p with
  | none => false
  | some x =>
    match m256FromBytes py p256p with
    | none => false
    | some y => pointCheck x y == 0

/-- crypto_p256.c:769-772 `exp` -/
def p256exp : Limbs :=
  [0x00000000, 0x00000000, 0x40000000, 0x00000000, 0x00000000, 0x40000000, 0xC0000000, 0x3FFFFFFF]

/-- crypto_p256.c:778-784: the inner loop, `n` iterations left; (r, y2) -/
def expLimb : Nat → UInt32 → Limbs → Limbs → Limbs × Limbs
  | 0, _, r, y2 => (r, y2)
  | n + 1, e, r, y2 =>
    expLimb n (e >>> 1) (if e &&& 1 ≠ 0 then m256Mul r y2 p256p else r) (m256Mul y2 y2 p256p)

/-- crypto_p256.c:776-785: binary exponentiation over the limbs of the exponent -/
def expLoop : Limbs → Limbs → Limbs → Limbs
  | [], r, _ => r
  | e :: es, r, y2 =>
    let s := expLimb 32 e r y2
    expLoop es s.1 s.2

/-- crypto_p256.c:737-808 `crypto_p256_uncompress_point` (`input` has `ilen` bytes, the output buffer
`osize`): the output bytes, or `wrong_parameter` for PSA_ERROR_INVALID_ARGUMENT.  `junk` are the
uninitialised local arrays `y2`, `y` and `zi` that `u256_cmov(.., 1)` overwrites. -/
def uncompressPoint (junk : Limbs) (input : Bytes) (osize : Nat) : R Bytes :=
  if input.length ≠ 32 then .err .wrong_parameter
  else if osize < 65 then .err .wrong_parameter
  else
    match m256FromBytes input p256p with
    | none => .err .wrong_parameter
    | some x =>
      let r := expLoop p256exp (m256Set32 1 p256p) (u256Cmov junk (curveRhs x) 1)
      let yRaw := m256ToBytes junk (u256Cmov junk r 1) p256p
      if pointFromBytes input yRaw then .ok (4 :: (input ++ yRaw)) else .err .wrong_parameter

end Verif.P256
