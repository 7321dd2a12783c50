import Verif.Model.P256
/-
src/common/crypto_wrapper.c – ECDH on P-256 in the TINYCRYPT configuration: decompression of the peer's
key with the helper functions taken from the uECC project, and the calls of the library.
A native number is the list of its 8 words, least significant first.
-/
namespace Verif.TinyP256
open Verif
open Verif.P256 (Limbs u256FromBytes u256ToBytes p256p)

/-- The functions of the TinyCrypt library that are used (not part of the repository).
Called at src/common/crypto_wrapper.c:79-148, 601-610, 706-708. -/
structure Uecc where
  /-- `uECC_vli_modMult_fast` for P-256 -/
  modMult : Limbs → Limbs → Limbs
  /-- `curve->x_side` -/
  xSide : Limbs → Limbs
  /-- `uECC_vli_sub`, borrow dropped -/
  sub : Limbs → Limbs → Limbs
  /-- `uECC_shared_secret`: the 64 bytes of the public key, the secret key; `none` for return value ≠ 1 -/
  shared : Bytes → Bytes → Option Bytes
  /-- `uECC_make_key` for the random choice `n`: secret key and the 64 bytes of the public key -/
  makeKey : Nat → Option (Bytes × Bytes)

/-- crypto_wrapper.c:83-95 `uECC_vli_add`; `cond_set(t, f, c)` of the library is `c ? t : f` -/
def vliAddGo (carry : UInt32) : Limbs → Limbs → Limbs × UInt32
  | l :: ls, r :: rs =>
    let sum := l + r + carry
    let v : UInt32 := if sum < l then 1 else 0
    let carry' := if sum ≠ l then v else carry
    let (z, c) := vliAddGo carry' ls rs
    (sum :: z, c)
  | _, _ => ([], carry)

/-- src/common/crypto_wrapper.c:84-97 -/
def vliAdd (l r : Limbs) : Limbs × UInt32 := vliAddGo 0 l r

/-- `uECC_vli_testBit` of the library: bit `i % 32` of word `i / 32` (called at src/common/crypto_wrapper.c:112) -/
def testBit (z : Limbs) (i : Nat) : Bool := (z.getD (i / 32) 0).toNat.testBit (i % 32)

/-- the significant bits of a word list, for `uECC_vli_numBits` (called at src/common/crypto_wrapper.c:110) -/
def numBits : Limbs → Nat
  | [] => 0
  | w :: ws =>
    let n := numBits ws
    if n ≠ 0 then 32 + n else if w = 0 then 0 else w.toNat.log2 + 1

/-- crypto_wrapper.c:110-115: the loop, `i` counts down to 2 -/
def sqrtLoop (u : Uecc) (a p1 : Limbs) : Nat → Limbs → Limbs
  | 0, r => r
  | 1, r => r
  | i + 2, r =>
    let r := u.modMult r r
    let r := if testBit p1 (i + 2) then u.modMult r a else r
    sqrtLoop u a p1 (i + 1) r

/-- the initial value of `p1` and `l_result` (src/common/crypto_wrapper.c:103-104) -/
def one : Limbs := [1, 0, 0, 0, 0, 0, 0, 0]

/-- crypto_wrapper.c:99-117 `mod_sqrt_default` -/
def modSqrt (u : Uecc) (a : Limbs) : Limbs :=
  let p1 := (vliAdd p256p.m one).1
  sqrtLoop u a p1 (numBits p1 - 1) one

/-- crypto_wrapper.c:138-140: choice between the two roots; `y[0] & 1` against `compressed[0] == 3` -/
def chooseY (u : Uecc) (first : UInt8) (y : Limbs) : Limbs :=
  if (y.headD 0 % 2 == 1) != (first == 3) then u.sub p256p.m y else y

/-- crypto_wrapper.c:129-148 `uECC_decompress`: 32 bytes are read (fewer: `ub`), the 64 bytes of the point
are written -/
def decompress (u : Uecc) (compressed : Bytes) : R Bytes :=
  if compressed.length < 32 then .ub
  else
    let x := u256FromBytes (compressed.take 32)
    let y := chooseY u (compressed.headD 0) (modSqrt u (u.xSide x))
    .ok (u256ToBytes x ++ u256ToBytes y)

/-- crypto_wrapper.c:603-620 `shared_secret_derive`, branch P256 / TINYCRYPT -/
def tinyShared (u : Uecc) (sk pk : Bytes) : R Bytes := do
  let q ← decompress u pk
  match u.shared q sk with
  | some s => .ok s
  | none => .err .unexpected_result_from_ext_lib

/-- crypto_wrapper.c:700-711 `ephemeral_dh_key_gen`, branch P256 / TINYCRYPT: (sk, pk) -/
def tinyKeyGen (u : Uecc) (n pkCap : Nat) : R (Bytes × Bytes) :=
  if pkCap < 32 then .err .buffer_to_small
  else
    match u.makeKey n with
    | none => .err .unexpected_result_from_ext_lib
    | some (sk, q) => .ok (sk, q.take 32)

end Verif.TinyP256
