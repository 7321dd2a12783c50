import Verif.Model.Base
/-
src/oscore/security_context.c (PIV encoding) and src/oscore/nonce.c.
-/
namespace Verif

/-- inc/oscore/oscore_coap_defines.h:22 MAX_PIV_FIELD_VALUE = 2^40 - 1 -/
def maxPivValue : Nat := 2 ^ 40 - 1

/-- security_context.c:193-197: the loop that splits the number into bytes, least significant
first.  `fuel` is MAX_PIV_LEN = 5, the size of `tmp_piv`; with the guard of line 187 the C loop
makes at most 5 iterations. -/
def pivDigitsLE : Nat → Nat → Bytes
  | 0, _ => []
  | fuel + 1, n => if n > 0 then byte (n % 256) :: pivDigitsLE fuel (n / 256) else []

/-- security_context.c:184-211 `ssn2piv` (destination buffer of MAX_PIV_LEN bytes). -/
def ssn2piv (ssn : Nat) : R Bytes :=
  if ssn > maxPivValue then .err .wrong_parameter
  else
    let d := pivDigitsLE 5 ssn
    if d.length = 0 then .ok [0] else .ok d.reverse

/-- security_context.c:213-235 `piv2ssn` -/
def piv2ssn (piv : Bytes) : R Nat :=
  if piv.length > 5 then .err .wrong_parameter else .ok (beVal piv)

/-- left-pad with zeros to `n` bytes (nonce.c:25-27, 31-34); the destination index
`n - len` is negative (write before the array) when the input is longer: `ub`. -/
def leftPad (n : Nat) (x : Bytes) : R Bytes :=
  if x.length > n then .ub else .ok (List.replicate (n - x.length) 0 ++ x)

/-- nonce.c:47-49: `nonce[i] ^= common_iv[i]` for `i < common_iv.len`. -/
def xorWith : Bytes → Bytes → Bytes
  | a :: l, b :: r => (a ^^^ b) :: xorWith l r
  | l, [] => l
  | [], _ => []

/-- nonce.c:21-53 `create_nonce` (NONCE_LEN = 13, MAX_PIV_LEN = 5). -/
def createNonce (idPiv piv commonIv : Bytes) : R Bytes := do
  let p ← leftPad 5 piv
  let i ← leftPad 7 idPiv
  let a := byte idPiv.length :: (i ++ p)
  if commonIv.length > 13 then .ub
  else pure (xorWith a commonIv)

end Verif
