import Verif.Model.Base
/-
HKDF with HMAC-SHA-256 (RFC 5869), as a specification over an arbitrary function `hmac key message`.
-/
namespace Verif.Hkdf

/-- RFC 5869, 2.2: a missing salt is HashLen zero bytes -/
def extract (hmac : Bytes → Bytes → Bytes) (salt ikm : Bytes) : Bytes :=
  hmac (if salt = [] then List.replicate 32 0 else salt) ikm

/-- RFC 5869, 2.3: T(0) is empty, T(i) = HMAC(PRK, T(i-1) | info | i) -/
def T (hmac : Bytes → Bytes → Bytes) (prk info : Bytes) : Nat → Bytes
  | 0 => []
  | i + 1 => hmac prk (T hmac prk info i ++ info ++ [byte (i + 1)])

/-- T(1) | T(2) | ... | T(n) -/
def concatT (hmac : Bytes → Bytes → Bytes) (prk info : Bytes) : Nat → Bytes
  | 0 => []
  | n + 1 => concatT hmac prk info n ++ T hmac prk info (n + 1)

/-- RFC 5869, 2.3: the first L bytes of T(1) | ... | T(N), N = ceil(L / HashLen) -/
def expand (hmac : Bytes → Bytes → Bytes) (prk info : Bytes) (L : Nat) : Bytes :=
  (concatT hmac prk info ((L + 31) / 32)).take L

end Verif.Hkdf
