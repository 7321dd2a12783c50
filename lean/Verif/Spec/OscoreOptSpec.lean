import Verif.Model.Base
/-
RFC 8613, section 6.1: the compressed COSE header carried in the OSCORE option.
-/
namespace Verif.Spec

/-- `0 0 0 h k n n n | Partial IV (n bytes) | s | KID context (s bytes) | KID`, with the KID flag set;
empty when there is nothing to transport. -/
def oscoreValue (piv kctx kid : Bytes) : Bytes :=
  if piv = [] ∧ kctx = [] ∧ kid = [] then []
  else
    [UInt8.ofNat ((if kctx = [] then 0 else 16) + 8 + piv.length)] ++ piv ++
      (if kctx = [] then [] else UInt8.ofNat kctx.length :: kctx) ++ kid

end Verif.Spec
