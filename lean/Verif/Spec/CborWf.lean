import Verif.Spec.CborSpec
/-
Well-formed CBOR with definite lengths (RFC 8949, 3): unlike `enc`, every width of the argument is allowed,
or (`strict`) only the shortest one.
-/
namespace Verif.Cbor

/-- the values of the additional information 24..27, the number of argument bytes and the smallest argument
that needs so many -/
def widths : List (Nat × Nat × Nat) := [(24, 1, 24), (25, 2, 2 ^ 8), (26, 4, 2 ^ 16), (27, 8, 2 ^ 32)]

/-- RFC 8949, 3: `h` is a head of major type `m` with argument `n` -/
def IsHead (strict : Bool) (m n : Nat) (h : Bytes) : Prop :=
  (n < 24 ∧ h = [byte (m * 32 + n)]) ∨
  ∃ ai k least a, (ai, k, least) ∈ widths ∧ a.length = k ∧ beVal a = n ∧ (strict = true → least ≤ n) ∧
    h = byte (m * 32 + ai) :: a

mutual
/-- RFC 8949, 3.1: `b` is a well-formed encoding of the item -/
def IsItem (strict : Bool) : Item → Bytes → Prop
  | .uint n, b => IsHead strict 0 n b
  | .nint n, b => IsHead strict 1 n b
  | .bstr v, b => ∃ h, IsHead strict 2 v.length h ∧ b = h ++ v
  | .tstr v, b => ∃ h, IsHead strict 3 v.length h ∧ b = h ++ v
  | .arr l, b => ∃ h t, IsHead strict 4 l.length h ∧ IsSeq strict l t ∧ b = h ++ t
  | .map l, b => ∃ h t, IsHead strict 5 (l.length / 2) h ∧ IsSeq strict l t ∧ b = h ++ t
  | .null, b => b = [0xf6]
/-- RFC 8742: a CBOR sequence -/
def IsSeq (strict : Bool) : List Item → Bytes → Prop
  | [], b => b = []
  | i :: l, b => ∃ x y, IsItem strict i x ∧ IsSeq strict l y ∧ b = x ++ y
end

end Verif.Cbor
