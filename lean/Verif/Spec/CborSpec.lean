import Verif.Model.Base
/-
CBOR (RFC 8949) in the deterministic encoding of section 4.2.1, as a specification: a data item and
its bytes.  Independent of the encoders of the model.
-/
namespace Verif.Cbor

/-- CBOR data items (the kinds used by OSCORE and EDHOC). A map is the list of its keys and values
in order (key, value, key, value, ...). -/
inductive Item where
  | uint (n : Nat)
  | nint (n : Nat)            -- the number -1 - n
  | bstr (b : Bytes)
  | tstr (b : Bytes)
  | arr (l : List Item)
  | map (l : List Item)
  | null

/-- an integer as a data item -/
def Item.int (i : Int) : Item := if 0 ≤ i then .uint i.toNat else .nint (-1 - i).toNat

/-- `k` bytes, big endian -/
def be : Nat → Nat → Bytes
  | 0, _ => []
  | k + 1, n => byte (n / 256 ^ k % 256) :: be k n

/-- RFC 8949, 3: initial byte and the shortest argument -/
def head (major n : Nat) : Bytes :=
  if n < 24 then [byte (major * 32 + n)]
  else if n < 2 ^ 8 then byte (major * 32 + 24) :: be 1 n
  else if n < 2 ^ 16 then byte (major * 32 + 25) :: be 2 n
  else if n < 2 ^ 32 then byte (major * 32 + 26) :: be 4 n
  else byte (major * 32 + 27) :: be 8 n

mutual
/-- RFC 8949, 3.1: the bytes of a data item -/
def enc : Item → Bytes
  | .uint n => head 0 n
  | .nint n => head 1 n
  | .bstr b => head 2 b.length ++ b
  | .tstr b => head 3 b.length ++ b
  | .arr l => head 4 l.length ++ encList l
  | .map l => head 5 (l.length / 2) ++ encList l
  | .null => [0xf6]
/-- a CBOR sequence (RFC 8742): the concatenation of the items -/
def encList : List Item → Bytes
  | [] => []
  | i :: l => enc i ++ encList l
end

mutual
/-- numbers and lengths fit 64 bits; a map has as many values as keys -/
def Item.Ok : Item → Prop
  | .uint n => n < 2 ^ 64
  | .nint n => n < 2 ^ 64
  | .bstr b => b.length < 2 ^ 64
  | .tstr b => b.length < 2 ^ 64
  | .arr l => l.length < 2 ^ 64 ∧ OkList l
  | .map l => l.length < 2 ^ 64 ∧ l.length % 2 = 0 ∧ OkList l
  | .null => True
/-- all items of a sequence -/
def OkList : List Item → Prop
  | [] => True
  | i :: l => i.Ok ∧ OkList l
end

end Verif.Cbor
