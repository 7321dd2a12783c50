import Verif.Spec.CborWf
/-
The CDDL of the EDHOC messages (RFC 9528, appendix A, as in /repo/cddl_models), over well-formed CBOR.
-/
namespace Verif.EdhocGrammar
open Verif Verif.Cbor

/-- integers are limited to 32 bits -/
def I32 (i : Int) : Prop := -(2 ^ 31) ≤ i ∧ i < 2 ^ 31

/-- `(bstr / int)`: a connection identifier, a key identifier -/
def bstrInt : Int ⊕ Bytes → Item
  | .inl i => .int i
  | .inr b => .bstr b

/-- `(int / tstr)`: an algorithm -/
def intTstr : Int ⊕ Bytes → Item
  | .inl i => .int i
  | .inr b => .tstr b

/-- integers are limited to 32 bits -/
def FldOk : Int ⊕ Bytes → Prop
  | .inl i => I32 i
  | .inr _ => True

/-- `SUITES_I : [2*10 suite : int] / suite : int` -/
def suites : List Int ⊕ Int → Item
  | .inl l => .arr (l.map .int)
  | .inr i => .int i

/-- a list has 2 to 10 elements -/
def SuitesOk : List Int ⊕ Int → Prop
  | .inl l => 2 ≤ l.length ∧ l.length ≤ 10 ∧ ∀ i ∈ l, I32 i
  | .inr i => I32 i

/-- `? EAD : bstr` and whatever follows it: the byte string is taken if there is one -/
def Tail (s : Bool) (ead : Option Bytes) (r : Bytes) : Prop :=
  match ead with
  | some e => ∃ x t, IsItem s (.bstr e) x ∧ r = x ++ t
  | none => ∀ e x t, IsItem s (.bstr e) x → r ≠ x ++ t

/-- message_1 = (METHOD : int, SUITES_I, G_X : bstr, C_I : bstr / int, ? EAD_1 : bstr), followed by anything -/
def Message1 (s : Bool) (method : Int) (su : List Int ⊕ Int) (gX : Bytes) (cI : Int ⊕ Bytes) (ead : Option Bytes)
    (b : Bytes) : Prop :=
  I32 method ∧ SuitesOk su ∧ FldOk cI ∧
    ∃ w r, IsSeq s [.int method, suites su, .bstr gX, bstrInt cI] w ∧ b = w ++ r ∧ Tail s ead r

/-- `[alg : int / tstr, hash : bstr]` -/
def algHash : (Int ⊕ Bytes) × Bytes → Item
  | (a, h) => .arr [intTstr a, .bstr h]

/-- a map entry that may be absent -/
def ent {α : Type} (k : Nat) (item : α → Item) : Option α → List Item
  | none => []
  | some v => [.uint k, item v]

/-- PLAINTEXT_3 = (ID_CRED : map / bstr / int, Signature_or_MAC : bstr, ? EAD : bstr), followed by anything -/
def Plaintext3 (s : Bool) (id : Item) (sigOrMac : Bytes) (ead : Option Bytes) (b : Bytes) : Prop :=
  ∃ w r, IsSeq s [id, .bstr sigOrMac] w ∧ b = w ++ r ∧ Tail s ead r

/-- PLAINTEXT_2 = (C_R : bstr / int, then as PLAINTEXT_3) -/
def Plaintext2 (s : Bool) (cR : Int ⊕ Bytes) (id : Item) (sigOrMac : Bytes) (ead : Option Bytes) (b : Bytes) : Prop :=
  FldOk cR ∧ ∃ w r, IsSeq s [bstrInt cR, id, .bstr sigOrMac] w ∧ b = w ++ r ∧ Tail s ead r

/-- message_2, message_3, message_4: one byte string, followed by anything -/
def OneBstr (s : Bool) (v b : Bytes) : Prop := ∃ x t, IsItem s (.bstr v) x ∧ b = x ++ t

end Verif.EdhocGrammar
