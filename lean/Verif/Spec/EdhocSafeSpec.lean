import Verif.Spec.EdhocGrammar
import Verif.Spec.EdhocSpec
/-
C68: which decrypted plaintexts the EDHOC calls can read.
-/
namespace Verif.EdhocSafe
open Verif Verif.Cbor Verif.EdhocGrammar

/-- the entries of a map item -/
def entries : List Item → List (Item × Item)
  | k :: v :: r => (k, v) :: entries r
  | _ => []

/-- an ID_CRED in a plaintext, as the CDDL files of the project (cddl_models/edhoc_plaintext.cddl) allow it: an int, a bstr, or a map with
these keys (kid, x5bag, x5chain, x5t, x5u, c5b, c5c, c5t, c5u) -/
def IsIdCred (id : Item) : Prop :=
  (∃ i, id = .int i) ∨ (∃ b, id = .bstr b) ∨
  ∃ es, id = .map es ∧ ∀ e ∈ entries es, ∃ k, k ∈ [4, 32, 33, 34, 35, 52, 53, 54, 55] ∧ e.1 = .uint k

/-- The peer identifies its credential by an integer kid, or by a map with an x5chain (33) or an x5t (34) whose hash
algorithm is an integer.  RFC 9528 also allows byte-string kids, other header parameters (x5u, x5bag, c5c, ..) and
named algorithms. -/
def Readable (id : Item) : Prop :=
  (∃ i, id = .int i) ∨
  ∃ es, id = .map es ∧
    ((∃ c, (Item.uint 33, Item.bstr c) ∈ entries es) ∨ ∃ a h, (Item.uint 34, Item.arr [.int a, .bstr h]) ∈ entries es) ∧
    ∀ t h, (Item.uint 34, Item.arr [.tstr t, .bstr h]) ∉ entries es

/-- Signature_or_MAC: with static DH not longer than the MAC; an EdDSA signature has 64 bytes -/
def SmOk (staticDh eddsa : Bool) (macLen : Nat) (sm : Bytes) : Prop :=
  if staticDh then sm.length ≤ macLen else eddsa = true → 64 ≤ sm.length

/-- a plaintext_3 that can be read -/
def Harmless3 (s staticDh eddsa : Bool) (macLen : Nat) (p : Bytes) : Prop :=
  ∀ id sm ead, Plaintext3 s id sm ead p → IsIdCred id → Readable id ∧ SmOk staticDh eddsa macLen sm

/-- a plaintext_2 that can be read -/
def Harmless2 (s staticDh eddsa : Bool) (macLen : Nat) (p : Bytes) : Prop :=
  ∀ cR id sm ead, Plaintext2 s cR id sm ead p → IsIdCred id → Readable id ∧ SmOk staticDh eddsa macLen sm

/-- PLAINTEXT_2 of a message_2 (RFC 9528, 5.3.2): CIPHERTEXT_2 XOR KEYSTREAM_2 -/
def plaintext2 (H : Bytes → Bytes) (hmac : Bytes → Bytes → Bytes) (message1 gY gXY ct : Bytes) : Bytes :=
  List.zipWith (· ^^^ ·) ct
    (EdhocSpec.kdf hmac (Hkdf.extract hmac (EdhocSpec.th2 H gY message1) gXY) 0 (EdhocSpec.th2 H gY message1) ct.length)

/-- ID_CRED_x is not a map that begins with a byte-string kid -/
def NoBstrKid (s : Bool) (idCred : Bytes) : Prop :=
  ∀ v es x t, IsItem s (.map (.uint 4 :: .bstr v :: es)) x → idCred ≠ x ++ t

end Verif.EdhocSafe
