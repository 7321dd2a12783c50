import Verif.Model.EdhocRun
import Verif.Lemmas.Toy
/-
A concrete (cryptographically worthless) instance of the EDHOC primitives and configurations.  Used
only for examples and counterexample witnesses.
-/
namespace Verif.Edhoc
open Verif

/-- toy primitives: a public key equals the secret key, a DH secret is a checksum of the xor of both,
a signature is a checksum of key and message -/
def toyE : ECrypto where
  toCrypto := toyCrypto
  dh _ sk pk := some (toyBytes 32 (toyH (xorBytes (sk.take 32) (pk.take 32))))
  sign _ _ pk m := some (toyBytes 64 (toyH (pk ++ [4] ++ m)))
  verify _ pk m s := some (s = toyBytes 64 (toyH (pk ++ [4] ++ m)))
  x509 b := if b.length < 8 then none
    else some ⟨(b.drop 1).take 4, 4, (b.drop 5).take 4, true, b.take 9,
      toyBytes 64 (toyH ([42] ++ [4] ++ b.take 9)), b.drop 9⟩

theorem toyE_lawful : toyE.Lawful where
  base := toyCrypto_lawful
  dh_len a sk pk s h := by
    simp only [toyE, Option.some.injEq] at h
    subst h; simp [toyBytes]
  sign_len a sk pk m s h := by
    simp only [toyE, Option.some.injEq] at h
    subst h; simp [toyBytes]

/-- initiator of the examples: method 0 or 3 etc., suite 0, C_I = h'aabb', ID_CRED_I = {4: -12} -/
def toyI (method : Int) : ICtx :=
  { cI := [0xaa, 0xbb], method := method, suitesI := [2, 0], ead1 := [], ead3 := []
    idCredI := [0xa1, 0x04, 0x2b], credI := [0xa1, 1, 2]
    gX := List.replicate 32 1, x := List.replicate 32 1, i := List.replicate 32 2
    skI := List.replicate 32 3, pkI := List.replicate 32 3 }

/-- responder of the examples: C_R = h'cc27', ID_CRED_R = {34: [-15, h'0102']} -/
def toyR : RCtx :=
  { cR := [0xcc, 0x27], cRMem := [], suitesR := [0], gY := List.replicate 32 5
    y := List.replicate 32 5, r := List.replicate 32 6, ead2 := [], ead4 := []
    idCredR := [0xa1, 0x18, 0x22, 0x82, 0x2e, 0x42, 1, 2], credR := [0xa1, 3, 4]
    skR := List.replicate 32 7, pkR := List.replicate 32 7 }

/-- what the initiator knows of the responder -/
def toyCredsR : List Cred :=
  [⟨[0xa1, 0x18, 0x22, 0x82, 0x2e, 0x42, 1, 2], [0xa1, 3, 4], List.replicate 32 7,
    List.replicate 32 6, [], []⟩]
/-- what the responder knows of the initiator -/
def toyCredsI : List Cred :=
  [⟨[0xa1, 0x04, 0x2b], [0xa1, 1, 2], List.replicate 32 3, List.replicate 32 2, [], []⟩]

/-- a network that will deliver the given messages -/
def netOf (ms : List Bytes) : Net := ⟨ms.map .inr, [], [], [], []⟩

end Verif.Edhoc
