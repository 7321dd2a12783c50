import Verif.Spec.CborSpec
import Verif.Spec.HkdfSpec
/-
EDHOC (RFC 9528) as a specification: cipher suites, key schedule, transcript hashes, authentication
fields and messages, over an arbitrary hash `H`, an arbitrary `hmac` and CBOR data items.
-/
namespace Verif.EdhocSpec
open Verif.Cbor

/-- RFC 9528, 10.2 (cipher suites 0 to 3): AEAD (COSE id), MAC length in bytes, ECDH curve (COSE id),
signature algorithm (COSE id), application AEAD.  The hash is SHA-256 in all of them. -/
def suite : Nat → Option (Int × Nat × Int × Int × Int)
  | 0 => some (10, 8, 4, -8, 10)
  | 1 => some (30, 16, 4, -8, 10)
  | 2 => some (10, 8, 1, -7, 10)
  | 3 => some (30, 16, 1, -7, 10)
  | _ => none

/-- RFC 9528, 3.2, table 2: does (initiator, responder) authenticate with a static DH key? -/
def method : Int → Option (Bool × Bool)
  | 0 => some (false, false)
  | 1 => some (false, true)
  | 2 => some (true, false)
  | 3 => some (true, true)
  | _ => none

/-- RFC 9528, 4.1.2: `info = (info_label: int, context: bstr, length: uint)` as a CBOR sequence -/
def info (label : Nat) (context : Bytes) (L : Nat) : Bytes :=
  encList [.uint label, .bstr context, .uint L]

/-- RFC 9528, 4.1.2: EDHOC_KDF -/
def kdf (hmac : Bytes → Bytes → Bytes) (prk : Bytes) (label : Nat) (context : Bytes) (L : Nat) : Bytes :=
  Hkdf.expand hmac prk (info label context L) L

/-- RFC 9528, 5.3.2: TH_2 = H(G_Y, H(message_1)) -/
def th2 (H : Bytes → Bytes) (gY message1 : Bytes) : Bytes := H (encList [.bstr gY, .bstr (H message1)])

/-- RFC 9528, 5.4.2 and 5.5.2: TH_3 = H(TH_2, PLAINTEXT_2, CRED_R), TH_4 = H(TH_3, PLAINTEXT_3, CRED_I) -/
def thNext (H : Bytes → Bytes) (th plaintext cred : Bytes) : Bytes :=
  H (enc (.bstr th) ++ plaintext ++ cred)

/-- RFC 9528, 4.1.1.2 and 4.1.1.3: PRK_3e2m and PRK_4e3m.  `salt` is the KDF label (1 or 5), `dh` the
static-DH secret (`none`: the party does not authenticate with static DH) -/
def prkNext (hmac : Bytes → Bytes → Bytes) (prk : Bytes) (salt : Nat) (th : Bytes) : Option Bytes → Bytes
  | none => prk
  | some dh => Hkdf.extract hmac (kdf hmac prk salt th 32) dh

/-- RFC 9528, 5.3.2: MAC length (that of the suite with static DH, else the hash length) -/
def macLength (staticDh : Bool) (suiteMacLen : Nat) : Nat := if staticDh then suiteMacLen else 32

/-- RFC 9528, 5.3.2/5.4.2 and RFC 9052, 4.4: Sig_structure of Signature_or_MAC.  `mac` is MAC_2 or
MAC_3. -/
def sigStructure (idCred th cred ead mac : Bytes) : Bytes :=
  enc (.arr [.tstr "Signature1".toUTF8.toList, .bstr idCred, .bstr (enc (.bstr th) ++ cred ++ ead), .bstr mac])

/-- RFC 9528, 5.3.2: Enc_structure of message 3 and 4, the associated data -/
def encStructure (th : Bytes) : Bytes :=
  enc (.arr [.tstr "Encrypt0".toUTF8.toList, .bstr [], .bstr th])

/-- RFC 9528, 3.3.2: a connection identifier that is the encoding of a one-byte CBOR integer is that
integer, any other is a byte string -/
def connId : Bytes → Item
  | [b] => if b.toNat ≤ 0x17 then .uint b.toNat
      else if 0x20 ≤ b.toNat ∧ b.toNat ≤ 0x37 then .nint (b.toNat - 0x20)
      else .bstr [b]
  | c => .bstr c

/-- RFC 9528, 5.2.1: SUITES_I, one suite as an integer, several as an array -/
def suites : Bytes → Item
  | [s] => .uint s.toNat
  | l => .arr (l.map fun s => .uint s.toNat)

/-- an optional EAD.  (RFC 9528 has EAD items; this library carries one byte string.) -/
def optEad (ead : Bytes) : List Item := if ead = [] then [] else [.bstr ead]

/-- RFC 9528, 5.2.1: message_1 -/
def message1 (method : Int) (suitesI gX cI ead1 : Bytes) : Bytes :=
  encList ([.int method, suites suitesI, .bstr gX, connId cI] ++ optEad ead1)

/-! ### a session: RFC 9528, 4.1, 5.3.2, 5.4.2, 5.5.2 -/

/-- what the keys of a session are computed from: message_1, G_Y, the shared secret G_XY, the static-DH
secrets G_RX and G_IY (`none`: that party signs), plaintexts and credentials -/
structure Session where
  message1 : Bytes
  gY : Bytes
  gXY : Bytes
  gRX : Option Bytes
  gIY : Option Bytes
  plaintext2 : Bytes
  credR : Bytes
  plaintext3 : Bytes
  credI : Bytes

namespace Session
variable (H : Bytes → Bytes) (hmac : Bytes → Bytes → Bytes) (s : Session)

/-- TH_2 -/
def TH2 : Bytes := th2 H s.gY s.message1
/-- PRK_2e = EDHOC_Extract(TH_2, G_XY) -/
def PRK2e : Bytes := Hkdf.extract hmac (s.TH2 H) s.gXY
/-- PRK_3e2m, with SALT_3e2m (label 1) -/
def PRK3e2m : Bytes := prkNext hmac (s.PRK2e H hmac) 1 (s.TH2 H) s.gRX
/-- TH_3 -/
def TH3 : Bytes := thNext H (s.TH2 H) s.plaintext2 s.credR
/-- PRK_4e3m, with SALT_4e3m (label 5) -/
def PRK4e3m : Bytes := prkNext hmac (s.PRK3e2m H hmac) 5 (s.TH3 H) s.gIY
/-- TH_4 -/
def TH4 : Bytes := thNext H (s.TH3 H) s.plaintext3 s.credI
/-- PRK_out = EDHOC_KDF(PRK_4e3m, 7, TH_4, length) -/
def PRKout (L : Nat) : Bytes := kdf hmac (s.PRK4e3m H hmac) 7 (s.TH4 H) L
/-- KEYSTREAM_2 = EDHOC_KDF(PRK_2e, 0, TH_2, plaintext_length) -/
def KEYSTREAM2 (n : Nat) : Bytes := kdf hmac (s.PRK2e H hmac) 0 (s.TH2 H) n
/-- K_3 and IV_3 -/
def K3 : Bytes := kdf hmac (s.PRK3e2m H hmac) 3 (s.TH3 H) 16
def IV3 : Bytes := kdf hmac (s.PRK3e2m H hmac) 4 (s.TH3 H) 13
/-- K_4 and IV_4 -/
def K4 : Bytes := kdf hmac (s.PRK4e3m H hmac) 8 (s.TH4 H) 16
def IV4 : Bytes := kdf hmac (s.PRK4e3m H hmac) 9 (s.TH4 H) 13
/-- MAC_2 = EDHOC_KDF(PRK_3e2m, 2, << C_R, ID_CRED_R, TH_2, CRED_R, ? EAD_2 >>, mac_length_2) -/
def MAC2 (cR idCredR ead2 : Bytes) (n : Nat) : Bytes :=
  kdf hmac (s.PRK3e2m H hmac) 2 (enc (connId cR) ++ idCredR ++ enc (.bstr (s.TH2 H)) ++ s.credR ++ ead2) n
/-- MAC_3 = EDHOC_KDF(PRK_4e3m, 6, << ID_CRED_I, TH_3, CRED_I, ? EAD_3 >>, mac_length_3) -/
def MAC3 (idCredI ead3 : Bytes) (n : Nat) : Bytes :=
  kdf hmac (s.PRK4e3m H hmac) 6 (idCredI ++ enc (.bstr (s.TH3 H)) ++ s.credI ++ ead3) n
end Session

end Verif.EdhocSpec
