import Verif.Spec.CborSpec
/-
The CBOR structures of RFC 8613, for the only algorithm the library accepts (AES-CCM-16-64-128 = 10).
-/
namespace Verif.Cbor

/-- RFC 8613, 5.4: `aad_array = [oscore_version: 1, algorithms: [alg_aead], request_kid, request_piv,
options: h'']` -/
def aadArray (kid piv : Bytes) : Item :=
  .arr [.uint 1, .arr [.int 10], .bstr kid, .bstr piv, .bstr []]

/-- "Encrypt0" in ASCII -/
def encrypt0 : Bytes := "Encrypt0".toUTF8.toList

/-- RFC 8613, 5.4 / RFC 9052, 5.3: `Enc_structure = ["Encrypt0", h'', external_aad]` -/
def oscoreEncStructure (kid piv : Bytes) : Item :=
  .arr [.tstr encrypt0, .bstr [], .bstr (enc (aadArray kid piv))]

/-- RFC 8613, 3.2.1: `info = [id, id_context: bstr / nil, alg_aead, type, L]` -/
def oscoreInfo (id idContext : Bytes) (type : String) (L : Nat) : Item :=
  .arr [.bstr id, if idContext = [] then .null else .bstr idContext, .int 10,
    .tstr type.toUTF8.toList, .uint L]

end Verif.Cbor
