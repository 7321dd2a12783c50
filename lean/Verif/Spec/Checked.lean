import Verif.Spec.Rfc8613
import Verif.Model.Unprotect
/-
RFC 8613, 5.2, 5.4, 8.2 and 8.4: with which nonce and additional authenticated data a receiver checks a packet.  Assumptions
about forgeries are made for these values only: for the AEAD with an 8-byte tag every ciphertext is accepted under some
nonce and some additional data.
-/
namespace Verif

/-- The packet `inp` is `p`, and its OSCORE option has the Partial IV `piv` and the kid `kid` (empty when absent). -/
def HasOption (inp : Bytes) (p : Pkt) (piv kid : Bytes) : Prop :=
  ∃ t o, coapParse inp = .ok (p, t) ∧ oscoreOptionParser t = .ok o ∧ o.read = .ok (piv, kid)

/-- `n` is the nonce for this ID and Partial IV (the Common IV of a context has 13 bytes) -/
def IsNonce (c : Ctx) (id piv n : Bytes) : Prop := c.commonIv.length = 13 → n = Rfc8613.nonce id piv c.commonIv

/-- A receiver in the state `c` checks the packet `inp` with the nonce `n`, the additional authenticated data `a` and the
ciphertext `ct`. -/
inductive Checked (c : Ctx) (inp : Bytes) : Bytes → Bytes → Bytes → Prop
  /-- a request, with the kid and the Partial IV it carries -/
  | request {p piv n} (ho : HasOption inp p piv c.recipientId) (hreq : isRequest p = true)
      (hn : IsNonce c c.recipientId piv n) : Checked c inp n (Rfc8613.aad c.recipientId piv) p.payload
  /-- a response with a Partial IV of its own, bound to the outstanding request `r` with its token -/
  | ownPiv {p piv kid n r} (ho : HasOption inp p piv kid) (hrsp : isRequest p = false) (hpiv : piv ≠ [])
      (hr : some r ∈ c.inter) (ht : r.token = p.token) (hn : IsNonce c kid piv n) :
      Checked c inp n (Rfc8613.aad r.kid r.piv) p.payload
  /-- a response without a Partial IV, bound to the outstanding request `r`: the nonce in the context -/
  | samePiv {p t o r} (hp : coapParse inp = .ok (p, t)) (ho : oscoreOptionParser t = .ok o) (hpiv : o.piv.len = 0)
      (hrsp : isRequest p = false) (hr : some r ∈ c.inter) (ht : r.token = p.token) : Checked c inp c.nonce (Rfc8613.aad r.kid r.piv) p.payload

theorem Checked.payload {c : Ctx} {inp n a ct : Bytes} {p : Pkt} (h : Checked c inp n a ct) (hp : coapDeserialize inp = .ok p) :
    ct = p.payload := by
  have same : ∀ {p' t}, coapParse inp = .ok (p', t) → p' = p := by
    intro p' t hh; simpa [coapDeserialize, hh] using hp
  cases h with
  | request ho => obtain ⟨t, o, g, -⟩ := ho; rw [same g]
  | ownPiv ho => obtain ⟨t, o, g, -⟩ := ho; rw [same g]
  | samePiv g => rw [same g]

/-- The packet is accepted by the AEAD in the state `c`, with the plaintext `pt` -/
def Authentic (C : Crypto) (c : Ctx) (inp pt : Bytes) : Prop :=
  ∃ n a ct, Checked c inp n a ct ∧ C.aeadDec c.recipientKey n a 8 ct = some pt

/-- The packet is not accepted by the AEAD in the state `c` -/
def Rejected (C : Crypto) (c : Ctx) (inp : Bytes) : Prop :=
  ∀ n a ct, Checked c inp n a ct → C.aeadDec c.recipientKey n a 8 ct = none

theorem not_rejected {C : Crypto} {c : Ctx} {inp pt : Bytes} (h : Authentic C c inp pt) : ¬Rejected C c inp := by
  obtain ⟨n, a, ct, h1, h2⟩ := h
  intro h
  rw [h n a ct h1] at h2
  cases h2

end Verif
