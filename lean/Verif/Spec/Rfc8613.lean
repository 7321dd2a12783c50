import Verif.Spec.CoapSpec
import Verif.Spec.OscoreCborSpec
import Verif.Model.Crypto
/-
RFC 8613 (OSCORE), sections 4-6 and 8: which packet protects a CoAP message.  Written from the RFC; nothing here refers
to the code.  The only algorithm is AES-CCM-16-64-128 (8-byte tag, 13-byte nonce).
-/
namespace Verif.Rfc8613

/-- a CoAP message (RFC 7252): options by number and value, in the order of transmission -/
structure Msg where
  ver : Nat
  type : Nat
  code : UInt8
  mid : Nat
  token : Bytes
  opts : List (Nat × Bytes)
  payload : Bytes
  deriving DecidableEq

/-- the message on the wire -/
def Msg.wire (m : Msg) : Bytes :=
  Spec.wire m.ver m.type m.token.length m.code m.mid m.token m.opts m.payload

/-- a request: code class 0 (RFC 7252, 3) -/
def Msg.isReq (m : Msg) : Prop := m.code.toNat < 32

instance (m : Msg) : Decidable m.isReq := by unfold Msg.isReq; infer_instance

/-- Figure 5: options of class U: Uri-Host 3, Uri-Port 7, OSCORE 9, Proxy-Uri 35, Proxy-Scheme 39; and EDHOC 21
(RFC 9668, 3.1). -/
def classU (n : Nat) : Prop := n = 3 ∨ n = 7 ∨ n = 9 ∨ n = 21 ∨ n = 35 ∨ n = 39

instance (n : Nat) : Decidable (classU n) := by unfold classU; infer_instance

/-- 4.1.1 and 4.1.3.5: the inner option for an option of the message.  Observe is inner and outer; the inner Observe
of a response has an empty value. -/
def innerOption (req : Prop) [Decidable req] (o : Nat × Bytes) : Option (Nat × Bytes) :=
  if o.1 = 6 then some (6, if req then o.2 else [])
  else if classU o.1 then none
  else some o

/-- the inner options -/
def Msg.inner (m : Msg) : List (Nat × Bytes) := m.opts.filterMap (innerOption m.isReq)

/-- the outer options, without the OSCORE option -/
def Msg.outer (m : Msg) : List (Nat × Bytes) := m.opts.filter (fun o => decide (classU o.1 ∨ o.1 = 6))

/-- the message has an Observe option -/
def Msg.observes (m : Msg) : Prop := ∃ o ∈ m.opts, o.1 = 6

instance (m : Msg) : Decidable m.observes := by unfold Msg.observes; infer_instance

/-- 5.3: code, inner options, payload marker and payload -/
def Msg.plaintext (m : Msg) : Bytes :=
  m.code :: (Spec.wireOpts 0 m.inner ++ (if m.payload = [] then [] else 0xFF :: m.payload))

/-- left-padding with zeros -/
def padTo (n : Nat) (x : Bytes) : Bytes := List.replicate (n - x.length) 0 ++ x

/-- 5.2: the nonce, from the ID of the endpoint that made the Partial IV, the Partial IV and the Common IV -/
def nonce (idPiv piv iv : Bytes) : Bytes :=
  List.zipWith (· ^^^ ·) ([UInt8.ofNat idPiv.length] ++ padTo 7 idPiv ++ padTo 5 piv) iv

/-- 4.2: the outer code: POST or 2.04, for messages with Observe FETCH or 2.05 -/
def Msg.outerCode (m : Msg) : UInt8 :=
  if m.isReq then (if m.observes then 0x05 else 0x02) else (if m.observes then 0x45 else 0x44)

/-- 6.1: the value of the OSCORE option, `0 0 0 h k n n n | Partial IV | s | kid context | kid` -/
def optionValue (piv : Bytes) (kctx kid : Option Bytes) : Bytes :=
  if piv = [] ∧ kctx = none ∧ kid = none then []
  else
    [UInt8.ofNat (piv.length + (if kid.isSome then 8 else 0) + (if kctx.isSome then 16 else 0))] ++ piv ++
      (match kctx with
        | none => []
        | some s => UInt8.ofNat s.length :: s) ++
      kid.getD []

/-- 5.4 (with RFC 9052, 5.3): the additional authenticated data, from kid and Partial IV of the request -/
def aad (reqKid reqPiv : Bytes) : Bytes := Cbor.enc (Cbor.oscoreEncStructure reqKid reqPiv)

/-- the OSCORE option goes among the outer options where its number 9 belongs -/
def insertOscore (v : Bytes) (os : List (Nat × Bytes)) : List (Nat × Bytes) :=
  os.takeWhile (fun o => decide (o.1 ≤ 9)) ++ [(9, v)] ++ os.dropWhile (fun o => decide (o.1 ≤ 9))

/-- the OSCORE message with the ciphertext `ct` and the OSCORE option value `v` -/
def Msg.outerMsg (m : Msg) (v ct : Bytes) : Msg :=
  { m with code := m.outerCode, opts := insertOscore v m.outer, payload := ct }

/-- 8.1-8.3, common part: the plaintext is encrypted with the nonce `n`, bound to the request `(reqKid, reqPiv)` -/
def protect (C : Crypto) (key n reqKid reqPiv v : Bytes) (m : Msg) : Option Bytes :=
  (C.aeadEnc key n (aad reqKid reqPiv) 8 m.plaintext).map fun ct => (m.outerMsg v ct).wire

/-- 8.1: a protected request of the endpoint with Sender ID `id` and Sender Key `key` -/
def request (C : Crypto) (key iv id piv : Bytes) (kctx : Option Bytes) (m : Msg) : Option Bytes :=
  protect C key (nonce id piv iv) id piv (optionValue piv kctx (some id)) m

/-- 8.3: a protected response that uses the nonce of the request (made by the requester with its ID `reqKid`) -/
def responseSameNonce (C : Crypto) (key iv reqKid reqPiv : Bytes) (kctx kid : Option Bytes) (m : Msg) : Option Bytes :=
  protect C key (nonce reqKid reqPiv iv) reqKid reqPiv (optionValue [] kctx kid) m

/-- 8.3 and 8.3.1: a protected response or notification with a Partial IV of its own, of the endpoint with Sender ID
`id`; kid and kid context may be left out -/
def responseNewPiv (C : Crypto) (key iv id piv reqKid reqPiv : Bytes) (kctx kid : Option Bytes) (m : Msg) :
    Option Bytes :=
  protect C key (nonce id piv iv) reqKid reqPiv (optionValue piv kctx kid) m

end Verif.Rfc8613
