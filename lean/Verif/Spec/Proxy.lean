import Verif.Spec.Rfc8613
/-
What a CoAP proxy (RFC 7252, 5.7) may do to an OSCORE message that passes through it (RFC 8613, 10): it makes a new CoAP
message with a type, message ID and token of its own, and consumes, changes or adds the options that are meant for
proxies.  The code, the payload and all other options are end to end.
-/
namespace Verif.Rfc8613

/-- Uri-Host, Uri-Port, Proxy-Uri, Proxy-Scheme -/
def proxyOption (n : Nat) : Prop := n = 3 ∨ n = 7 ∨ n = 35 ∨ n = 39

instance (n : Nat) : Decidable (proxyOption n) := by unfold proxyOption; infer_instance

/-- the options a proxy may change -/
def Msg.proxyOpts (m : Msg) : List (Nat × Bytes) := m.opts.filter (fun o => decide (proxyOption o.1))

/-- the options a proxy leaves alone -/
def Msg.endToEnd (m : Msg) : List (Nat × Bytes) := m.opts.filter (fun o => !decide (proxyOption o.1))

/-- `y` is what a proxy may send on when it has received `x` -/
structure Forwarded (x y : Msg) : Prop where
  code : y.code = x.code
  payload : y.payload = x.payload
  endToEnd : y.endToEnd = x.endToEnd
  sorted : y.opts.Pairwise (fun a b => a.1 ≤ b.1)

/-- `a` goes before the first option with a number that is not smaller, then comes `rest` of what remains -/
def weaveOne (a : Nat × Bytes) (rest : List (Nat × Bytes) → List (Nat × Bytes)) : List (Nat × Bytes) → List (Nat × Bytes)
  | [] => a :: rest []
  | b :: t => if a.1 ≤ b.1 then a :: rest (b :: t) else b :: weaveOne a rest t

/-- two sorted lists of options in one -/
def weave : List (Nat × Bytes) → List (Nat × Bytes) → List (Nat × Bytes)
  | [] => fun l => l
  | a :: s => weaveOne a (weave s)

/-- the message `m` in the wrapping of `y`: version, type, message ID, token and proxy options of `y`; code, payload and all other options
of `m` -/
def Msg.inWrapping (y m : Msg) : Msg :=
  { y with code := m.code, payload := m.payload, opts := weave y.proxyOpts m.endToEnd }

/-- 8.1: the OSCORE message that protects a request (`request` is its wire format) -/
def requestMsg (C : Crypto) (key iv id piv : Bytes) (kctx : Option Bytes) (m : Msg) : Option Msg :=
  (C.aeadEnc key (nonce id piv iv) (aad id piv) 8 m.plaintext).map fun ct => m.outerMsg (optionValue piv kctx (some id)) ct

/-- 8.3: the OSCORE message that protects a response with the nonce of the request -/
def responseMsg (C : Crypto) (key iv reqKid reqPiv : Bytes) (kctx kid : Option Bytes) (m : Msg) : Option Msg :=
  (C.aeadEnc key (nonce reqKid reqPiv iv) (aad reqKid reqPiv) 8 m.plaintext).map fun ct => m.outerMsg (optionValue [] kctx kid) ct

/-- 8.3.1: the OSCORE message that protects a response or notification with a Partial IV of its own -/
def notificationMsg (C : Crypto) (key iv id piv reqKid reqPiv : Bytes) (kctx kid : Option Bytes) (m : Msg) : Option Msg :=
  (C.aeadEnc key (nonce id piv iv) (aad reqKid reqPiv) 8 m.plaintext).map fun ct => m.outerMsg (optionValue piv kctx kid) ct

end Verif.Rfc8613
