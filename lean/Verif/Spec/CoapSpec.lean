import Verif.Model.Coap
/-
CoAP wire format as in RFC 7252, section 3, written independently of the code.
An option is given by its number and value; deltas are computed from consecutive numbers.
-/
namespace Verif.Spec

/-- RFC 7252 §3.1: nibble and extension bytes of an option delta or option length -/
def extField (x : Nat) : Nat × Bytes :=
  if x ≤ 12 then (x, [])
  else if x ≤ 268 then (13, [UInt8.ofNat (x - 13)])
  else (14, [UInt8.ofNat ((x - 269) / 256), UInt8.ofNat ((x - 269) % 256)])

/-- RFC 7252 §3.1: the option sequence after an option with number `prev` -/
def wireOpts : Nat → List (Nat × Bytes) → Bytes
  | _, [] => []
  | prev, (num, v) :: os =>
    let d := extField (num - prev)
    let l := extField v.length
    [UInt8.ofNat (16 * d.1 + l.1)] ++ d.2 ++ l.2 ++ v ++ wireOpts num os

/-- RFC 7252 §3: the whole message -/
def wire (ver type tkl : Nat) (code : UInt8) (mid : Nat) (token : Bytes)
    (opts : List (Nat × Bytes)) (payload : Bytes) : Bytes :=
  [UInt8.ofNat (64 * ver + 16 * type + tkl), code, UInt8.ofNat (mid / 256), UInt8.ofNat (mid % 256)]
    ++ token ++ wireOpts 0 opts ++ (if payload = [] then [] else 0xFF :: payload)

/-- options in ascending order with consistent deltas, 16-bit numbers -/
def sortedFrom : Nat → List Opt → Prop
  | _, [] => True
  | prev, o :: os => prev ≤ o.num ∧ o.num < 65536 ∧ o.delta = o.num - prev ∧ sortedFrom o.num os

/-- What a well-formed CoAP message in the library's packet structure is:
fields in range, at most 20 options (the size of the option array), options in ascending order,
16-bit lengths. -/
structure WellFormed (p : Pkt) : Prop where
  ver : p.ver < 4
  type : p.type < 4
  mid : p.mid < 65536
  token : p.token.length ≤ 8
  count : p.opts.length ≤ 20
  sorted : sortedFrom 0 p.opts
  lens : ∀ o ∈ p.opts, o.value.length < 65536

instance : (n : Nat) → (l : List Opt) → Decidable (sortedFrom n l)
  | _, [] => isTrue trivial
  | _, o :: os =>
    have := instDecidableSortedFrom o.num os
    by unfold sortedFrom; infer_instance

end Verif.Spec
