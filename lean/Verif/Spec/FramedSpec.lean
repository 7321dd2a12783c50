import Verif.Model.Base
/-
When a received packet is complete: RFC 7252 section 3.1 (options) and RFC 8613 section 6.1 (OSCORE
option value), written without the library's parser.
-/
namespace Verif.Spec

/-- RFC 7252 §3.1: number of extension bytes for a nibble -/
def extBytes (nib : Nat) : Nat := if nib = 13 then 1 else if nib = 14 then 2 else 0

/-- RFC 7252 §3.1: the value of a nibble with its extension bytes -/
def extValue (nib : Nat) (ext : Bytes) : Nat :=
  if nib = 13 then 13 + beVal ext else if nib = 14 then 269 + beVal ext else nib

/-- At most `k` complete options, then the end of the bytes or a payload marker: every announced
extension byte and every announced value byte is there.  Option values have at most 255 bytes or
269 to 524 bytes: the other lengths are computed wrongly by the library (`C66_false_length`).  The
reserved delta nibble 15 may stand in front of anything. -/
inductive Framed : Nat → Bytes → Prop
  | done (k : Nat) : Framed k []
  | payload (k : Nat) (p : Bytes) : Framed k (0xFF :: p)
  | reserved (k : Nat) (h : UInt8) (r : Bytes) (hd : h.toNat / 16 = 15) : Framed k (h :: r)
  | option (k : Nat) (h : UInt8) (d l v r : Bytes)
      (hd : d.length = extBytes (h.toNat / 16)) (hl : l.length = extBytes (h.toNat % 16))
      (hn : h.toNat % 16 ≤ 14)
      (hv : v.length = extValue (h.toNat % 16) l)
      (hok : v.length ≤ 255 ∨ (269 ≤ v.length ∧ v.length ≤ 524))
      (hr : Framed k r) : Framed (k + 1) (h :: (d ++ l ++ v ++ r))

/-- RFC 7252 §3: in a packet with a complete header, what comes after the token is complete -/
def FramedPacket (inp : Bytes) : Prop :=
  ∀ h c m1 m0 rest, inp = h :: c :: m1 :: m0 :: rest → ∃ k, Framed k (rest.drop (h.toNat % 16))

/-- RFC 8613 §6.1: the option value `v` carries this Partial IV, KID context and KID (and all of
them lie inside the value).  Bytes after a value without KID flag are ignored. -/
inductive OscoreFields : (v piv kctx kid : Bytes) → Prop
  | empty : OscoreFields [] [] [] []
  | plain (f : UInt8) (piv r : Bytes) (hn : f.toNat % 8 = piv.length) (h5 : piv.length ≤ 5)
      (hh : f.toNat / 16 % 2 = 0) :
      OscoreFields (f :: (piv ++ r)) piv [] (if f.toNat / 8 % 2 = 0 then [] else r)
  | context (f : UInt8) (piv : Bytes) (s : UInt8) (kctx r : Bytes) (hn : f.toNat % 8 = piv.length)
      (h5 : piv.length ≤ 5) (hh : f.toNat / 16 % 2 = 1) (hs : s.toNat = kctx.length) :
      OscoreFields (f :: (piv ++ s :: (kctx ++ r))) piv kctx (if f.toNat / 8 % 2 = 0 then [] else r)

/-- an OSCORE option value that is complete (or announces a reserved Partial IV length) -/
def OscoreComplete (v : Bytes) : Prop :=
  v.length ≤ 255 ∧ ((∃ f r, v = f :: r ∧ 6 ≤ f.toNat % 8) ∨ ∃ piv kctx kid, OscoreFields v piv kctx kid)

end Verif.Spec
