import Verif.Model.PsaStore
import Verif.Spec.HkdfSpec
/-
What the functions of inc/common/crypto_wrapper.h promise, in terms of the algorithms.
-/
namespace Verif.Psa
open Verif Verif.Edhoc

/-- Sizes the algorithms guarantee. -/
structure Lib.Lawful (l : Lib) : Prop where
  mac_len : ∀ k m, (l.mac k m).length = 32
  enc_len : ∀ k n a t p c, l.aeadEnc k n a t p = some c → c.length = p.length + t
  dec_len : ∀ k n a t p c, l.aeadDec k n a t c = some p → c.length = p.length + t

/-- The caller's part: the buffers and keys are as large as the function expects (which it does not
check), lengths are 32 bit numbers. -/
def Call.Sized : Call → Prop
  | .aeadEnc _ _ _ t pt outCap => pt.length + t ≤ outCap ∧ pt.length + t < 2 ^ 32
  | .aeadDec _ _ _ t ct out => ct.length = out.length + t
  | .sign .eddsa sk pk _ => 32 ≤ sk.length ∧ 32 ≤ pk.length
  | .sign .es256 _ _ _ => True
  | .verify .eddsa pk _ sgn => 32 ≤ pk.length ∧ 64 ≤ sgn.length
  | .verify .es256 _ _ _ => True
  | .extract _ _ => True
  | .expand _ _ L => L + 31 < 2 ^ 32
  | .hkdf _ _ _ L => L + 31 < 2 ^ 32
  | .dh .x25519 _ sk pk => 32 ≤ sk.length ∧ 32 ≤ pk.length
  | .dh .p256 _ _ _ => True
  | .keyGen .. => True
  | .hash _ => True

/-- What a successful call must have handed back. -/
def Correct (l : Lib) : Call → Out → Prop
  | .aeadEnc key nonce aad t pt _, o =>
    ∃ c, l.aeadEnc key nonce aad t pt = some c ∧ o = .pair c (c.drop (c.length - t))
  | .aeadDec key nonce aad t ct _, o => ∃ p, l.aeadDec key nonce aad t ct = some p ∧ o = .bytes p
  | .sign .eddsa sk pk msg, o => o = .bytes (l.edSign sk pk msg)
  | .sign .es256 sk _ msg, o => ∃ rnd s, l.sign rnd sk msg = some s ∧ s.length = 64 ∧ o = .bytes s
  | .verify .eddsa pk msg sgn, o => o = .flag (l.edVerify pk msg sgn)
  | .verify .es256 pk msg sgn, o => o = .flag true ∧ l.verify pk msg sgn = true ∨ o = .flag false
  | .extract salt ikm, o => o = .bytes (Hkdf.extract l.mac salt ikm)
  | .expand prk info L, o => L ≤ 255 * 32 ∧ o = .bytes (Hkdf.expand l.mac prk info L)
  | .hkdf secret salt info L, o =>
    L ≤ 255 * 32 ∧ o = .bytes (Hkdf.expand l.mac (Hkdf.extract l.mac salt secret) info L)
  | .dh .x25519 _ sk pk, o => o = .bytes (l.x25519 sk pk)
  | .dh .p256 junk sk pk, o =>
    ∃ q s, P256.uncompressPoint junk pk 65 = .ok q ∧ l.agree sk q = some s ∧ o = .bytes s
  | .keyGen .x25519 _ junk _ _, o => o = .pair (l.x25519Gen junk).1 (l.x25519Gen junk).2
  | .keyGen .p256 _ _ _ _, o => ∃ n, (l.pub (l.generate n)).length = 65 ∧
      o = .pair (l.generate n) (((l.pub (l.generate n)).drop 1).take 32)
  | .hash m, o => (l.sha256 m).length = 32 ∧ o = .bytes (l.sha256 m)

/-- The primitives as the models of OSCORE and EDHOC take them, from the library. -/
def cryptoOf (l : Lib) : Crypto where
  hmac := l.mac
  hash := l.sha256
  aeadEnc := fun k n a t p => if l.keyOk (.aes (k.length * 8) t) k then l.aeadEnc k n a t p else none
  aeadDec := fun k n a t c => if l.keyOk (.aes (k.length * 8) t) k then l.aeadDec k n a t c else none

/-- a signature of 64 bytes or none -/
def full64 (x : Option Bytes) : Option Bytes := x.bind fun b => if b.length = 64 then some b else none

/-- The primitives of EDHOC from the library; `rnd` the randomness of a signature, `junk` uninitialised
memory that does not matter (C51). -/
def ecryptoOf (l : Lib) (x509 : Bytes → Option X509) (rnd : Nat) (junk : P256.Limbs) : ECrypto where
  toCrypto := cryptoOf l
  dh := fun a sk pk => match a with
    | .x25519 => some (l.x25519 sk pk)
    | .p256 =>
      if l.keyOk (.dhPair 0) sk then
        match P256.uncompressPoint junk pk 65 with
        | .ok q => fits sk.length (l.agree sk q)
        | _ => none
      else none
  sign := fun a sk pk m => match a with
    | .eddsa => some (l.edSign sk pk m)
    | .es256 => if l.keyOk (.signPair (sk.length * 8)) sk then full64 (l.sign rnd sk m) else none
  verify := fun a pk m s => match a with
    | .eddsa => some (l.edVerify pk m s)
    | .es256 => if l.keyOk (.verifyKey 256) pk then some (l.verify pk m s) else none
  x509 := x509

end Verif.Psa
