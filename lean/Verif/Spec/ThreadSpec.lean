import Verif.Model.PsaThreads
import Verif.Spec.CryptoSpec
/-
What the threads of a device may expect of src/common/crypto_wrapper.c.
-/
namespace Verif.Psa
open Verif Verif.Edhoc

/-- The library does not carry out this call, because of its arguments. -/
def Refused (cfg : Cfg) (l : Lib) : Call → Prop
  | .aeadEnc key nonce aad t pt _ => l.keyOk (.aes (key.length * 8) t) key = false ∨ l.aeadEnc key nonce aad t pt = none
  | .aeadDec key nonce aad t ct _ => l.keyOk (.aes (key.length * 8) t) key = false ∨ l.aeadDec key nonce aad t ct = none
  | .sign .eddsa _ _ _ => False
  | .sign .es256 sk _ msg => l.keyOk (.signPair (sk.length * 8)) sk = false ∨
      ∃ rnd, ∀ s, l.sign rnd sk msg = some s → s.length ≠ 64
  | .verify .eddsa _ _ _ => False
  | .verify .es256 pk _ _ => l.keyOk (.verifyKey 256) pk = false
  | .extract salt _ => l.keyOk .hmac (saltKey salt) = false
  | .expand prk info L => l.keyOk .hmac prk = false ∨ 255 * 32 < L ∨ cfg.infoMax < info.length
  | .hkdf secret salt info L => l.keyOk .hmac (saltKey salt) = false ∨
      l.keyOk .hmac (l.mac (saltKey salt) secret) = false ∨ 255 * 32 < L ∨ cfg.infoMax < info.length
  | .dh .x25519 _ _ _ => False
  | .dh .p256 junk sk pk => l.keyOk (.dhPair 0) sk = false ∨
      ¬ ∃ q s, P256.uncompressPoint junk pk 65 = .ok q ∧ l.agree sk q = some s ∧ s.length ≤ sk.length
  | .keyGen .x25519 seed _ _ _ => (l.sha256 (KeyGen.seedBytes seed)).length ≠ 32
  | .keyGen .p256 _ _ _ pk0 => pk0.length < 32 ∨ ∃ n, 32 < (l.generate n).length ∨ (l.pub (l.generate n)).length ≠ 65
  | .hash m => (l.sha256 m).length ≠ 32

/-- A verification says exactly whether the signature is good (`Correct` lets it say no). -/
def Decided (l : Lib) : Call → Out → Prop
  | .verify .es256 pk msg sgn, o => o = .flag (l.verify pk msg sgn)
  | _, _ => True

/-- the call has returned, with `r` -/
def Job.returned (j : Job) (r : R Out) : Prop := j.rest.result = some r

/-- the call has not returned yet -/
def Job.running (j : Job) : Bool := j.rest.result.isNone

/-- the call has returned an error -/
def Job.failed (j : Job) : Bool := match j.rest.result with
  | some (.err _) => true
  | _ => false

/-- every call has returned -/
def World.idle (w : World) : Prop := ∀ j ∈ w.jobs, ∃ r, j.returned r

/-- every function is called with buffers as large as it expects -/
def Event.Sized : Event → Prop
  | .start c => c.Sized
  | _ => True

/-- `P` holds of the library before, after and all the time during the history -/
def World.always (P : St → Prop) (cfg : Cfg) (e : Env) (w : World) : List Event → Prop
  | [] => P w.st
  | v :: l => P w.st ∧ (w.step cfg e v).always P cfg e l

/-- nobody is using the library yet -/
structure World.Fresh (w : World) : Prop where
  jobs : w.jobs = []
  /-- what is in the store are the keys of the application -/
  keys : w.st.slots = w.app
  /-- identifiers of keys are unique -/
  unique : (w.app.map (·.id)).Nodup

/-- the call that begins with this event -/
def Event.started : Event → Option Call
  | .start c => some c
  | _ => none

/-- is the event a step of call `i`? -/
def Event.isGo (i : Nat) : Event → Bool
  | .go j => j == i
  | _ => false

end Verif.Psa
