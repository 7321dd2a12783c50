import Verif.Props.P256Dh
import Verif.Props.EdhocAuthn
/-
C53, continued: EDHOC with P-256 in the MBEDTLS configuration.
-/
namespace Verif.Edhoc
open Verif.P256 (Psa p256Shared p256KeyGen PsaOk)

/-- the shared secret primitive of EDHOC is the P-256 agreement of the MBEDTLS configuration -/
def MbedP256 (C : ECrypto) (psa : Psa) (junk : P256.Limbs) : Prop :=
  junk.length = 8 ∧ ∀ sk pk, C.dh .p256 sk pk =
    match p256Shared psa junk sk pk with
    | .ok s => some s
    | _ => none

/-- **C53** Ephemeral keys: what C39 assumes of the Diffie-Hellman primitive holds of generated keys. -/
theorem C53_edhoc_ephemeral (C : ECrypto) (psa : Psa) (junk : P256.Limbs) (G : P256Spec.curve.Point)
    (hp : PsaOk psa G) (hC : MbedP256 C psa junk) (n m capA capB : Nat) (x gX y gY : Bytes)
    (hx : p256KeyGen psa n capA = .ok (x, gX)) (hy : p256KeyGen psa m capB = .ok (y, gY)) :
    C.dh .p256 x gY = C.dh .p256 y gX := by
  have key := (P256.C53_agreement_partial psa G hp junk junk hC.1 hC.1 n m capA capB x gX y gY hx hy).1
  rw [hC.2, hC.2]
  cases h : p256Shared psa junk x gY with
  | ok s => rw [(key s).1 h]
  | err e =>
    cases h2 : p256Shared psa junk y gX with
    | ok t => rw [(key t).2 h2] at h; cases h
    | err e => rfl
    | ub => rfl
  | ub =>
    cases h2 : p256Shared psa junk y gX with
    | ok t => rw [(key t).2 h2] at h; cases h
    | err e => rfl
    | ub => rfl

/-- **C53** Public values that are no x-coordinate never give a shared secret in EDHOC. -/
theorem C53_edhoc_invalid (C : ECrypto) (psa : Psa) (junk : P256.Limbs) (hC : MbedP256 C psa junk)
    (sk pk : Bytes) (h : pk.length ≠ 32 ∨ ∀ y, ¬ P256Spec.OnCurve (P256Spec.be pk) y) :
    sharedSecret C .p256 sk pk = .err .unexpected_result_from_ext_lib := by
  unfold sharedSecret
  rw [if_neg (by simp), hC.2, P256.C53_invalid_refused psa junk sk pk hC.1 h]

/-- an ID_CRED that refers to a stored credential -/
def RefersToStored (cfg : ECfg) (idCred : Bytes) : Prop :=
  ∃ m r, zIdMap cfg.strictCbor idCred = some (m, r) ∧
    (m.kid.isSome ∨ m.x5u.isSome ∨ m.x5t.isSome ∨ m.c5u.isSome ∨ m.c5t.isSome)

theorem getLocalCred_65 {creds : List Cred} (h65 : ∀ c ∈ creds, c.g.length = 65) {idCred : Bytes} {cap : Nat}
    {cred pk g : Bytes} (h : getLocalCred true idCred cap creds = .ok (cred, pk, g)) : g.length = 33 := by
  induction creds with
  | nil => simp [getLocalCred] at h
  | cons c cs ih =>
    unfold getLocalCred at h
    split at h
    · obtain ⟨_, _, h⟩ := R.bind_eq_ok.1 h
      obtain ⟨⟨pk', g'⟩, hk, h⟩ := R.bind_eq_ok.1 h
      simp only [R.pure_eq, R.ok.injEq, Prod.mk.injEq] at h
      obtain ⟨_, _, rfl⟩ := h
      unfold localKeys at hk
      have hg := h65 c List.mem_cons_self
      rw [if_pos rfl, if_pos hg] at hk
      obtain ⟨t, ht, hk⟩ := R.bind_eq_ok.1 hk
      simp only [R.pure_eq, R.ok.injEq, Prod.mk.injEq] at hk
      obtain ⟨_, rfl⟩ := hk
      obtain ⟨rfl, _⟩ := memcpyS_ok.1 ht
      simp only [List.length_cons, List.length_take, List.length_drop, hg]
      rfl
    · exact ih (fun c hc => h65 c (List.mem_cons_of_mem _ hc)) h

/-- **C53_false** A static Diffie-Hellman key stored as an uncompressed P-256 point (65 bytes, the case
retrieve_cred.c:115 provides for) can never be used in the MBEDTLS configuration: the derivation of the
key that authenticates the peer fails whatever the peer sent. -/
theorem C53_false (cfg : ECfg) (C : ECrypto) (psa : Psa) (junk : P256.Limbs) (hC : MbedP256 C psa junk)
    (creds : List Cred) (h65 : ∀ c ∈ creds, c.g.length = 65) (idCred : Bytes)
    (hid : RefersToStored cfg idCred) (suite : Suite) (hs : suite.ecdh = .p256) (label cap : Nat)
    (context prk sk : Bytes) :
    ∀ cred pk g, retrieveCred cfg C true creds idCred cap = .ok (cred, pk, g) →
      prkDerive cfg C true suite label context prk g sk = .err .unexpected_result_from_ext_lib := by
  intro cred pk g h
  obtain ⟨m, r, hm, hk⟩ := hid
  unfold retrieveCred at h
  rw [hm] at h
  simp only [] at h
  rw [if_pos hk] at h
  have hg := getLocalCred_65 h65 h
  unfold prkDerive
  rw [if_pos rfl, hs, C53_edhoc_invalid C psa junk hC sk g (.inl (by omega))]
  rfl

/-- **C53_false** for whole runs: an initiator in a method where the responder uses static Diffie-Hellman
never finishes if it stores the responder's key uncompressed (and there is no certificate it accepts). -/
theorem C53_false_initiator (cfg : ECfg) (C : ECrypto) (psa : Psa) (junk : P256.Limbs)
    (hC : MbedP256 C psa junk) (c : ICtx) (hm : c.method = 1 ∨ c.method = 3) (creds : List Cred)
    (h65 : ∀ c ∈ creds, c.g.length = 65) (crBuf : Bytes) (L : Nat) (n : Net)
    (hs : ∀ s, getSuite (c.suitesI.getLastD 0).toNat = .ok s → s.ecdh = .p256)
    (hcert : ∀ idCred cap r, retrieveCred cfg C true creds idCred cap = .ok r → RefersToStored cfg idCred) :
    ∀ o n', initiatorRun cfg C c creds crBuf L n ≠ (.ok o, n') := by
  intro o n' h
  obtain ⟨m1, suite, h1, m2, q, st, m3, e1, -, e2, -⟩ := initiatorRun_ok h
  have hsu : suite.ecdh = .p256 := by
    apply hs
    unfold msg1Gen at e1
    obtain ⟨_, _, e1⟩ := R.bind_eq_ok.1 e1
    obtain ⟨_, _, e1⟩ := R.bind_eq_ok.1 e1
    obtain ⟨_, _, e1⟩ := R.bind_eq_ok.1 e1
    obtain ⟨su, hsu, e1⟩ := R.bind_eq_ok.1 e1
    simp only [R.pure_eq, R.ok.injEq, Prod.mk.injEq] at e1
    obtain ⟨_, rfl, _⟩ := e1
    exact hsu
  have hsR : (authType c.method (false, false)).2 = true := by
    rcases hm with h | h <;> rw [h] <;> rfl
  rw [hsR] at e2
  unfold msg2Process at e2
  obtain ⟨_, _, e2⟩ := R.bind_eq_ok.1 e2
  obtain ⟨⟨gY, c2⟩, _, e2⟩ := R.bind_eq_ok.1 e2
  obtain ⟨gxy, _, e2⟩ := R.bind_eq_ok.1 e2
  obtain ⟨th2, _, e2⟩ := R.bind_eq_ok.1 e2
  obtain ⟨ptxt, _, e2⟩ := R.bind_eq_ok.1 e2
  obtain ⟨⟨cR, s⟩, _, e2⟩ := R.bind_eq_ok.1 e2
  unfold msg2Auth at e2
  obtain ⟨⟨credR, pk, gR⟩, hr, e2⟩ := R.bind_eq_ok.1 e2
  obtain ⟨prk, hp, e2⟩ := R.bind_eq_ok.1 e2
  rw [C53_false cfg C psa junk hC creds h65 s.idCred (hcert _ _ _ hr) suite hsu 1 _ _ _ _ _ _ _ hr] at hp
  cases hp

/-- the primitives of the examples with the P-256 agreement of the MBEDTLS configuration -/
noncomputable def toyMbed : ECrypto :=
  { toyE with dh := fun _ sk pk =>
      match p256Shared P256.examplePsa [0, 0, 0, 0, 0, 0, 0, 0] sk pk with
      | .ok s => some s
      | _ => none }

theorem toyMbed_ok : MbedP256 toyMbed P256.examplePsa [0, 0, 0, 0, 0, 0, 0, 0] := ⟨rfl, fun _ _ => rfl⟩

/-- a responder's credential with an uncompressed static DH key: the generator -/
def cred65 : List Cred := [⟨[0xa1, 0x04, 0x2b], [0xa1, 1, 2], [], 4 :: (P256.gx ++ P256.gyb), [], []⟩]

/-- the hypotheses of `C53_false` are met: the credential is found -/
example : (∀ c ∈ cred65, c.g.length = 65) ∧ RefersToStored {} [0xa1, 0x04, 0x2b] ∧
    retrieveCred {} toyMbed true cred65 [0xa1, 0x04, 0x2b] 100 = .ok ([0xa1, 1, 2], [], 2 :: P256.gx) := by
  refine ⟨by simp [cred65, P256.gx, P256.gyb], ⟨_, _, rfl, .inl rfl⟩, ?_⟩
  have e : retrieveCred {} toyMbed true cred65 [0xa1, 0x04, 0x2b] 100
      = getLocalCred true [0xa1, 0x04, 0x2b] 100 cred65 := rfl
  rw [e]
  decide +kernel

/-- and with the x-coordinate alone stored (32 bytes), the agreement works -/
example : sharedSecret toyMbed .p256 (List.replicate 31 0 ++ [1]) P256.gx = .ok P256.gx := by
  unfold sharedSecret
  rw [if_neg (by simp), toyMbed_ok.2, P256.example_shared _ rfl]

end Verif.Edhoc
