import Verif.Props.EdhocAuthn
/-
C43 (credential lookup) and C49 (certificates).
-/
namespace Verif.Edhoc
open Verif Verif.Cbor

/-! ### C43 -/

/-- the ID_CRED_x names a credential by reference: kid, x5t, x5u, c5t or c5u -/
def ByReference (cfg : ECfg) (idCred : Bytes) : Prop :=
  ∃ m x, zIdMap cfg.strictCbor idCred = some (m, x) ∧
    (m.kid.isSome ∨ m.x5u.isSome ∨ m.x5t.isSome ∨ m.c5u.isSome ∨ m.c5t.isSome)

/-- what is expected of a lookup: the first stored credential whose identifier is the given one -/
def lookup (creds : List Cred) (idCred : Bytes) : Option Cred := creds.find? fun c => c.idCred == idCred

/-- the static DH key as the code returns it: an uncompressed point (65 bytes) becomes a compressed one
with the prefix byte 2 -/
def dhKey (g : Bytes) : Bytes := if g.length = 65 then 2 :: (g.drop 1).take 32 else g

theorem retrieve_reference {cfg : ECfg} {C : ECrypto} {sd : Bool} {creds : List Cred} {idCred : Bytes} {cap : Nat}
    (h : ByReference cfg idCred) :
    retrieveCred cfg C sd creds idCred cap = getLocalCred sd idCred cap creds := by
  obtain ⟨m, x, hz, hr⟩ := h
  unfold retrieveCred
  rw [hz]; simp only
  rw [if_pos hr]

theorem getLocal_lookup {sd : Bool} {creds : List Cred} {idCred : Bytes} {cap : Nat} :
    getLocalCred sd idCred cap creds =
      match lookup creds idCred with
      | none => .err .credential_not_found
      | some c => memcpyS cap c.cred >>= fun cred => localKeys sd c >>= fun k => .ok (cred, k.1, k.2) := by
  induction creds with
  | nil => rfl
  | cons c cs ih =>
    unfold getLocalCred lookup
    by_cases h : c.idCred = idCred
    · rw [if_pos ⟨by rw [h], h⟩, List.find?_cons_of_pos (by simp [h])]
      simp only
      cases memcpyS cap c.cred with
      | ok v => cases localKeys sd c <;> rfl
      | err e => rfl
      | ub => rfl
    · rw [if_neg (fun h' => h h'.2), List.find?_cons_of_neg (by simp [h])]
      exact ih

/-- C43: a reference that matches no stored identifier byte for byte is refused. -/
theorem C43_not_found {cfg : ECfg} {C : ECrypto} {sd : Bool} {creds : List Cred} {idCred : Bytes} {cap : Nat}
    (hr : ByReference cfg idCred) (h : ∀ c ∈ creds, c.idCred ≠ idCred) :
    retrieveCred cfg C sd creds idCred cap = .err .credential_not_found := by
  rw [retrieve_reference hr, getLocal_lookup]
  have : lookup creds idCred = none := by
    unfold lookup
    rw [List.find?_eq_none]
    intro c hc; simpa using h c hc
  rw [this]

/-- C43: what is returned for a reference is the first stored credential with that identifier, with its
own keys: the signature key, or the static DH key. -/
theorem C43_found {cfg : ECfg} {C : ECrypto} {sd : Bool} {creds : List Cred} {idCred : Bytes} {cap : Nat}
    {cred pk g : Bytes} (hr : ByReference cfg idCred)
    (h : retrieveCred cfg C sd creds idCred cap = .ok (cred, pk, g)) :
    ∃ pre c post, creds = pre ++ c :: post ∧ c.idCred = idCred ∧ (∀ d ∈ pre, d.idCred ≠ idCred) ∧
      cred = c.cred ∧ (sd = false → pk = c.pk ∧ g = []) ∧ (sd = true → pk = [] ∧ g = dhKey c.g) := by
  rw [retrieve_reference hr, getLocal_lookup] at h
  split at h
  · cases h
  · rename_i c hc
    unfold lookup at hc
    rw [List.find?_eq_some_iff_append] at hc
    obtain ⟨hid, pre, post, hcr, hpre⟩ := hc
    obtain ⟨cr, h1, h⟩ := R.bind_eq_ok.1 h
    obtain ⟨⟨pk', g'⟩, h2, h⟩ := R.bind_eq_ok.1 h
    simp only [R.ok.injEq, Prod.mk.injEq] at h
    obtain ⟨rfl, rfl, rfl⟩ := h
    refine ⟨pre, c, post, hcr, by simpa using hid, fun d hd => by simpa using hpre d hd, (memcpyS_ok.1 h1).1, ?_, ?_⟩
    · rintro rfl
      unfold localKeys at h2
      simp only [Bool.false_eq_true, ↓reduceIte] at h2
      obtain ⟨p, h3, h2⟩ := R.bind_eq_ok.1 h2
      simp only [R.pure_eq, R.ok.injEq, Prod.mk.injEq] at h2
      exact ⟨by rw [← h2.1, (memcpyS_ok.1 h3).1], h2.2.symm⟩
    · rintro rfl
      unfold localKeys at h2
      simp only [↓reduceIte] at h2
      unfold dhKey
      split at h2
      · rename_i hl
        obtain ⟨p, h3, h2⟩ := R.bind_eq_ok.1 h2
        simp only [R.pure_eq, R.ok.injEq, Prod.mk.injEq] at h2
        rw [if_pos hl]
        exact ⟨h2.1.symm, by rw [← h2.2, (memcpyS_ok.1 h3).1]⟩
      · rename_i hl
        obtain ⟨p, h3, h2⟩ := R.bind_eq_ok.1 h2
        simp only [R.pure_eq, R.ok.injEq, Prod.mk.injEq] at h2
        rw [if_neg hl]
        exact ⟨h2.1.symm, by rw [← h2.2, (memcpyS_ok.1 h3).1]⟩

/-- C43: a stored credential that fits the buffers is found. -/
theorem C43_complete {cfg : ECfg} {C : ECrypto} {sd : Bool} {pre post : List Cred} {c : Cred} {cap : Nat}
    (hr : ByReference cfg c.idCred) (hpre : ∀ d ∈ pre, d.idCred ≠ c.idCred) (h1 : c.cred.length ≤ cap)
    (h2 : c.pk.length ≤ 65) (h3 : c.g.length ≤ 65) :
    retrieveCred cfg C sd (pre ++ c :: post) c.idCred cap =
      .ok (c.cred, if sd then ([], dhKey c.g) else (c.pk, [])) := by
  rw [retrieve_reference hr, getLocal_lookup]
  have hl : lookup (pre ++ c :: post) c.idCred = some c := by
    unfold lookup
    rw [List.find?_append, List.find?_eq_none.2 (fun d hd => by simpa using hpre d hd)]
    simp
  rw [hl]
  simp only
  rw [memcpyS_ok.2 ⟨rfl, h1⟩, R.ok_bind]
  unfold localKeys pkSize
  cases sd with
  | true =>
    simp only [↓reduceIte]
    by_cases hg : c.g.length = 65
    · rw [if_pos hg, memcpyS_ok.2 ⟨rfl, by simp; omega⟩]
      simp [dhKey, hg]
    · rw [if_neg hg, memcpyS_ok.2 ⟨rfl, h3⟩]
      simp [dhKey, hg]
  | false =>
    simp only [Bool.false_eq_true, ↓reduceIte]
    rw [memcpyS_ok.2 ⟨rfl, h2⟩]
    rfl

/-- the identifiers by reference of RFC 9528 that this library can send -/
theorem byReference_kid (cfg : ECfg) {k : Int} (h : Int32 k) : ByReference cfg (idKid k) := by
  have := zIdMap_kid cfg.strictCbor [] h
  rw [List.append_nil] at this
  exact ⟨_, _, this, .inl rfl⟩
theorem byReference_x5t (cfg : ECfg) {a : Int} {h : Bytes} (ha : Int32 a) (hh : h.length < 2 ^ 64) :
    ByReference cfg (idX5t a h) := by
  have := zIdMap_x5t cfg.strictCbor [] ha hh
  rw [List.append_nil] at this
  exact ⟨_, _, this, .inr (.inr (.inl rfl))⟩

example : retrieveCred {} toyE false toyCredsI [0xa1, 0x04, 0x2b] 400 =
    .ok ([0xa1, 1, 2], List.replicate 32 3, []) := by decide +kernel
example : retrieveCred {} toyE false toyCredsI [0xa1, 0x04, 0x2c] 400 = .err .credential_not_found := by decide +kernel
example : idKid (-12) = [0xa1, 0x04, 0x2b] := by decide +kernel

/-! ### C49 -/

/-- where a CA key may come from: a configured CA whose subject begins the issuer's bytes, or the key
of a single configured credential that has no CA certificate -/
inductive CaKey (C : ECrypto) (creds : List Cred) (issuerMem : Bytes) : Bytes → Prop where
  | cert {c : Cred} {x : X509} (hc : c ∈ creds) (h0 : c.ca ≠ []) (hx : C.x509 c.ca = some x)
      (hs : x.subject <+: issuerMem) : CaKey C creds issuerMem c.caPk
  | single {c : Cred} (h : creds = [c]) (h0 : c.ca = []) (h1 : c.caPk ≠ []) : CaKey C creds issuerMem c.caPk

theorem caSearch_ok {C : ECrypto} {issuerMem pk : Bytes} : ∀ {cs : List Cred} {creds : List Cred},
    (∀ c ∈ cs, c ∈ creds) → caSearch C issuerMem cs = .ok pk → CaKey C creds issuerMem pk
  | [], _, _, h => by cases h
  | c :: cs, creds, hsub, h => by
    unfold caSearch at h
    split at h
    · exact caSearch_ok (fun d hd => hsub d (by simp [hd])) h
    · rename_i hne
      split at h
      · cases h
      · rename_i x hx
        split at h
        · rename_i hs
          simp only [R.ok.injEq] at h
          subst h
          exact .cert (hsub c (by simp)) (fun h0 => hne (by simp [h0])) hx ⟨issuerMem.drop x.subject.length, by
            conv => lhs; rw [← hs]
            rw [List.length_take]
            by_cases hl : x.subject.length ≤ issuerMem.length
            · rw [Nat.min_eq_left hl, List.take_append_drop]
            · have : issuerMem.take x.subject.length = issuerMem := List.take_of_length_le (by omega)
              rw [this] at hs
              rw [hs] at hl; omega⟩
        · exact caSearch_ok (fun d hd => hsub d (by simp [hd])) h

theorem caPkGet_ok {C : ECrypto} {creds : List Cred} {issuerMem pk : Bytes}
    (h : caPkGet C creds issuerMem = .ok pk) : CaKey C creds issuerMem pk := by
  unfold caPkGet at h
  split at h
  · rename_i c
    split at h
    · rename_i h0
      split at h
      · cases h
      · rename_i h1
        simp only [R.ok.injEq] at h
        subst h
        exact .single rfl (List.length_eq_zero_iff.1 h0) (fun h' => h1 (by simp [h']))
    · exact caSearch_ok (fun _ h => h) h
  · exact caSearch_ok (fun _ h => h) h

theorem verifySig_true {C : ECrypto} {a : SignAlg} {pk m s : Bytes} (h : verifySig C a pk m s = .ok true) :
    C.verify a pk m s = some true := by
  unfold verifySig at h
  split at h
  · cases h
  · split at h
    · rename_i b hb
      simp only [R.ok.injEq] at h
      rw [hb, h]
    · cases h

/-- a certificate was checked: its issuer is covered by a configured CA key, under which its signature
verified; `key` is the public key it certifies -/
inductive CertChecked (cfg : ECfg) (C : ECrypto) (creds : List Cred) (cert key : Bytes) : Prop where
  | x509 {x : X509} {ca : Bytes} (hx : C.x509 cert = some x) (hca : CaKey C creds x.issuerMem ca)
      (hv : C.verify .es256 ca x.tbs x.sig = some true) (hk : key = x.pk) : CertChecked cfg C creds cert key
  | c509 {c : C509} {ca : Bytes} {a : SignAlg} (hx : decCert cfg.strictCbor cert = some c)
      (hca : CaKey C creds c.issuerMem ca) (ha : c.sigAlg = a.cose)
      (hv : C.verify a ca (cert.take (cert.length - 2 - c.signature.length)) c.signature = some true)
      (hk : key = c.pk) : CertChecked cfg C creds cert key

theorem certX509_ok {cfg : ECfg} {C : ECrypto} {cert key : Bytes} {creds : List Cred} {cap : Nat}
    (h : certX509Verify C cert creds cap = .ok (true, key)) : CertChecked cfg C creds cert key := by
  unfold certX509Verify at h
  split at h
  · cases h
  · rename_i x hx
    split at h
    · cases h
    · obtain ⟨ca, h1, h⟩ := R.bind_eq_ok.1 h
      obtain ⟨v, h2, h⟩ := R.bind_eq_ok.1 h
      obtain ⟨k, h3, h⟩ := R.bind_eq_ok.1 h
      simp only [R.pure_eq, R.ok.injEq, Prod.mk.injEq] at h
      obtain ⟨rfl, rfl⟩ := h
      exact .x509 hx (caPkGet_ok h1) (verifySig_true h2) (memcpyS_ok.1 h3).1

theorem certC509_ok {cfg : ECfg} {C : ECrypto} {cert key : Bytes} {creds : List Cred} {cap : Nat}
    (h : certC509Verify cfg C cert creds cap = .ok (true, key)) : CertChecked cfg C creds cert key := by
  unfold certC509Verify at h
  split at h
  · cases h
  · rename_i c hx
    obtain ⟨ca, h1, h⟩ := R.bind_eq_ok.1 h
    obtain ⟨v, h2, h⟩ := R.bind_eq_ok.1 h
    obtain ⟨k, h3, h⟩ := R.bind_eq_ok.1 h
    simp only [R.pure_eq, R.ok.injEq, Prod.mk.injEq] at h
    obtain ⟨rfl, rfl⟩ := h
    unfold c509Sig at h2
    split at h2
    · rename_i ha
      exact .c509 (a := .es256) hx (caPkGet_ok h1) ha (verifySig_true h2) (memcpyS_ok.1 h3).1
    · split at h2
      · rename_i ha
        exact .c509 (a := .eddsa) hx (caPkGet_ok h1) ha (verifySig_true h2) (memcpyS_ok.1 h3).1
      · cases h2

theorem verifyCert_ok {cfg : ECfg} {C : ECrypto} {sd x : Bool} {creds : List Cred} {cert cred pk g : Bytes} {cap : Nat}
    (h : verifyCert2cred cfg C sd creds x cert cap = .ok (cred, pk, g)) :
    cred = enc (.bstr cert) ∧ ∃ key, CertChecked cfg C creds cert key ∧
      (if sd then pk = [] ∧ g = key else pk = key ∧ g = []) := by
  unfold verifyCert2cred at h
  obtain ⟨cr, h1, h⟩ := R.bind_eq_ok.1 h
  unfold certOut at h
  obtain ⟨⟨v, key⟩, h2, h⟩ := R.bind_eq_ok.1 h
  simp only at h
  cases v with
  | false => simp at h
  | true =>
    have hk : CertChecked cfg C creds cert key := by
      split at h2
      · exact certX509_ok h2
      · exact certC509_ok h2
    obtain ⟨rfl, _⟩ := encodeBstr_ok.1 h1
    cases sd with
    | true =>
      simp only [↓reduceIte, R.pure_eq, R.ok.injEq, Prod.mk.injEq] at h
      obtain ⟨rfl, rfl, rfl⟩ := h
      exact ⟨rfl, key, hk, by simp⟩
    | false =>
      simp only [↓reduceIte, Bool.false_eq_true, R.pure_eq, R.ok.injEq, Prod.mk.injEq] at h
      obtain ⟨rfl, rfl, rfl⟩ := h
      exact ⟨rfl, key, hk, by simp⟩

/-- C49 (partial): a credential that is not looked up by reference is returned only for a certificate
contained in the received ID_CRED_x whose signature verified under the key of a configured CA.  Missing
from the full statement: the CA's subject is only required to be a *prefix* of the memory that begins
with the issuer (see `C49_false`), and a single configured key without a CA certificate is used for
every issuer. -/
theorem C49_partial {cfg : ECfg} {C : ECrypto} {sd : Bool} {creds : List Cred} {idCred cred pk g : Bytes} {cap : Nat}
    (h : retrieveCred cfg C sd creds idCred cap = .ok (cred, pk, g)) (hr : ¬ ByReference cfg idCred) :
    ∃ m x cert key, zIdMap cfg.strictCbor idCred = some (m, x) ∧
      (m.x5chain = some cert ∨ m.x5bag = some cert ∨ m.c5c = some cert ∨ m.c5b = some cert) ∧
      cred = enc (.bstr cert) ∧ CertChecked cfg C creds cert key ∧
      (if sd then pk = [] ∧ g = key else pk = key ∧ g = []) := by
  unfold retrieveCred at h
  split at h
  · cases h
  · rename_i m x hz
    rw [if_neg (fun h' => hr ⟨m, x, hz, h'⟩)] at h
    split at h
    · obtain ⟨h1, key, h2, h3⟩ := verifyCert_ok h
      exact ⟨m, x, _, key, hz, .inl (by assumption), h1, h2, h3⟩
    · obtain ⟨h1, key, h2, h3⟩ := verifyCert_ok h
      exact ⟨m, x, _, key, hz, .inr (.inl (by assumption)), h1, h2, h3⟩
    · obtain ⟨h1, key, h2, h3⟩ := verifyCert_ok h
      exact ⟨m, x, _, key, hz, .inr (.inr (.inl (by assumption))), h1, h2, h3⟩
    · obtain ⟨h1, key, h2, h3⟩ := verifyCert_ok h
      exact ⟨m, x, _, key, hz, .inr (.inr (.inr (by assumption))), h1, h2, h3⟩
    · cases h

/-- C49: a certificate whose signature does not verify under any configured CA key is refused. -/
theorem C49_unverified_refused {cfg : ECfg} {C : ECrypto} {sd : Bool} {creds : List Cred} {idCred cred pk g : Bytes}
    {cap : Nat} (hr : ¬ ByReference cfg idCred)
    (hno : ∀ cert key, ¬ CertChecked cfg C creds cert key) :
    retrieveCred cfg C sd creds idCred cap ≠ .ok (cred, pk, g) := by
  intro h
  obtain ⟨_, _, cert, key, _, _, _, h2, _⟩ := C49_partial h hr
  exact hno cert key h2

/-- primitives of the counterexample: the toy ones, with two certificates: that of a CA named "CA", and
one issued by "CAx" (a different name) that the CA's key signed -/
def caToy : ECrypto := { toyE with
  x509 := fun b => if b = [1] then some ⟨[], 0, [67, 65], true, [], [], []⟩          -- CA, subject "CA"
    else if b = [2] then some ⟨[67, 65, 120], 3, [], true, [5], toyBytes 64 (toyH ([42] ++ [4] ++ [5])), [8, 8]⟩
    else none }

/-- C49 is false as stated: the issuer "CAx" is accepted under the CA with subject "CA", although the
names differ. -/
theorem C49_false :
    (caToy.x509 [2]).map (fun x => x.issuerMem.take x.issuerLen) = some [67, 65, 120] ∧
    (caToy.x509 [1]).map X509.subject = some [67, 65] ∧
    retrieveCred {} caToy false [⟨[], [], [], [], [1], [42]⟩, ⟨[], [], [], [], [], []⟩] [0xa1, 0x18, 0x21, 0x41, 2] 400 =
      .ok ([0x41, 2], [8, 8], []) := by
  refine ⟨rfl, rfl, ?_⟩; decide +kernel

example : ¬ ByReference {} [0xa1, 0x18, 0x21, 0x41, 2] := by
  rintro ⟨m, x, hz, hr⟩
  have := zIdMap_x5chain true (c := [2]) [] (by simp)
  have e : idX5chain [2] ++ [] = [0xa1, 0x18, 0x21, 0x41, 2] := by decide +kernel
  rw [e] at this
  rw [show ({} : ECfg).strictCbor = true from rfl, this] at hz
  simp only [Option.some.injEq, Prod.mk.injEq] at hz
  rw [← hz.1] at hr
  simp [IdMap.none] at hr

end Verif.Edhoc
