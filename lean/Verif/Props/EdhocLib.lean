import Verif.Model.EdhocRun
import Verif.Props.TinyWrap
import Verif.Props.EdhocAuthn
import Verif.Lemmas.EdhocToy
/-
C96 for EDHOC: replacing the crypto library, or one of the weak functions of the crypto wrapper, does not change a run.
-/
namespace Verif.Edhoc.LibSwap
open Verif Verif.Edhoc

/-- Two crypto libraries that compute the same for what EDHOC asks of them: the same hash, HMAC, key agreement, signatures and
certificate fields, the same AES-CCM for 16-byte keys, 13-byte nonces, tags of 8 or 16 bytes, at most 45 bytes of associated data
and fewer than 65536 bytes of ciphertext.  A wrong signature may be reported as a failed call (`none`), as TinyCrypt's is. -/
structure SameLib (C D : ECrypto) : Prop where
  hmac : D.hmac = C.hmac
  hash : D.toCrypto.hash = C.toCrypto.hash
  dh : D.dh = C.dh
  sign : D.sign = C.sign
  x509 : D.x509 = C.x509
  verify : ∀ a pk m s, D.verify a pk m s = C.verify a pk m s ∨ (C.verify a pk m s = some false ∧ D.verify a pk m s = none)
  enc : ∀ k n a t p, k.length = 16 → n.length = 13 → Tiny.TagLen t → a.length ≤ 45 → p.length + t < 65536 →
    D.aeadEnc k n a t p = C.aeadEnc k n a t p
  dec : ∀ k n a t c, k.length = 16 → n.length = 13 → Tiny.TagLen t → a.length ≤ 45 → c.length < 65536 → t ≤ c.length →
    D.aeadDec k n a t c = C.aeadDec k n a t c

/-- the codes of a refused signature or certificate (`buffer_to_small`: a certificate whose signature is wrong and whose key is
too long) -/
def Refusal (e : Err) : Prop := e = .signature_authentication_failed ∨ e = .certificate_authentication_failed ∨ e = .buffer_to_small

/-- Same result; or both refuse a signature or certificate, the second with the code of a failed library call. -/
def SameR {α : Type} (a b : R α) : Prop := b = a ∨ ((∃ e, Refusal e ∧ a = .err e) ∧ b = .err .unexpected_result_from_ext_lib)

/-- Same result in this sense, and the same messages sent, received and handed over. -/
def Same {σ α : Type} (a b : R α × σ) : Prop := b.2 = a.2 ∧ SameR a.1 b.1

theorem SameR.refl {α : Type} (a : R α) : SameR a a := .inl rfl
theorem SameR.of_eq {α : Type} {a b : R α} (h : b = a) : SameR a b := .inl h
theorem Same.refl {σ α : Type} (a : R α × σ) : Same a a := ⟨rfl, .inl rfl⟩

theorem SameR.bind {α β : Type} {a a' : R α} {f f' : α → R β} (h : SameR a a') (hf : ∀ x, a = .ok x → SameR (f x) (f' x)) :
    SameR (a >>= f) (a' >>= f') := by
  rcases h with rfl | ⟨⟨e, he, rfl⟩, rfl⟩
  · cases a' with
    | ok x => exact hf x rfl
    | err e => exact .inl rfl
    | ub => exact .inl rfl
  · exact .inr ⟨⟨e, he, rfl⟩, rfl⟩

theorem Same.bind {σ α β : Type} {m m' : M σ α} {f f' : α → M σ β} {s : σ} (h : Same (m s) (m' s))
    (hf : ∀ x t, m s = (.ok x, t) → Same (f x t) (f' x t)) : Same ((m >>= f) s) ((m' >>= f') s) := by
  rw [M.run_bind, M.run_bind]
  rcases h1 : m s with ⟨r, t⟩
  rcases h2 : m' s with ⟨r', t'⟩
  rw [h1, h2] at h
  obtain ⟨ht, hr⟩ := h
  simp only at ht hr
  subst ht
  rcases hr with rfl | ⟨⟨e, he, rfl⟩, rfl⟩
  · cases r' with
    | ok x => exact hf x _ h1
    | err e => exact .refl _
    | ub => exact .refl _
  · exact ⟨rfl, .inr ⟨⟨e, he, rfl⟩, rfl⟩⟩

theorem Same.lift {σ α : Type} {a b : R α} (h : SameR a b) (s : σ) : Same ((M.lift a : M σ α) s) ((M.lift b : M σ α) s) :=
  ⟨rfl, h⟩

section
variable {cfg : ECfg} {C D : ECrypto} (h : SameLib C D)
include h

theorem expandLoop_eq (prk info : Bytes) (L : Nat) :
    ∀ n i t b out, expandLoop D.toCrypto prk info L n i t b out = expandLoop C.toCrypto prk info L n i t b out := by
  intro n
  induction n with
  | zero => intros; rfl
  | succ n ih => intro i t b out; unfold expandLoop; simp only [h.hmac]; exact ih ..

theorem kdf_eq : edhocKdf cfg D = edhocKdf cfg C := by
  funext prk label ctx L
  unfold edhocKdf hkdfExpand
  simp only [expandLoop_eq h]

theorem extract_eq : hkdfExtract D.toCrypto = hkdfExtract C.toCrypto := by
  funext s i; unfold hkdfExtract; rw [h.hmac]

theorem hash_eq : hash D = hash C := by funext m; unfold hash; rw [h.hash]

theorem th2_eq : th2Calc D = th2Calc C := by funext a b; unfold th2Calc; rw [hash_eq h]

theorem th34_eq : th34Calc cfg D = th34Calc cfg C := by funext a b c; unfold th34Calc; rw [hash_eq h]

theorem shared_eq : sharedSecret D = sharedSecret C := by funext a b c; unfold sharedSecret; rw [h.dh]

theorem signMsg_eq : signMsg D = signMsg C := by funext a b c d; unfold signMsg; rw [h.sign]

theorem prkDerive_eq : prkDerive cfg D = prkDerive cfg C := by
  funext a b c d e f g; unfold prkDerive; rw [shared_eq h, kdf_eq h, extract_eq h]

theorem mac_eq : mac cfg D = mac cfg C := by
  funext a b c d e f g i j k; unfold mac; rw [kdf_eq h]

theorem sigGen_eq : sigOrMacGen cfg D = sigOrMacGen cfg C := by
  funext sd su a b c d e f g i j k; unfold sigOrMacGen; rw [mac_eq h, signMsg_eq h]

theorem keyGen_eq : keyGen cfg D = keyGen cfg C := by
  funext a b c d; unfold keyGen; rw [kdf_eq h]

theorem caSearch_eq (m : Bytes) : ∀ l, caSearch D m l = caSearch C m l := by
  intro l
  induction l with
  | nil => rfl
  | cons c cs ih => unfold caSearch; rw [h.x509, ih]

theorem caPkGet_eq : caPkGet D = caPkGet C := by
  funext l m; unfold caPkGet; simp only [caSearch_eq h]

theorem msg1Gen_eq : msg1Gen cfg D = msg1Gen cfg C := by
  funext c; unfold msg1Gen; rw [hash_eq h]

/-- a signature check: the same answer, or "wrong" and a failed call -/
theorem verifySig_cases (a : SignAlg) (pk m s : Bytes) : verifySig D a pk m s = verifySig C a pk m s ∨
    (verifySig C a pk m s = .ok false ∧ verifySig D a pk m s = .err .unexpected_result_from_ext_lib) := by
  unfold verifySig
  split
  · exact .inl rfl
  · rcases h.verify a pk m s with e | ⟨e1, e2⟩
    · rw [e]; exact .inl rfl
    · rw [e1, e2]; exact .inr ⟨rfl, rfl⟩

theorem sigVerify_same (sd : Bool) (su : Suite) (pk prk cR mem th id cred ead : Bytes) (l : Nat) (r : Bytes) :
    SameR (sigOrMacVerify cfg C sd su pk prk cR mem th id cred ead l r) (sigOrMacVerify cfg D sd su pk prk cR mem th id cred ead l r) := by
  unfold sigOrMacVerify
  rw [mac_eq h]
  refine (SameR.refl _).bind fun m _ => ?_
  split
  · exact .refl _
  · refine (SameR.refl _).bind fun s _ => ?_
    rcases verifySig_cases h su.sign pk s r with e | ⟨e1, e2⟩
    · rw [e]; exact .refl _
    · rw [e1, e2]; exact .inr ⟨⟨_, .inl rfl, rfl⟩, rfl⟩

omit h in
theorem certOut_false (sd : Bool) (cred : Bytes) (n : Nat) (b : Bytes) :
    ∃ e, Refusal e ∧ certOut sd cred (memcpyS n b >>= fun k => pure (false, k)) = .err e := by
  by_cases hb : b.length ≤ n
  · rw [Verif.memcpyS_ok.2 ⟨rfl, hb⟩]; exact ⟨_, .inr (.inl rfl), rfl⟩
  · refine ⟨.buffer_to_small, .inr (.inr rfl), ?_⟩
    unfold memcpyS checkBufferSize
    rw [if_neg (by omega), if_pos (by omega)]
    rfl

omit h in
/-- a certificate: `v` is the check of its signature -/
theorem cert_step (sd : Bool) (cred : Bytes) (v w : R Bool) (n : Nat) (b : Bytes)
    (hv : w = v ∨ (v = .ok false ∧ w = .err .unexpected_result_from_ext_lib)) :
    SameR (certOut sd cred (v >>= fun v => memcpyS n b >>= fun k => pure (v, k))) (certOut sd cred (w >>= fun v => memcpyS n b >>= fun k => pure (v, k))) := by
  rcases hv with rfl | ⟨rfl, rfl⟩
  · exact .refl _
  · exact .inr ⟨certOut_false sd cred n b, rfl⟩

theorem x509_same (sd : Bool) (cred cert : Bytes) (creds : List Cred) (n : Nat) :
    SameR (certOut sd cred (certX509Verify C cert creds n)) (certOut sd cred (certX509Verify D cert creds n)) := by
  unfold certX509Verify
  rw [h.x509, caPkGet_eq h]
  cases C.x509 cert with
  | none => exact .refl _
  | some x =>
    dsimp only
    split
    · exact .refl _
    · cases caPkGet C creds x.issuerMem with
      | ub => exact .refl _
      | err e => exact .refl _
      | ok r => exact cert_step sd cred _ _ _ _ (verifySig_cases h ..)

theorem c509_same (sd : Bool) (cred cert : Bytes) (creds : List Cred) (n : Nat) :
    SameR (certOut sd cred (certC509Verify cfg C cert creds n)) (certOut sd cred (certC509Verify cfg D cert creds n)) := by
  unfold certC509Verify
  rw [caPkGet_eq h]
  cases decCert cfg.strictCbor cert with
  | none => exact .refl _
  | some x =>
    dsimp only
    cases caPkGet C creds x.issuerMem with
    | ub => exact .refl _
    | err e => exact .refl _
    | ok r =>
      refine cert_step sd cred _ _ _ _ ?_
      unfold c509Sig
      split
      · exact verifySig_cases h ..
      · split
        · exact verifySig_cases h ..
        · exact .inl rfl

theorem cert2cred_same (sd : Bool) (creds : List Cred) (x : Bool) (cert : Bytes) (n : Nat) :
    SameR (verifyCert2cred cfg C sd creds x cert n) (verifyCert2cred cfg D sd creds x cert n) := by
  refine (SameR.refl _).bind fun cred _ => ?_
  cases x with
  | true => exact x509_same h ..
  | false => exact c509_same h ..

theorem retrieveCred_same (sd : Bool) (creds : List Cred) (id : Bytes) (n : Nat) :
    SameR (retrieveCred cfg C sd creds id n) (retrieveCred cfg D sd creds id n) := by
  unfold retrieveCred
  split
  · exact .refl _
  · split
    · exact .refl _
    · split <;> first | exact cert2cred_same h .. | exact .refl _

end

/-! ### the AEAD calls -/

theorem tagLen_of (a : AeadAlg) : Tiny.TagLen a.tagLen := by
  cases a
  · exact .inl rfl
  · exact .inr rfl

theorem kdf_len {C : ECrypto} (hC : ∀ k m, (C.hmac k m).length = 32) {cfg : ECfg} {prk x k : Bytes} {l L : Nat} (hL : 0 < L) (hL' : L < 32)
    (h : edhocKdf cfg C prk l x L = .ok k) : k.length = L := by
  obtain ⟨_, _, h⟩ := R.bind_eq_ok.1 h
  obtain ⟨i, _, h⟩ := R.bind_eq_ok.1 h
  have hi : (L + 31) % 2 ^ 32 / 32 = 1 := by omega
  unfold hkdfExpand at h
  simp only [hi] at h
  split at h
  · cases h
  · split at h
    · cases h
    · injection h with h
      rw [← h]
      simp only [expandLoop, List.nil_append]
      rw [if_pos (by omega), List.length_take, hC]
      omega

theorem keyGen_len {C : ECrypto} (hC : ∀ k m, (C.hmac k m).length = 32) {cfg : ECfg} {ct : Ctxt} (hct : ct ≠ .c2) {prk th : Bytes} {n : Nat} {k : Bytes × Bytes}
    (h : keyGen cfg C ct prk th n = .ok k) : k.1.length = 16 ∧ k.2.length = 13 := by
  unfold keyGen at h
  rw [if_neg hct] at h
  obtain ⟨a, ha, h⟩ := R.bind_eq_ok.1 h
  obtain ⟨b, hb, h⟩ := R.bind_eq_ok.1 h
  injection h with h
  rw [← h]
  exact ⟨kdf_len hC (by omega) (by omega) ha, kdf_len hC (by omega) (by omega) hb⟩

theorem assocData_len {th a : Bytes} (h : assocData th = .ok a) : a.length ≤ 45 := by
  unfold assocData cborOut at h
  split at h
  · rename_i hl; injection h with h; rw [← h]; exact hl
  · cases h

/-- the configured message sizes are below 64 KiB -/
def Below64K (cfg : ECfg) : Prop := cfg.plaintext3Size + 16 < 65536 ∧ cfg.plaintext4Size + 16 < 65536

section
variable {cfg : ECfg} {C D : ECrypto} (h : SameLib C D) (hC : ∀ k m, (C.hmac k m).length = 32)
include h hC

omit hC in
theorem ctxtEncrypt_eq {ct : Ctxt} {su : Suite} {key iv th p : Bytes} {n : Nat} (hn : n < 65536) (hk : ct ≠ .c2 → key.length = 16 ∧ iv.length = 13) :
    ctxtEncrypt D ct su key iv th p n = ctxtEncrypt C ct su key iv th p n := by
  unfold ctxtEncrypt
  split
  · rfl
  · rename_i hct
    cases ha : assocData th with
    | ub => rfl
    | err e => rfl
    | ok a =>
      simp only [R.ok_bind]
      split
      · rfl
      · rw [h.enc _ _ _ _ _ (hk hct).1 (hk hct).2 (tagLen_of _) (assocData_len ha) (by omega)]

theorem ciphertextGen_eq {ct : Ctxt} {su : Suite} {c id sm ead prk th : Bytes} {n cap : Nat} (hn : ct = .c2 ∨ n < 65536) :
    ciphertextGen cfg D ct su c id sm ead prk th n cap = ciphertextGen cfg C ct su c id sm ead prk th n cap := by
  unfold ciphertextGen
  rw [keyGen_eq h]
  cases plaintextGen cfg ct c id sm ead cap with
  | ub => rfl
  | err e => rfl
  | ok p =>
    simp only [R.ok_bind]
    cases hk : keyGen cfg C ct prk th p.length with
    | ub => rfl
    | err e => rfl
    | ok k =>
      simp only [R.ok_bind]
      rcases hn with rfl | hn
      · rfl
      · rw [ctxtEncrypt_eq h hn fun hct => keyGen_len hC hct hk]

theorem ctxtDecrypt_eq {ct : Ctxt} {su : Suite} {prk th c : Bytes} (hn : ct = .c2 ∨ c.length < 65536) :
    ctxtDecrypt cfg D ct su prk th c = ctxtDecrypt cfg C ct su prk th c := by
  unfold ctxtDecrypt
  rw [keyGen_eq h]
  cases hk : keyGen cfg C ct prk th c.length with
  | ub => rfl
  | err e => rfl
  | ok k =>
    cases ha : assocData th with
    | ub => rfl
    | err e => rfl
    | ok a =>
      simp only [R.ok_bind]
      by_cases hct : ct = .c2
      · rw [if_pos hct, if_pos hct]
      · rw [if_neg hct, if_neg hct]
        split
        · rfl
        · have hl := keyGen_len hC hct hk
          rw [h.dec _ _ _ _ _ hl.1 hl.2 (tagLen_of _) (assocData_len ha) (hn.resolve_left hct) (by omega)]

theorem msg2Build_eq (c : RCtx) (m1 : Bytes) (p : Parsed1) : msg2Build cfg D c m1 p = msg2Build cfg C c m1 p := by
  unfold msg2Build
  rw [th2_eq h, hash_eq h, shared_eq h, extract_eq h, prkDerive_eq h, th34_eq h]
  have : ctxt2Gen cfg D = ctxt2Gen cfg C := by
    funext c su sd a b d
    unfold ctxt2Gen
    rw [sigGen_eq h]
    simp only [ciphertextGen_eq h hC (ct := .c2) (.inl rfl)]
  rw [this]

theorem msg2Gen_eq (c : RCtx) (m1 : Bytes) (n : Nat) (e : Bytes) : msg2Gen cfg D c m1 n e = msg2Gen cfg C c m1 n e := by
  unfold msg2Gen; simp only [msg2Build_eq h hC]

omit hC in
theorem msg2Auth_same (c : ICtx) (creds : List Cred) (su : Suite) (sI sR : Bool) (gY th2 p2 cR mem : Bytes) (s : Split) (p : Bytes) :
    SameR (msg2Auth cfg C c creds su sI sR gY th2 p2 cR mem s p) (msg2Auth cfg D c creds su sI sR gY th2 p2 cR mem s p) := by
  unfold msg2Auth
  rw [prkDerive_eq h, th34_eq h]
  exact (retrieveCred_same h ..).bind fun x _ => (SameR.refl _).bind fun _ _ => (sigVerify_same h ..).bind fun _ _ => .refl _

theorem msg2Process_same (c : ICtx) (creds : List Cred) (su : Suite) (h1 m2 : Bytes) (sI sR : Bool) (cb ead : Bytes) :
    SameR (msg2Process cfg C c creds su h1 m2 sI sR cb ead) (msg2Process cfg D c creds su h1 m2 sI sR cb ead) := by
  unfold msg2Process
  rw [shared_eq h, th2_eq h, extract_eq h]
  simp only [ctxtDecrypt_eq h hC (ct := .c2) (.inl rfl)]
  refine (SameR.refl _).bind fun _ _ => (SameR.refl _).bind fun x _ => (SameR.refl _).bind fun g _ => (SameR.refl _).bind fun th2 _ => ?_
  refine (SameR.refl _).bind fun p _ => (SameR.refl _).bind fun y _ => ?_
  exact msg2Auth_same h ..

theorem msg3OnlyGen_eq (hcfg : Below64K cfg) (c : ICtx) (su : Suite) (sI : Bool) (s : IState) (m2 : Bytes) (L : Nat) :
    msg3OnlyGen cfg D c su sI s m2 L = msg3OnlyGen cfg C c su sI s m2 L := by
  have hb : msg3Build cfg D c su sI s m2.length = msg3Build cfg C c su sI s m2.length := by
    unfold msg3Build
    rw [sigGen_eq h]
    simp only [ciphertextGen_eq h hC (ct := .c3) (n := cfg.ciphertext3Size) (.inr (by unfold ECfg.ciphertext3Size; exact hcfg.1))]
  unfold msg3OnlyGen th4Of
  rw [hb, th34_eq h, kdf_eq h]

theorem msg3Gen_same (hcfg : Below64K cfg) (c : ICtx) (creds : List Cred) (su : Suite) (h1 m2 cb ead : Bytes) (L : Nat) :
    SameR (msg3Gen cfg C c creds su h1 m2 cb ead L) (msg3Gen cfg D c creds su h1 m2 cb ead L) := by
  unfold msg3Gen
  refine (msg2Process_same h hC ..).bind fun s _ => ?_
  rw [msg3OnlyGen_eq h hC hcfg]
  exact .refl _

omit hC in
theorem msg3Auth_same (c : RCtx) (creds : List Cred) (rs : RState) (s : Split) (p : Bytes) (L : Nat) :
    SameR (msg3Auth cfg C c creds rs s p L) (msg3Auth cfg D c creds rs s p L) := by
  unfold msg3Auth
  rw [prkDerive_eq h, th34_eq h, kdf_eq h]
  exact (retrieveCred_same h ..).bind fun x _ => (SameR.refl _).bind fun _ _ => (sigVerify_same h ..).bind fun _ _ => .refl _

omit h hC in
theorem check_le {b n : Nat} {x : Unit} (h : checkBufferSize b n = .ok x) : n ≤ b := by
  unfold checkBufferSize at h
  split at h
  · cases h
  · omega

omit h hC in
theorem tag_le (a : AeadAlg) : a.tagLen ≤ 16 := by cases a <;> decide

theorem msg3Process_same (hcfg : Below64K cfg) (c : RCtx) (creds : List Cred) (rs : RState) (m3 : Bytes) (L : Nat) :
    SameR (msg3Process cfg C c creds rs m3 L) (msg3Process cfg D c creds rs m3 L) := by
  unfold msg3Process
  refine (SameR.refl _).bind fun _ _ => (SameR.refl _).bind fun c3 _ => (SameR.refl _).bind fun _ hb => ?_
  have h1 := check_le hb
  have h2 := tag_le rs.suite.aead
  have h3 := hcfg.1
  rw [ctxtDecrypt_eq h hC (.inr (by omega))]
  exact (SameR.refl _).bind fun p _ => (SameR.refl _).bind fun y _ => msg3Auth_same h ..

theorem msg4Gen_eq (hcfg : Below64K cfg) (e : Bytes) (su : Suite) (k th : Bytes) (n : Nat) :
    msg4Gen cfg D e su k th n = msg4Gen cfg C e su k th n := by
  have h4 := hcfg.2
  unfold msg4Gen
  rw [ciphertextGen_eq h hC (.inr (by omega))]

theorem msg4Process_eq (hcfg : Below64K cfg) (su : Suite) (k th m4 : Bytes) (n : Nat) :
    msg4Process cfg D su k th m4 n = msg4Process cfg C su k th m4 n := by
  unfold msg4Process
  cases decodeBstr cfg m4 cfg.plaintext4Size with
  | ub => rfl
  | err e => rfl
  | ok c4 =>
    simp only [R.ok_bind]
    cases hb : checkBufferSize (cfg.plaintext4Size + su.aead.tagLen) c4.length with
    | ub => rfl
    | err e => rfl
    | ok _ =>
      have h1 := check_le hb
      have h2 := tag_le su.aead
      have h3 := hcfg.2
      simp only [R.ok_bind]
      rw [ctxtDecrypt_eq h hC (.inr (by omega))]

/-- **C96 (EDHOC, initiator).**  The crypto library does not matter: for every configuration below 64 KiB, every parameters,
credentials, buffers and network, an initiator that uses a library `D` in place of `C` sends the same messages, hands the same data
to the callbacks, and gives the same result; only a refusal may carry the code of a failed library call. -/
theorem C96_edhoc_initiator (hcfg : Below64K cfg) (c : ICtx) (creds : List Cred) (crBuf : Bytes) (L : Nat) (net : Net) :
    Same (initiatorRun cfg C c creds crBuf L net) (initiatorRun cfg D c creds crBuf L net) := by
  unfold initiatorRun
  rw [msg1Gen_eq h]
  refine (Same.refl _).bind fun x t _ => (Same.refl _).bind fun _ t _ => (Same.refl _).bind fun m2 t _ => ?_
  refine (Same.lift (msg3Gen_same h hC hcfg ..) t).bind fun y t _ => (Same.refl _).bind fun _ t _ => (Same.refl _).bind fun _ t _ => ?_
  have e : ∀ s o, initiatorMsg4 cfg D x.2.1 s o = initiatorMsg4 cfg C x.2.1 s o := by
    intro s o; unfold initiatorMsg4; simp only [msg4Process_eq h hC hcfg]
  simp only [e]
  exact .refl _

/-- **C96 (EDHOC, responder).** -/
theorem C96_edhoc_responder (hcfg : Below64K cfg) (c : RCtx) (creds : List Cred) (cICap L : Nat) (net : Net) :
    Same (responderRun cfg C c creds cICap L net) (responderRun cfg D c creds cICap L net) := by
  unfold responderRun
  simp only [msg2Gen_eq h hC]
  refine (Same.refl _).bind fun m1 t _ => (Same.refl _).bind fun x t _ => (Same.refl _).bind fun _ t _ => ?_
  refine (Same.refl _).bind fun _ t _ => (Same.refl _).bind fun m3 t _ => (Same.lift (msg3Process_same h hC hcfg ..) t).bind fun o t _ => ?_
  refine (Same.refl _).bind fun _ t _ => ?_
  have e : ∀ s o, responderMsg4 cfg D c s o m3 = responderMsg4 cfg C c s o m3 := by
    intro s o; unfold responderMsg4; simp only [msg4Gen_eq h hC hcfg]
  simp only [e]
  exact .refl _

end

/-! ### the TINYCRYPT build -/

/-- the primitives of a build with TinyCrypt and compact25519, key agreement and certificates as in `E`; `rnd`: the random choice of
`uECC_sign` -/
def tinyE (T : Tiny.Lib) (rnd : Nat) (E : ECrypto) : ECrypto where
  toCrypto := Tiny.cryptoOf T
  dh := E.dh
  x509 := E.x509
  sign := fun a sk pk m => match a with
    | .eddsa => some (T.edSign sk pk m)
    | .es256 => T.sign rnd (sk.take 32) (T.sha256 m)
  verify := fun a pk m s => match a with
    | .eddsa => some (T.edVerify pk m s)
    | .es256 => if T.verify ((Tiny.keyPart pk).take 64) (T.sha256 m) (s.take 64) then some true else none

/-- the same primitives without TinyCrypt's limits, and with a signature check that answers -/
def idealE (T : Tiny.Lib) (rnd : Nat) (E : ECrypto) : ECrypto :=
  { tinyE T rnd E with
    toCrypto := Tiny.unlimited T
    verify := fun a pk m s => match a with
      | .eddsa => some (T.edVerify pk m s)
      | .es256 => some (T.verify ((Tiny.keyPart pk).take 64) (T.sha256 m) (s.take 64)) }

/-- **C96** EDHOC with TinyCrypt is EDHOC with the ideal primitives: `C96_edhoc_initiator` and `C96_edhoc_responder` apply -/
theorem C96_edhoc_tinycrypt (T : Tiny.Lib) (rnd : Nat) (E : ECrypto) : SameLib (idealE T rnd E) (tinyE T rnd E) where
  hmac := rfl
  hash := rfl
  dh := rfl
  sign := rfl
  x509 := rfl
  verify := fun a pk m s => by
    cases a with
    | eddsa => exact .inl rfl
    | es256 =>
      simp only [idealE, tinyE]
      cases T.verify ((Tiny.keyPart pk).take 64) (T.sha256 m) (s.take 64)
      · exact .inr ⟨rfl, rfl⟩
      · exact .inl rfl
  enc := fun k n a t p hk hn ht ha hp => by
    have hk' : k.take 16 = k := List.take_of_length_le (by omega)
    simp only [idealE, tinyE, Tiny.cryptoOf, Tiny.unlimited]
    rw [if_pos ⟨Tiny.configOk_of hn ht, Tiny.inputOk_iff.2 ⟨by omega, by omega⟩⟩, hk']
  dec := fun k n a t c hk hn ht ha hc hl => by
    have hk' : k.take 16 = k := List.take_of_length_le (by omega)
    simp only [idealE, tinyE, Tiny.cryptoOf, Tiny.unlimited]
    rw [if_pos ⟨Tiny.configOk_of hn ht, Tiny.inputOk_iff.2 ⟨by omega, hc⟩, hl⟩, hk']

/-- **C96** these primitives are the wrapper's functions: `sign` and `verify` of the TINYCRYPT build with keys of their sizes -/
theorem C96_edhoc_tinycrypt_sign_verify (T : Tiny.Lib) (rnd : Nat) (E : ECrypto) (a : SignAlg) (sk pk m s : Bytes) :
    (32 ≤ sk.length → 32 ≤ pk.length → signMsg (tinyE T rnd E) a sk pk m = Tiny.sign T true rnd a sk pk m) ∧
    (64 ≤ s.length → (if a = .eddsa then 32 ≤ pk.length else 64 ≤ pk.length) → verifySig (tinyE T rnd E) a pk m s = Tiny.verify T true a pk m s) := by
  constructor
  · intro h1 h2
    unfold signMsg Tiny.sign tinyE
    cases a with
    | eddsa => dsimp only; rw [if_neg (by omega), if_pos rfl, if_neg (by omega)]
    | es256 =>
      dsimp only
      rw [if_neg (by simp), if_neg (by omega)]
      cases T.sign rnd (sk.take 32) (T.sha256 m) <;> rfl
  · intro h1 h2
    unfold verifySig Tiny.verify tinyE
    cases a with
    | eddsa => rw [if_pos rfl] at h2; dsimp only; rw [if_neg (by omega), if_pos rfl, if_neg (by omega)]
    | es256 =>
      rw [if_neg (by simp)] at h2
      have : 64 ≤ (Tiny.keyPart pk).length := by
        unfold Tiny.keyPart
        split
        · rw [List.length_drop]; omega
        · omega
      dsimp only
      rw [if_neg (by simp), if_neg (show ¬ ((Tiny.keyPart pk).length < 64 ∨ s.length < 64) by omega)]
      cases T.verify ((Tiny.keyPart pk).take 64) (T.sha256 m) (s.take 64) <;> rfl

/-! ### the hypotheses are met, and the codes do differ -/

/-- the default configuration, and a lawful library -/
example : Below64K {} ∧ (∀ k m, ((idealE (Tiny.toyTiny true) 0 toyE).hmac k m).length = 32) :=
  ⟨⟨by decide, by decide⟩, (Tiny.toyTiny_lawful true).mac_len⟩

/-- a wrong ES256 signature in a message 3 is refused by both builds, with different codes -/
example :
    let s : Suite := ⟨2, .ccm64, 8, .p256, .es256, .ccm64⟩
    sigOrMacVerify {} (idealE (Tiny.toyTiny false) 0 toyE) false s (List.replicate 64 1) (List.replicate 32 2) [] [] (List.replicate 32 3)
      [0xa1, 0x04, 0x2b] [0xa1, 1, 2] [] 6 (List.replicate 64 4) = .err .signature_authentication_failed ∧
    sigOrMacVerify {} (tinyE (Tiny.toyTiny false) 0 toyE) false s (List.replicate 64 1) (List.replicate 32 2) [] [] (List.replicate 32 3)
      [0xa1, 0x04, 0x2b] [0xa1, 1, 2] [] 6 (List.replicate 64 4) = .err .unexpected_result_from_ext_lib ∧
    sigOrMacVerify {} (tinyE (Tiny.toyTiny true) 0 toyE) false s (List.replicate 64 1) (List.replicate 32 2) [] [] (List.replicate 32 3)
      [0xa1, 0x04, 0x2b] [0xa1, 1, 2] [] 6 (List.replicate 64 4) = .ok () := by
  decide +kernel

/-- a whole exchange of an initiator with TinyCrypt and a responder with the ideal primitives ends with the same key -/
example :
    let T := Tiny.toyTiny true
    let D := tinyE T 0 toyE
    let C := idealE T 0 toyE
    let m1 := ((initiatorRun {} D (toyI 3) toyCredsR (List.replicate 10 0) 32 (netOf [])).2.sent).headD []
    let m2 := ((responderRun {} C toyR toyCredsI 10 32 (netOf [m1])).2.sent).headD []
    let ir := initiatorRun {} D (toyI 3) toyCredsR (List.replicate 10 0) 32 (netOf [m2])
    let m3 := (ir.2.sent).getLastD []
    let rr := responderRun {} C toyR toyCredsI 10 32 (netOf [m1, m3])
    (match ir.1, rr.1 with
      | .ok i, .ok r => decide (i.prkOut = some r.prkOut)
      | _, _ => false) = true := by
  decide +kernel

end Verif.Edhoc.LibSwap
