import Verif.Props.EdhocBasic
/-
C41 (static-DH authentication), C42 (signature authentication), C43 (credential lookup),
C49 (certificates).
-/
namespace Verif.Edhoc
open Verif Verif.Cbor

/-! ### MAC and Sig_structure -/

theorem byteArrayAppend_ok {d s r : Bytes} {cap : Nat} (h : byteArrayAppend d s cap = .ok r) : r = d ++ s := by
  unfold byteArrayAppend at h
  split at h
  · cases h
  · obtain ⟨t, h1, h2⟩ := R.bind_eq_ok.1 h
    have e := (memcpyS_ok.1 h1).1
    simp only [R.pure_eq, R.ok.injEq] at h2
    rw [← h2, e]

theorem macContext_ok {cfg : ECfg} {cR mem th idCred cred ead ctx : Bytes}
    (h : macContext cfg cR mem th idCred cred ead = .ok ctx) :
    ∃ c0, macCr cfg cR mem = .ok c0 ∧ ctx = c0 ++ idCred ++ enc (.bstr th) ++ cred ++ ead := by
  unfold macContext at h
  obtain ⟨_, _, h⟩ := R.bind_eq_ok.1 h
  obtain ⟨thE, h1, h⟩ := R.bind_eq_ok.1 h
  obtain ⟨rfl, _⟩ := encodeBstr_ok.1 h1
  simp only at h
  obtain ⟨_, _, h⟩ := R.bind_eq_ok.1 h
  obtain ⟨c0, h2, h⟩ := R.bind_eq_ok.1 h
  obtain ⟨c1, h3, h⟩ := R.bind_eq_ok.1 h
  obtain ⟨c2, h4, h⟩ := R.bind_eq_ok.1 h
  obtain ⟨c3, h5, h⟩ := R.bind_eq_ok.1 h
  obtain ⟨c4, h6, h⟩ := R.bind_eq_ok.1 h
  refine ⟨c0, h2, ?_⟩
  rw [byteArrayAppend_ok h, byteArrayAppend_ok h6, byteArrayAppend_ok h5, byteArrayAppend_ok h4,
    byteArrayAppend_ok h3]
  simp

theorem getSuite_macLen {l : Nat} {s : Suite} (h : getSuite l = .ok s) : s.macLen = s.aead.tagLen ∧ s.macLen ≤ 16 := by
  unfold getSuite at h
  repeat' split at h
  all_goals first
    | (simp only [R.ok.injEq] at h; subst h; exact ⟨rfl, by decide⟩)
    | cases h

theorem macLen_eq (sd : Bool) (s : Suite) : macLen sd s = EdhocSpec.macLength sd s.macLen := rfl

theorem mac_ok {cfg : ECfg} {C : ECrypto} (hC : C.Lawful) {prk cR mem th idCred cred ead m : Bytes} {label : Nat}
    {sd : Bool} {suite : Suite} (hs : suite.macLen ≤ 16)
    (h : mac cfg C prk cR mem th idCred cred ead label sd suite = .ok m) :
    ∃ c0, macCr cfg cR mem = .ok c0 ∧
      m = EdhocSpec.kdf C.hmac prk label (c0 ++ idCred ++ enc (.bstr th) ++ cred ++ ead)
        (EdhocSpec.macLength sd suite.macLen) := by
  unfold mac at h
  obtain ⟨ctx, h1, h⟩ := R.bind_eq_ok.1 h
  obtain ⟨c0, h2, rfl⟩ := macContext_ok h1
  refine ⟨c0, h2, kdf_ok hC h ?_⟩
  unfold EdhocSpec.macLength; split <;> omega

theorem sigStruct_ok {cfg : ECfg} {th idCred cred ead m s : Bytes}
    (h : sigStruct cfg th idCred cred ead m = .ok s) :
    s = EdhocSpec.sigStructure idCred th cred ead m := by
  unfold sigStruct at h
  obtain ⟨_, _, h⟩ := R.bind_eq_ok.1 h
  obtain ⟨thE, h1, h⟩ := R.bind_eq_ok.1 h
  obtain ⟨rfl, _⟩ := encodeBstr_ok.1 h1
  obtain ⟨_, _, h⟩ := R.bind_eq_ok.1 h
  rw [cborOut_ok] at h
  rw [h.1]
  unfold EdhocSpec.sigStructure
  rw [← cborArr_eq]
  simp only [cborTstr_eq, cborBstr_eq, encList, List.append_nil, List.append_assoc, List.length_cons,
    List.length_nil]
  rfl

/-! ### C41 -/

/-- C41 is false: what is accepted is every *prefix* of the MAC, because the comparison runs over the
received length. -/
theorem C41_accepted_iff {cfg : ECfg} {C : ECrypto} {suite : Suite} {pk prk cR mem th idCred cred ead : Bytes}
    {label : Nat} {rcv : Bytes} :
    sigOrMacVerify cfg C true suite pk prk cR mem th idCred cred ead label rcv = .ok () ↔
      ∃ m, mac cfg C prk cR mem th idCred cred ead label true suite = .ok m ∧ rcv <+: m := by
  unfold sigOrMacVerify
  cases hm : mac cfg C prk cR mem th idCred cred ead label true suite with
  | err e => simp
  | ub => simp
  | ok m =>
    simp only [R.ok_bind, ↓reduceIte, R.ok.injEq, exists_eq_left']
    unfold macCompare
    constructor
    · intro h
      split at h
      · split at h
        · rename_i h1 h2
          exact ⟨m.drop rcv.length, by rw [← h2, List.length_take, Nat.min_eq_left h1, List.take_append_drop]⟩
        · cases h
      · split at h <;> cases h
    · rintro ⟨t, rfl⟩
      rw [if_pos (by simp), if_pos (by simp)]; rfl

/-- C41 is false: an empty field is accepted whatever the MAC is. -/
theorem C41_false {cfg : ECfg} {C : ECrypto} {suite : Suite} {pk prk cR mem th idCred cred ead m : Bytes}
    {label : Nat} (h : mac cfg C prk cR mem th idCred cred ead label true suite = .ok m) :
    sigOrMacVerify cfg C true suite pk prk cR mem th idCred cred ead label [] = .ok () :=
  C41_accepted_iff.2 ⟨m, h, List.nil_prefix⟩

/-- What holds of C41: among fields of the right length exactly the MAC is accepted, and nothing
longer. -/
theorem C41_partial {cfg : ECfg} {C : ECrypto} {suite : Suite} {pk prk cR mem th idCred cred ead m : Bytes}
    {label : Nat} {rcv : Bytes} (h : mac cfg C prk cR mem th idCred cred ead label true suite = .ok m) :
    (rcv.length = m.length →
      (sigOrMacVerify cfg C true suite pk prk cR mem th idCred cred ead label rcv = .ok () ↔ rcv = m)) ∧
    (m.length < rcv.length →
      sigOrMacVerify cfg C true suite pk prk cR mem th idCred cred ead label rcv ≠ .ok ()) := by
  refine ⟨fun hl => ?_, fun hl h' => ?_⟩
  · rw [C41_accepted_iff, h]
    simp only [R.ok.injEq, exists_eq_left']
    constructor
    · intro hp; exact hp.eq_of_length hl
    · rintro rfl; exact List.prefix_rfl
  · obtain ⟨m', h1, hp⟩ := C41_accepted_iff.1 h'
    rw [h] at h1
    simp only [R.ok.injEq] at h1
    subst h1
    have := hp.length_le
    omega

/-- the witness of the attack: message_1 of method 3 -/
def forgeMsg1 : Bytes := ((msg1Gen {} toyE (toyI 3)).getD ([], ⟨0, .ccm64, 8, .p256, .es256, .ccm64⟩, [])).1
/-- the responder's state after message_2 -/
def forgeState : RState := ((msg2Gen {} toyE toyR forgeMsg1 10 []).getD
  ([], ⟨⟨0, .ccm64, 8, .p256, .es256, .ccm64⟩, true, [], [], [], []⟩)).2
/-- message_3 with the initiator's kid and an *empty* MAC_3; it is encrypted under K_3 and IV_3, which
do not depend on the initiator's static key -/
def forgeMsg3 : Bytes :=
  cborBstr ((ctxtEncrypt toyE .c3 forgeState.suite
    ((edhocKdf {} toyE forgeState.prk3e2m 3 forgeState.th3 16).getD [])
    ((edhocKdf {} toyE forgeState.prk3e2m 4 forgeState.th3 13).getD []) forgeState.th3 [0x2b, 0x40] 1000).getD [])

/-- C41 is false for a whole run: the responder accepts a message_3 without a MAC as the initiator's. -/
theorem C41_false_run :
    (responderRun {} toyE toyR toyCredsI 10 32 (netOf [forgeMsg1, forgeMsg3])).1.isOk = true := by
  decide +kernel

/-! ### C42 -/

/-- C42: with signatures, verification succeeds exactly if the MAC and the Sig_structure can be built
and the primitive accepts the received signature over the RFC's Sig_structure. -/
theorem C42_verify {cfg : ECfg} {C : ECrypto} {suite : Suite} {pk prk cR mem th idCred cred ead : Bytes}
    {label : Nat} {rcv : Bytes}
    (h : sigOrMacVerify cfg C false suite pk prk cR mem th idCred cred ead label rcv = .ok ()) :
    ∃ m, mac cfg C prk cR mem th idCred cred ead label false suite = .ok m ∧
      C.verify suite.sign pk (EdhocSpec.sigStructure idCred th cred ead m) rcv = some true := by
  unfold sigOrMacVerify at h
  obtain ⟨m, hm, h⟩ := R.bind_eq_ok.1 h
  simp only [Bool.false_eq_true, ↓reduceIte] at h
  obtain ⟨s, hs, h⟩ := R.bind_eq_ok.1 h
  obtain ⟨ok, hv, h⟩ := R.bind_eq_ok.1 h
  rw [sigStruct_ok hs] at hv
  refine ⟨m, hm, ?_⟩
  split at h
  · rename_i hok
    unfold verifySig at hv
    split at hv
    · cases hv
    · split at hv
      · rename_i b hb
        simp only [R.ok.injEq] at hv
        rw [hb, hv, hok]
      · cases hv
  · cases h

/-- a failed verification is never accepted -/
theorem C42_rejects {cfg : ECfg} {C : ECrypto} {suite : Suite} {pk prk cR mem th idCred cred ead m : Bytes}
    {label : Nat} {rcv : Bytes} (hm : mac cfg C prk cR mem th idCred cred ead label false suite = .ok m)
    (hv : C.verify suite.sign pk (EdhocSpec.sigStructure idCred th cred ead m) rcv ≠ some true) :
    sigOrMacVerify cfg C false suite pk prk cR mem th idCred cred ead label rcv ≠ .ok () := by
  intro h
  obtain ⟨m', h1, h2⟩ := C42_verify h
  rw [hm] at h1
  simp only [R.ok.injEq] at h1
  subst h1
  exact hv h2

/-- a successful initiator run processed the received message_2 successfully -/
theorem initiatorRun_ok {cfg : ECfg} {C : ECrypto} {c : ICtx} {creds : List Cred} {crBuf : Bytes} {L : Nat}
    {n n' : Net} {o : IOut} (h : initiatorRun cfg C c creds crBuf L n = (.ok o, n')) :
    ∃ m1 suite h1 m2 q st m3, msg1Gen cfg C c = .ok (m1, suite, h1) ∧ n.rxq = .inr m2 :: q ∧
      msg2Process cfg C c creds suite h1 m2 (authType c.method (false, false)).1
        (authType c.method (false, false)).2 crBuf (List.replicate cfg.eadSize 0) = .ok st ∧
      msg3OnlyGen cfg C c suite (authType c.method (false, false)).1 st m2 L = .ok m3 ∧
      o = ⟨st.cR, m3.prkOut, m3.th4, st.prk4e3m⟩ ∧ m2.length ≤ cfg.msgMaxSize := by
  unfold initiatorRun at h
  obtain ⟨⟨m1, suite, h1⟩, n1, e1, h⟩ := M.bind_eq_ok.1 h
  simp only [M.run_lift, Prod.mk.injEq] at e1
  obtain ⟨e1, rfl⟩ := e1
  obtain ⟨_, n2, e2, h⟩ := M.bind_eq_ok.1 h
  obtain ⟨m2, n3, e3, h⟩ := M.bind_eq_ok.1 h
  obtain ⟨⟨st, m3⟩, n4, e4, h⟩ := M.bind_eq_ok.1 h
  simp only [M.run_lift, Prod.mk.injEq] at e4
  obtain ⟨e4, rfl⟩ := e4
  obtain ⟨_, n5, _, h⟩ := M.bind_eq_ok.1 h
  obtain ⟨_, n6, _, h⟩ := M.bind_eq_ok.1 h
  have ho : o = ⟨st.cR, m3.prkOut, m3.th4, st.prk4e3m⟩ := by
    split at h
    · obtain ⟨_, n7, _, h⟩ := M.bind_eq_ok.1 h
      simp only [M.run_pure, Prod.mk.injEq, R.ok.injEq] at h
      exact h.1.symm
    · simp only [M.run_pure, Prod.mk.injEq, R.ok.injEq] at h
      exact h.1.symm
  have hq : n2.rxq = n.rxq := by
    unfold netTx at e2
    split at e2 <;> simp only [Prod.mk.injEq] at e2
    · cases e2.1
    · rw [← e2.2]
  have hrx : ∃ q, n.rxq = .inr m2 :: q ∧ m2.length ≤ cfg.msgMaxSize := by
    unfold netRx at e3
    rw [hq] at e3
    split at e3
    · cases e3
    · cases e3
    · rename_i m q hq'
      split at e3
      · rename_i hle
        simp only [Prod.mk.injEq, R.ok.injEq] at e3
        exact ⟨q, by rw [hq', e3.1], by rw [← e3.1]; exact hle⟩
      · cases e3
  obtain ⟨q, hq2, hle⟩ := hrx
  unfold msg3Gen at e4
  obtain ⟨st', e5, e4⟩ := R.bind_eq_ok.1 e4
  obtain ⟨o3, e6, e4⟩ := R.bind_eq_ok.1 e4
  simp only [R.pure_eq, R.ok.injEq, Prod.mk.injEq] at e4
  obtain ⟨rfl, rfl⟩ := e4
  exact ⟨m1, suite, h1, m2, q, _, _, e1, hq2, e5, e6, ho, hle⟩

/-- a successful responder run processed message_1 and message_3 successfully -/
theorem responderRun_ok {cfg : ECfg} {C : ECrypto} {c : RCtx} {creds : List Cred} {cICap L : Nat}
    {n n' : Net} {o : ROut} (h : responderRun cfg C c creds cICap L n = (.ok o, n')) :
    ∃ m1 m2 rs m3 q r3, n.rxq = .inr m1 :: .inr m3 :: q ∧
      msg2Gen cfg C c m1 cICap (List.replicate cfg.eadSize 0) = .ok (m2, rs) ∧
      msg3Process cfg C c creds rs m3 L = .ok r3 ∧
      o = ⟨rs.cI, r3.prkOut, r3.pk, r3.th4, r3.prk4e3m⟩ := by
  have rx : ∀ {cap : Nat} {m : Bytes} {a b : Net}, netRx cap a = (.ok m, b) → a.rxq = .inr m :: b.rxq := by
    intro cap m a b h
    unfold netRx at h
    split at h
    · cases h
    · cases h
    · rename_i m' q hq
      split at h
      · simp only [Prod.mk.injEq, R.ok.injEq] at h
        rw [hq, h.1, ← h.2]
      · cases h
  unfold responderRun at h
  obtain ⟨m1, n1, e1, h⟩ := M.bind_eq_ok.1 h
  obtain ⟨⟨m2, rs⟩, n2, e2, h⟩ := M.bind_eq_ok.1 h
  simp only [M.run_lift, Prod.mk.injEq] at e2
  obtain ⟨e2, rfl⟩ := e2
  obtain ⟨_, n3, e3, h⟩ := M.bind_eq_ok.1 h
  obtain ⟨_, n4, e4, h⟩ := M.bind_eq_ok.1 h
  obtain ⟨m3, n5, e5, h⟩ := M.bind_eq_ok.1 h
  obtain ⟨r3, n6, e6, h⟩ := M.bind_eq_ok.1 h
  simp only [M.run_lift, Prod.mk.injEq] at e6
  obtain ⟨e6, rfl⟩ := e6
  obtain ⟨_, n7, _, h⟩ := M.bind_eq_ok.1 h
  have h3 : n3.rxq = n1.rxq := by
    unfold netEad at e3
    split at e3 <;> simp only [Prod.mk.injEq] at e3
    · cases e3.1
    · rw [← e3.2]
  have h4 : n4.rxq = n3.rxq := by
    unfold netTx at e4
    split at e4 <;> simp only [Prod.mk.injEq] at e4
    · cases e4.1
    · rw [← e4.2]
  refine ⟨m1, m2, rs, m3, n5.rxq, r3, ?_, e2, e6, ?_⟩
  · rw [rx e1, ← h3, ← h4, rx e5]
  · split at h
    · obtain ⟨_, n8, _, h⟩ := M.bind_eq_ok.1 h
      simp only [M.run_pure, Prod.mk.injEq, R.ok.injEq] at h
      exact h.1.symm
    · simp only [M.run_pure, Prod.mk.injEq, R.ok.injEq] at h
      exact h.1.symm

/-- C42, initiator: if `edhoc_initiator_run` returns ok and the responder authenticates with a
signature (methods 0 and 2), then the received message_2 carries G_Y, and for the ID_CRED_R, the
signature and the EAD_2 of its plaintext, the credential looked up for that ID_CRED_R has a public key
under which the signature over the Sig_structure with TH_2 and MAC_2 verified. -/
theorem C42_initiator {cfg : ECfg} {C : ECrypto} {c : ICtx} {creds : List Cred} {crBuf : Bytes} {L : Nat}
    {n n' : Net} {o : IOut} (h : initiatorRun cfg C c creds crBuf L n = (.ok o, n'))
    (hm : c.method = 0 ∨ c.method = 2) :
    ∃ m1 suite m2 q gY c2 th2 gxy ptxt sp cred pk prk3e2m mac2,
      msg1Gen cfg C c = .ok (m1, suite, C.hash m1) ∧ n.rxq = .inr m2 :: q ∧
      msg2Parse cfg m2 (ctxt2Len m2.length) = .ok (gY, c2) ∧
      th2 = EdhocSpec.th2 C.hash gY m1 ∧
      sharedSecret C suite.ecdh c.x gY = .ok gxy ∧
      ctxtDecrypt cfg C .c2 suite (hkdfExtract C.toCrypto th2 gxy) th2 c2 = .ok ptxt ∧
      plaintext2Split cfg ptxt crBuf.length cfg.idCredRSize cfg.eadSize = .ok (o.cR, sp) ∧
      retrieveCred cfg C false creds sp.idCred cfg.credRSize = .ok (cred, pk, []) ∧
      mac cfg C prk3e2m o.cR (crBuf.drop o.cR.length) th2 sp.idCred cred sp.ead 2 false suite = .ok mac2 ∧
      C.verify suite.sign pk (EdhocSpec.sigStructure sp.idCred th2 cred sp.ead mac2) sp.sigOrMac = some true := by
  obtain ⟨m1, suite, h1, m2, q, st, m3, e1, hq, e2, e3, rfl, hle⟩ := initiatorRun_ok h
  have hh1 : h1 = C.hash m1 := by
    unfold msg1Gen at e1
    obtain ⟨_, _, e1⟩ := R.bind_eq_ok.1 e1
    obtain ⟨_, _, e1⟩ := R.bind_eq_ok.1 e1
    obtain ⟨_, _, e1⟩ := R.bind_eq_ok.1 e1
    obtain ⟨_, _, e1⟩ := R.bind_eq_ok.1 e1
    simp only [R.pure_eq, R.ok.injEq, Prod.mk.injEq] at e1
    rw [← e1.2.2, e1.1]; rfl
  have hsr : (authType c.method (false, false)).2 = false := by
    rcases hm with hm | hm <;> rw [hm] <;> rfl
  rw [hsr] at e2
  unfold msg2Process at e2
  obtain ⟨_, _, e2⟩ := R.bind_eq_ok.1 e2
  obtain ⟨⟨gY, c2⟩, f1, e2⟩ := R.bind_eq_ok.1 e2
  simp only at e2
  obtain ⟨gxy, f2, e2⟩ := R.bind_eq_ok.1 e2
  obtain ⟨th2, f3, e2⟩ := R.bind_eq_ok.1 e2
  obtain ⟨ptxt, f4, e2⟩ := R.bind_eq_ok.1 e2
  obtain ⟨⟨cR, sp⟩, f5, e2⟩ := R.bind_eq_ok.1 e2
  simp only at e2
  unfold msg2Auth at e2
  obtain ⟨⟨cred, pk, g⟩, f6, e2⟩ := R.bind_eq_ok.1 e2
  simp only at e2
  obtain ⟨prk3, f7, e2⟩ := R.bind_eq_ok.1 e2
  obtain ⟨_, f8, e2⟩ := R.bind_eq_ok.1 e2
  obtain ⟨th3, f9, e2⟩ := R.bind_eq_ok.1 e2
  obtain ⟨prk4, f10, e2⟩ := R.bind_eq_ok.1 e2
  simp only [R.pure_eq, R.ok.injEq] at e2
  subst e2
  obtain ⟨m, hm1, hv⟩ := C42_verify f8
  have hg : g = [] := by
    have key : ∀ (c : Cred) (a b : Bytes), localKeys false c = .ok (a, b) → b = [] := by
      intro c a b h
      unfold localKeys at h
      simp only [Bool.false_eq_true, ↓reduceIte] at h
      obtain ⟨_, _, h⟩ := R.bind_eq_ok.1 h
      simp only [R.pure_eq, R.ok.injEq, Prod.mk.injEq] at h
      exact h.2.symm
    have kc : ∀ cr (r : R (Bool × Bytes)), certOut false cr r = .ok (cred, pk, g) → g = [] := by
      intro cr r h
      unfold certOut at h
      obtain ⟨⟨v, k⟩, _, h⟩ := R.bind_eq_ok.1 h
      simp only at h
      split at h
      · simp only [Bool.false_eq_true, ↓reduceIte, R.pure_eq, R.ok.injEq, Prod.mk.injEq] at h
        exact h.2.2.symm
      · cases h
    have kv : ∀ x cert, verifyCert2cred cfg C false creds x cert cfg.credRSize = .ok (cred, pk, g) → g = [] := by
      intro x cert h
      unfold verifyCert2cred at h
      obtain ⟨_, _, h⟩ := R.bind_eq_ok.1 h
      exact kc _ _ h
    have kl : ∀ cs : List Cred, getLocalCred false sp.idCred cfg.credRSize cs = .ok (cred, pk, g) → g = [] := by
      intro cs
      induction cs with
      | nil => intro h; cases h
      | cons d ds ih =>
        intro h
        unfold getLocalCred at h
        split at h
        · obtain ⟨_, _, h⟩ := R.bind_eq_ok.1 h
          obtain ⟨⟨_, _⟩, h2, h⟩ := R.bind_eq_ok.1 h
          simp only [R.pure_eq, R.ok.injEq, Prod.mk.injEq] at h
          rw [← h.2.2]
          exact key _ _ _ h2
        · exact ih h
    unfold retrieveCred at f6
    split at f6
    · cases f6
    · split at f6
      · exact kl _ f6
      · split at f6
        · exact kv _ _ f6
        · exact kv _ _ f6
        · exact kv _ _ f6
        · exact kv _ _ f6
        · cases f6
  subst hg
  rw [hh1] at f3 e1
  refine ⟨m1, suite, m2, q, gY, c2, th2, gxy, ptxt, sp, cred, pk, prk3, m, e1, hq, f1, C47_th2_rfc9528 f3, f2, f4,
    ?_, f6, hm1, hv⟩
  simpa using f5

/-- C42, responder: if `edhoc_responder_run` returns ok and the initiator authenticates with a
signature (static-DH flag off), then the signature in the received message_3 verified under the key of
the credential looked up for its ID_CRED_I, over the Sig_structure with TH_3 and MAC_3; and that key is
the one exported to the caller. -/
theorem C42_responder {cfg : ECfg} {C : ECrypto} {c : RCtx} {creds : List Cred} {cICap L : Nat}
    {n n' : Net} {o : ROut} (h : responderRun cfg C c creds cICap L n = (.ok o, n')) :
    ∃ m1 m2 rs m3 q, n.rxq = .inr m1 :: .inr m3 :: q ∧
      msg2Gen cfg C c m1 cICap (List.replicate cfg.eadSize 0) = .ok (m2, rs) ∧
      (rs.staticDhI = false → ∃ c3 ptxt sp cred g mac3,
        decodeBstr cfg m3 m3.length = .ok c3 ∧
        ctxtDecrypt cfg C .c3 rs.suite rs.prk3e2m rs.th3 c3 = .ok ptxt ∧
        plaintext3Split cfg ptxt cfg.idCredISize rs.ead.length = .ok sp ∧
        retrieveCred cfg C false creds sp.idCred cfg.credISize = .ok (cred, o.pk, g) ∧
        mac cfg C rs.prk3e2m [] [] rs.th3 sp.idCred cred sp.ead 6 false rs.suite = .ok mac3 ∧
        C.verify rs.suite.sign o.pk (EdhocSpec.sigStructure sp.idCred rs.th3 cred sp.ead mac3) sp.sigOrMac
          = some true) := by
  obtain ⟨m1, m2, rs, m3, q, r3, hq, e1, e2, rfl⟩ := responderRun_ok h
  refine ⟨m1, m2, rs, m3, q, hq, e1, fun hs => ?_⟩
  unfold msg3Process at e2
  obtain ⟨_, _, e2⟩ := R.bind_eq_ok.1 e2
  obtain ⟨c3, f1, e2⟩ := R.bind_eq_ok.1 e2
  obtain ⟨_, _, e2⟩ := R.bind_eq_ok.1 e2
  obtain ⟨ptxt, f2, e2⟩ := R.bind_eq_ok.1 e2
  obtain ⟨sp, f3, e2⟩ := R.bind_eq_ok.1 e2
  unfold msg3Auth at e2
  rw [hs] at e2
  obtain ⟨⟨cred, pk, g⟩, f6, e2⟩ := R.bind_eq_ok.1 e2
  simp only at e2
  obtain ⟨prk4, f7, e2⟩ := R.bind_eq_ok.1 e2
  obtain ⟨_, f8, e2⟩ := R.bind_eq_ok.1 e2
  obtain ⟨th4, f9, e2⟩ := R.bind_eq_ok.1 e2
  obtain ⟨prk, f10, e2⟩ := R.bind_eq_ok.1 e2
  simp only [R.pure_eq, R.ok.injEq] at e2
  subst e2
  obtain ⟨m, hm1, hv⟩ := C42_verify f8
  have : prk4 = rs.prk3e2m := by
    unfold prkDerive at f7
    simp only [Bool.false_eq_true, ↓reduceIte, R.pure_eq, R.ok.injEq] at f7
    exact f7.symm
  subst this
  exact ⟨c3, ptxt, sp, cred, g, m, f1, f2, f3, f6, hm1, hv⟩

end Verif.Edhoc
