import Verif.Props.EdhocPeer
/-
C77: EDHOC key confirmation.  A party that accepts message_3 or message_4 shares the transcript and the keys with the
party that encrypted it, for all authentication methods.
-/
namespace Verif.Edhoc
open Verif Verif.Cbor

/-! ### specification -/

/-- Key and IV of message_3 (`four` false) or message_4 (`four` true): RFC 9528, 4.1.2 and Table 6 -/
def keyIv (C : ECrypto) (four : Bool) (prk th : Bytes) : Bytes × Bytes :=
  (EdhocSpec.kdf C.hmac prk (if four then 8 else 3) th 16, EdhocSpec.kdf C.hmac prk (if four then 9 else 4) th 13)

/-- One use of the AEAD by the API: a responder that received `m1` and `m3` and makes message_4, or an initiator that
received `m2` and makes message_3. -/
inductive ESession where
  | resp (cfg : ECfg) (c : RCtx) (creds : List Cred) (cICap L : Nat) (m1 m3 : Bytes)
  | init (cfg : ECfg) (c : ICtx) (creds : List Cred) (crBuf : Bytes) (m2 : Bytes)

/-- The arguments of the only AEAD encryption of the session, if it gets that far: key, IV, associated data, tag length and
plaintext (ciphertext.c:243-260, called from responder.c:322-326 and initiator.c:216-221).  Any error stands for: nothing is
encrypted.  That there are no others is `C77_responder_encrypts`, `C77_initiator_encrypts`. -/
def ESession.encrypted (C : ECrypto) : ESession → R ((Bytes × Bytes) × Bytes × Nat × Bytes)
  | .resp cfg c creds cICap L m1 m3 => do
    let (suite, o) ← respResult cfg C c creds cICap L m1 m3
    let p ← plaintextGen cfg .c4 [] [] [] c.ead4 cfg.plaintext4Size
    let ki ← keyGen cfg C .c4 o.prk4e3m o.th4 p.length
    let a ← assocData o.th4
    pure (ki, a, suite.aead.tagLen, p)
  | .init cfg c creds crBuf m2 => do
    let (_, suite, st) ← initResult cfg C c creds crBuf m2
    let p ← plaintext3Of cfg C c suite st
    let ki ← keyGen cfg C .c3 st.prk3e2m st.th3 p.length
    let a ← assocData st.th3
    pure (ki, a, suite.aead.tagLen, p)

/-- The received ciphertext `ct` is not a forgery under the key and IV of message_3 or message_4 for these PRK and TH: if it
decrypts with the associated data for TH, then what it decrypts to was encrypted so in one of the sessions. -/
def Genuine (C : ECrypto) (four : Bool) (prk th ct : Bytes) (S : ESession → Prop) : Prop :=
  ∀ t p, C.aeadDec (keyIv C four prk th).1 (keyIv C four prk th).2 (EdhocSpec.encStructure th) t ct = some p →
    ∃ s, S s ∧ s.encrypted C = .ok (keyIv C four prk th, EdhocSpec.encStructure th, t, p)

/-- what the session's key and IV are derived from: message_4 or message_3, PRK and TH -/
def ESession.keySource (C : ECrypto) : ESession → R (Bool × Bytes × Bytes)
  | .resp cfg c creds cICap L m1 m3 => do
    let (_, o) ← respResult cfg C c creds cICap L m1 m3
    pure (true, o.prk4e3m, o.th4)
  | .init cfg c creds crBuf m2 => do
    let (_, _, st) ← initResult cfg C c creds crBuf m2
    pure (false, st.prk3e2m, st.th3)

/-- the inputs of the hash on which the session's encryption depends: H(message_1), TH_2, TH_3 (and TH_4) -/
def ESession.hashed (C : ECrypto) : ESession → R (List Bytes)
  | .resp cfg c creds cICap L m1 m3 => do
    let u ← respInputs cfg C c creds cICap m1 m3 L
    pure u.hashed
  | .init cfg c creds crBuf m2 => do
    let v ← initView cfg C c creds crBuf m2
    pure [v.m1, th2In v.gY (C.hash v.m1), thIn v.th2 v.p2 v.credR]

/-- The run with the hash inputs `l` and the key source `k` found a collision with a session of `S`: different inputs with the
same hash at the same place, or the same AEAD key and IV from different sources. -/
def EClashes (C : ECrypto) (l : List Bytes) (k : Bool × Bytes × Bytes) (S : ESession → Prop) : Prop :=
  ∃ s, S s ∧ ((∃ l', s.hashed C = .ok l' ∧ ∃ x ∈ l.zip l', HashClash C x.1 x.2) ∨
    ∃ k', s.keySource C = .ok k' ∧ k ≠ k' ∧ keyIv C k.1 k.2.1 k.2.2 = keyIv C k'.1 k'.2.1 k'.2.2)

/-! ### lemmas -/

theorem assocData_ok {th a : Bytes} (h : assocData th = .ok a) : a = EdhocSpec.encStructure th := by
  unfold assocData at h
  rw [(cborOut_ok.1 h).1]
  unfold EdhocSpec.encStructure
  simp only [enc, encList, List.length_cons, List.length_nil, List.append_assoc, List.append_nil, cborArr, cborTstr, cborBstr, cborHead_eq]
  rfl

theorem keyGen_ok {cfg : ECfg} {C : ECrypto} (hC : C.Lawful) {four : Bool} {prk th : Bytes} {n : Nat} {ki : Bytes × Bytes}
    (h : keyGen cfg C (if four then .c4 else .c3) prk th n = .ok ki) : ki = keyIv C four prk th := by
  unfold keyGen at h
  rw [if_neg (by cases four <;> simp)] at h
  obtain ⟨k, h1, h⟩ := R.bind_eq_ok.1 h
  obtain ⟨iv, h2, h⟩ := R.bind_eq_ok.1 h
  simp only [R.pure_eq, R.ok.injEq] at h
  rw [← h]
  unfold keyIv
  cases four with
  | true => rw [(C38_kdf_rfc9528 hC h1 (by decide)).1, (C38_kdf_rfc9528 hC h2 (by decide)).1]; rfl
  | false => rw [(C38_kdf_rfc9528 hC h1 (by decide)).1, (C38_kdf_rfc9528 hC h2 (by decide)).1]; rfl

theorem encStruct_inj {th th' : Bytes} (h : th.length < 2 ^ 32) (h' : th'.length < 2 ^ 32) (e : EdhocSpec.encStructure th = EdhocSpec.encStructure th') :
    th = th' := by
  unfold EdhocSpec.encStructure at e
  have hl : "Encrypt0".toUTF8.toList.length < 2 ^ 64 := by decide +kernel
  generalize "Encrypt0".toUTF8.toList = w at hl e
  have := enc_inj (i := .arr [.tstr w, .bstr [], .bstr th]) (j := .arr [.tstr w, .bstr [], .bstr th'])
    (by simp only [Item.Ok, OkList, List.length_cons, List.length_nil, and_true]; exact ⟨by decide, hl, by decide, by omega⟩)
    (by simp only [Item.Ok, OkList, List.length_cons, List.length_nil, and_true]; exact ⟨by decide, hl, by decide, by omega⟩) e
  simpa using this

/-- what a session that encrypts knows -/
theorem encrypted_resp {cfg : ECfg} {C : ECrypto} (hC : C.Lawful) {c : RCtx} {creds : List Cred} {cICap L : Nat} {m1 m3 : Bytes}
    {ki : Bytes × Bytes} {a p : Bytes} {t : Nat} (h : ESession.encrypted C (.resp cfg c creds cICap L m1 m3) = .ok (ki, a, t, p)) :
    ∃ suite o, respResult cfg C c creds cICap L m1 m3 = .ok (suite, o) ∧ ki = keyIv C true o.prk4e3m o.th4 ∧ a = EdhocSpec.encStructure o.th4 ∧
      t = suite.aead.tagLen ∧ p = c.ead4 := by
  unfold ESession.encrypted at h
  dsimp only at h
  obtain ⟨⟨suite, o⟩, h1, h⟩ := R.bind_eq_ok.1 h
  dsimp only at h
  obtain ⟨p', h2, h⟩ := R.bind_eq_ok.1 h
  obtain ⟨ki', h3, h⟩ := R.bind_eq_ok.1 h
  obtain ⟨a', h4, h⟩ := R.bind_eq_ok.1 h
  simp only [R.pure_eq, R.ok.injEq, Prod.mk.injEq] at h
  obtain ⟨rfl, rfl, rfl, rfl⟩ := h
  refine ⟨suite, o, h1, keyGen_ok hC (four := true) h3, assocData_ok h4, rfl, ?_⟩
  unfold plaintextGen at h2
  obtain ⟨_, _, h2⟩ := R.bind_eq_ok.1 h2
  obtain ⟨_, _, h2⟩ := R.bind_eq_ok.1 h2
  dsimp only at h2
  rw [byteArrayAppend_ok h2, List.nil_append]

theorem encrypted_init {cfg : ECfg} {C : ECrypto} (hC : C.Lawful) {c : ICtx} {creds : List Cred} {crBuf m2 : Bytes}
    {ki : Bytes × Bytes} {a p : Bytes} {t : Nat} (h : ESession.encrypted C (.init cfg c creds crBuf m2) = .ok (ki, a, t, p)) :
    ∃ m1 suite st, initResult cfg C c creds crBuf m2 = .ok (m1, suite, st) ∧ ki = keyIv C false st.prk3e2m st.th3 ∧
      a = EdhocSpec.encStructure st.th3 ∧ t = suite.aead.tagLen ∧ plaintext3Of cfg C c suite st = .ok p := by
  unfold ESession.encrypted at h
  dsimp only at h
  obtain ⟨⟨m1, suite, st⟩, h1, h⟩ := R.bind_eq_ok.1 h
  dsimp only at h
  obtain ⟨p', h2, h⟩ := R.bind_eq_ok.1 h
  obtain ⟨ki', h3, h⟩ := R.bind_eq_ok.1 h
  obtain ⟨a', h4, h⟩ := R.bind_eq_ok.1 h
  simp only [R.pure_eq, R.ok.injEq, Prod.mk.injEq] at h
  obtain ⟨rfl, rfl, rfl, rfl⟩ := h
  exact ⟨m1, suite, st, h1, keyGen_ok hC (four := false) h3, assocData_ok h4, rfl, h2⟩

theorem respResult_facts {cfg : ECfg} {C : ECrypto} (hC : C.Lawful) {c : RCtx} {creds : List Cred} {cICap L : Nat}
    {m1 m3 : Bytes} {suite : Suite} {o : ROut} (h : respResult cfg C c creds cICap L m1 m3 = .ok (suite, o)) (n : Net)
    (hq : n.rxq.head? = some (.inr m1)) :
    ∃ p2 p3 credI th2 th3 p sp, RFacts cfg C c creds cICap n o L m1 m3 p2 p3 credI th2 th3 p sp := by
  unfold respResult at h
  obtain ⟨⟨m2, rs⟩, h1, h⟩ := R.bind_eq_ok.1 h
  dsimp only at h
  obtain ⟨r3, h2, h⟩ := R.bind_eq_ok.1 h
  simp only [R.pure_eq, R.ok.injEq, Prod.mk.injEq] at h
  obtain ⟨-, rfl⟩ := h
  exact responder_core hC hq h1 h2

theorem resp_keySource {cfg : ECfg} {C : ECrypto} {c : RCtx} {creds : List Cred} {cICap L : Nat} {m1 m3 : Bytes} {suite : Suite} {o : ROut}
    (h : respResult cfg C c creds cICap L m1 m3 = .ok (suite, o)) :
    ESession.keySource C (.resp cfg c creds cICap L m1 m3) = .ok (true, o.prk4e3m, o.th4) := by
  unfold ESession.keySource
  dsimp only
  rw [h, R.ok_bind]
  rfl

theorem init_keySource {cfg : ECfg} {C : ECrypto} {c : ICtx} {creds : List Cred} {crBuf m1 m2 : Bytes} {suite : Suite} {st : IState}
    (h : initResult cfg C c creds crBuf m2 = .ok (m1, suite, st)) :
    ESession.keySource C (.init cfg c creds crBuf m2) = .ok (false, st.prk3e2m, st.th3) := by
  unfold ESession.keySource
  dsimp only
  rw [h, R.ok_bind]
  rfl

theorem resp_hashed {cfg : ECfg} {C : ECrypto} {c : RCtx} {creds : List Cred} {cICap L : Nat} {m1 m3 : Bytes} {u : Inputs}
    (h : respInputs cfg C c creds cICap m1 m3 L = .ok u) : ESession.hashed C (.resp cfg c creds cICap L m1 m3) = .ok u.hashed := by
  unfold ESession.hashed
  dsimp only
  rw [h, R.ok_bind]
  rfl

theorem initResult_ok {cfg : ECfg} {C : ECrypto} {c : ICtx} {creds : List Cred} {crBuf m2 m1 : Bytes} {suite : Suite} {st : IState}
    (h : initResult cfg C c creds crBuf m2 = .ok (m1, suite, st)) : ∃ h1, msg1Gen cfg C c = .ok (m1, suite, h1) ∧
      msg2Process cfg C c creds suite h1 m2 (authType c.method (false, false)).1 (authType c.method (false, false)).2 crBuf
        (List.replicate cfg.eadSize 0) = .ok st := by
  unfold initResult at h
  obtain ⟨⟨m1', suite', h1⟩, e1, h⟩ := R.bind_eq_ok.1 h
  dsimp only at h
  obtain ⟨st', e2, h⟩ := R.bind_eq_ok.1 h
  simp only [R.pure_eq, R.ok.injEq, Prod.mk.injEq] at h
  obtain ⟨rfl, rfl, rfl⟩ := h
  exact ⟨h1, e1, e2⟩

/-- a decryption with the key of message_3 or message_4 -/
theorem ctxtDecrypt_ok {cfg : ECfg} {C : ECrypto} (hC : C.Lawful) {four : Bool} {suite : Suite} {prk th ct p : Bytes}
    (h : ctxtDecrypt cfg C (if four then .c4 else .c3) suite prk th ct = .ok p) :
    C.aeadDec (keyIv C four prk th).1 (keyIv C four prk th).2 (EdhocSpec.encStructure th) suite.aead.tagLen ct = some p := by
  unfold ctxtDecrypt at h
  obtain ⟨⟨k, iv⟩, h1, h⟩ := R.bind_eq_ok.1 h
  dsimp only at h
  obtain ⟨a, h2, h⟩ := R.bind_eq_ok.1 h
  rw [if_neg (by cases four <;> simp)] at h
  split at h
  · cases h
  split at h
  · rename_i p' hd
    simp only [R.pure_eq, R.ok.injEq] at h
    rw [← keyGen_ok hC h1, ← assocData_ok h2, ← h]
    exact hd
  · cases h

/-- message_4 in a completed run of the initiator -/
theorem initiator_msg4 {cfg : ECfg} {C : ECrypto} {c : ICtx} {creds : List Cred} {crBuf : Bytes} {L : Nat}
    {n n' : Net} {o : IOut} (h : initiatorRun cfg C c creds crBuf L n = (.ok o, n')) (h4 : cfg.message4 = true) :
    ∃ m1 suite h1 m2 m4 q cap ead4, msg1Gen cfg C c = .ok (m1, suite, h1) ∧ n.rxq = .inr m2 :: .inr m4 :: q ∧
      msg4Process cfg C suite o.prk4e3m o.th4 m4 cap = .ok ead4 := by
  unfold initiatorRun at h
  obtain ⟨⟨m1, suite, h1⟩, n1, e1, h⟩ := M.bind_eq_ok.1 h
  simp only [M.run_lift, Prod.mk.injEq] at e1
  obtain ⟨e1, rfl⟩ := e1
  obtain ⟨_, n2, e2, h⟩ := M.bind_eq_ok.1 h
  obtain ⟨m2, n3, e3, h⟩ := M.bind_eq_ok.1 h
  obtain ⟨⟨st, m3⟩, n4, e4, h⟩ := M.bind_eq_ok.1 h
  simp only [M.run_lift, Prod.mk.injEq] at e4
  obtain ⟨-, rfl⟩ := e4
  obtain ⟨_, n5, e5, h⟩ := M.bind_eq_ok.1 h
  obtain ⟨_, n6, e6, h⟩ := M.bind_eq_ok.1 h
  rw [if_pos h4] at h
  obtain ⟨_, n7, e7, h⟩ := M.bind_eq_ok.1 h
  simp only [M.run_pure, Prod.mk.injEq, R.ok.injEq] at h
  obtain ⟨rfl, -⟩ := h
  unfold initiatorMsg4 at e7
  obtain ⟨m4, n8, e8, e7⟩ := M.bind_eq_ok.1 e7
  obtain ⟨ead4, n9, e9, e7⟩ := M.bind_eq_ok.1 e7
  simp only [M.run_lift, Prod.mk.injEq] at e9
  refine ⟨m1, suite, h1, m2, m4, n8.rxq, _, ead4, e1, ?_, e9.1⟩
  rw [← (netTx_eff e2).2, (netRx_eff e3).2, ← (netEad_eff e5).2, ← (netTx_eff e6).2, (netRx_eff e8).2]

/-! ### C77 -/

/-- **C77** (initiator) The build has message_4 and `edhoc_initiator_run` returns ok with PRK_out `k`; any
authentication method, any network.  If the ciphertext of the received message_4 is not a forgery under the key and IV of
message_4 (it was made in a session of the API), then one of these sessions is a responder that received exactly the message_1 this initiator sent, whose
G_Y this initiator received, and which has the same TH_4 and PRK_4e3m, hence the same PRK_out if it asked for as many
bytes; unless a collision was found between this run and one of the sessions (`EClashes`). -/
theorem C77_initiator {cfg : ECfg} {C : ECrypto} (hC : C.Lawful) {c : ICtx} {creds : List Cred} {crBuf k : Bytes} {L : Nat}
    {n n' : Net} {o : IOut} (h : initiatorRun cfg C c creds crBuf L n = (.ok o, n')) (h4 : cfg.message4 = true)
    (hk : o.prkOut = some k) :
    ∃ m1 m2 m4 q ct u, (∃ later, n'.sent = n.sent ++ m1 :: later) ∧ n.rxq = .inr m2 :: .inr m4 :: q ∧
      decodeBstr cfg m4 cfg.plaintext4Size = .ok ct ∧ initInputs cfg C c creds crBuf m2 L = .ok u ∧
      ∀ S : ESession → Prop, Genuine C true o.prk4e3m o.th4 ct S →
      (EClashes C u.hashed (true, o.prk4e3m, o.th4) S ∨
      ∃ cfgR cr credsR cICap L' m3 suiteR oR c2, S (.resp cfgR cr credsR cICap L' m1 m3) ∧
        respResult cfgR C cr credsR cICap L' m1 m3 = .ok (suiteR, oR) ∧
        msg2Parse cfg m2 (ctxt2Len m2.length) = .ok (cr.gY, c2) ∧
        oR.th4 = o.th4 ∧ oR.prk4e3m = o.prk4e3m ∧ (L' = L → L ≤ 255 * 32 → oR.prkOut = k)) := by
  obtain ⟨m1, m2, gY, c2, p2, credR, pkR, p3, th2, th3, suite, spR, fI⟩ := initiator_facts hC h hk
  obtain ⟨-, suite', -, m2', m4, q, cap, ead4, -, hq, e4⟩ := initiator_msg4 h h4
  unfold msg4Process at e4
  obtain ⟨c4, e3, e4⟩ := R.bind_eq_ok.1 e4
  obtain ⟨_, _, e4⟩ := R.bind_eq_ok.1 e4
  obtain ⟨p4, e5, -⟩ := R.bind_eq_ok.1 e4
  have hm2 : m2' = m2 := by
    have := fI.rcv
    rw [hq] at this
    simpa using this
  subst hm2
  refine ⟨m1, m2', m4, q, c4, _, fI.first, hq, e3, fI.inputs, fun S hS => ?_⟩
  obtain ⟨s, hs, he⟩ := hS _ _ (ctxtDecrypt_ok hC (four := true) e5)
  have l4 := th34_length hC fI.hth4
  cases s with
  | resp cfgR cr credsR cICap L' m1' m3 =>
    obtain ⟨suiteR, oR, r1, r2, r3, -, -⟩ := encrypted_resp hC he
    obtain ⟨p2', p3', credI, th2', th3', p, sp, fR⟩ := respResult_facts hC r1 ⟨[.inr m1'], [], [], [], []⟩ rfl
    have l4' := th34_length hC fR.hth4
    have ht : o.th4 = oR.th4 := encStruct_inj (by omega) (by omega) r3
    by_cases hp : o.prk4e3m = oR.prk4e3m
    case neg =>
      exact .inl ⟨_, hs, .inr ⟨_, resp_keySource r1, fun e => hp (Prod.mk.inj (Prod.mk.inj e).2).1, r2⟩⟩
    rcases transcript4 hC fI fR ht with e | ⟨-, -, rfl, rfl, -, -⟩
    · exact .inl ⟨_, hs, .inl ⟨_, resp_hashed fR.inputs, e⟩⟩
    refine .inr ⟨cfgR, cr, credsR, cICap, L', m3, suiteR, oR, c2, hs, r1, fI.parse2, ht.symm, hp.symm, ?_⟩
    rintro rfl hL
    have a1 := (C38_kdf_rfc9528 hC fI.out hL).1
    have a2 := (C38_kdf_rfc9528 hC fR.out hL).1
    rw [a1, a2, hp, ht]
  | init cfgI ci credsI crB m2' =>
    obtain ⟨m1', suiteI, st, r1, r2, r3, -, -⟩ := encrypted_init hC he
    exact .inl ⟨_, hs, .inr ⟨_, init_keySource r1, (fun e => absurd (Prod.mk.inj e).1 (by decide)), r2⟩⟩

/-- **C77** (initiator, the parameters of the session) as `C77_initiator`, for ID_CREDs of the supported forms and buffers that
are large enough: the partner also uses the C_R this initiator returns, holds this initiator's C_I, and the key it returns
to its caller is the one it has for this initiator's ID_CRED_I; this initiator used the credential it has for the partner's
ID_CRED_R. -/
theorem C77_initiator_session {cfg : ECfg} {C : ECrypto} (hC : C.Lawful) {c : ICtx} {creds : List Cred} {crBuf k wI : Bytes} {L : Nat}
    {n n' : Net} {o : IOut} (h : initiatorRun cfg C c creds crBuf L n = (.ok o, n')) (h4 : cfg.message4 = true)
    (hk : o.prkOut = some k)
    (hm : 0 ≤ c.method ∧ c.method ≤ 3) (hgx : c.gX.length ≤ 32) (hc' : c.cI.length < 2 ^ 32) (he' : c.ead1.length < 2 ^ 32)
    (wi : IdWire c.idCredI wI) :
    ∃ m2 m4 q ct u, n.rxq = .inr m2 :: .inr m4 :: q ∧ decodeBstr cfg m4 cfg.plaintext4Size = .ok ct ∧
    initInputs cfg C c creds crBuf m2 L = .ok u ∧
    ∀ S : ESession → Prop, Genuine C true o.prk4e3m o.th4 ct S →
    (∀ cfgR cr credsR cICap L' m1 m3, S (.resp cfgR cr credsR cICap L' m1 m3) →
      c.suitesI.length ≤ cfgR.suitesISize ∧ c.cI.length ≤ cICap ∧ c.ead1.length ≤ cfgR.eadSize ∧ c.idCredI.length ≤ cfgR.idCredISize ∧
      cr.cR.length ≤ crBuf.length ∧ cr.cR.length < 2 ^ 32 ∧ cr.idCredR.length ≤ cfg.idCredRSize ∧ ∃ wR, IdWire cr.idCredR wR) →
    EClashes C u.hashed (true, o.prk4e3m, o.th4) S ∨
      ∃ cfgR cr credsR cICap L' m1 m3 suiteR oR, S (.resp cfgR cr credsR cICap L' m1 m3) ∧
        respResult cfgR C cr credsR cICap L' m1 m3 = .ok (suiteR, oR) ∧ oR.prk4e3m = o.prk4e3m ∧ oR.th4 = o.th4 ∧
        o.cR = cr.cR ∧ oR.cI = cIStored c.cI ∧
        (∃ credI gI, retrieveCred cfgR C (authType c.method (false, false)).1 credsR c.idCredI cfgR.credISize
          = .ok (credI, oR.pk, gI)) ∧
        (∃ credR pkR gR, retrieveCred cfg C (authType c.method (false, false)).2 creds cr.idCredR cfg.credRSize
          = .ok (credR, pkR, gR)) := by
  obtain ⟨m1, m2, m4, q, ct, u, hse, hrx, hdc, hu, hx⟩ := C77_initiator hC h h4 hk
  refine ⟨m2, m4, q, ct, u, hrx, hdc, hu, fun S hS hfit => ?_⟩
  rcases hx S hS with e | ⟨cfgR, cr, credsR, cICap, L', m3, suiteR, oR, c2, hs, r1, hp, ht, hprk, -⟩
  · exact .inl e
  obtain ⟨m1', m2', gY, c2', p2, credR, pkR, p3, th2, th3, suite, spR, fI⟩ := initiator_facts hC h hk
  obtain ⟨p2', p3', credI, th2', th3', p, sp, fR⟩ := respResult_facts hC r1 ⟨[.inr m1], [], [], [], []⟩ rfl
  have hm2 : m2 = m2' := by
    have := fI.rcv
    rw [hrx] at this
    simpa using this
  subst hm2
  have hu' := fI.inputs
  rw [hu] at hu'
  cases hu'
  rcases transcript4 hC fI fR ht.symm with e | ⟨-, -, a5, -, a7, a8⟩
  · exact .inl ⟨_, hs, .inl ⟨_, resp_hashed fR.inputs, e⟩⟩
  obtain ⟨b1, b2, b3, b4, b5, b6, b7, wR, b8⟩ := hfit _ _ _ _ _ _ _ hs
  obtain ⟨s1, s2, s3, s4⟩ := same_session fI fR a5 a7 a8 hm hgx b1 b2 hc' b3 he' b5 b6 wi b4 b8 b7
  exact .inr ⟨cfgR, cr, credsR, cICap, L', m1, m3, suiteR, oR, hs, r1, hprk, ht, s1, s2, s3, s4⟩

/-- message_3 in a completed run of the responder -/
theorem responder_msg3 {cfg : ECfg} {C : ECrypto} (hC : C.Lawful) {c : RCtx} {creds : List Cred} {cICap L : Nat}
    {n n' : Net} {o : ROut} (h : responderRun cfg C c creds cICap L n = (.ok o, n')) :
    ∃ m1 m2 rs m3 w p3 sp q r3, n.rxq = .inr m1 :: .inr m3 :: q ∧ respView cfg C c cICap m1 = .ok w ∧
      msg2Gen cfg C c m1 cICap (List.replicate cfg.eadSize 0) = .ok (m2, rs) ∧ msg3Process cfg C c creds rs m3 L = .ok r3 ∧
      o = ⟨rs.cI, r3.prkOut, r3.pk, r3.th4, r3.prk4e3m⟩ ∧
      th2Calc C (C.hash m1) c.gY = .ok w.th2 ∧ th34Calc cfg C w.th2 w.p2 c.credR = .ok rs.th3 ∧ rs.prk3e2m.length = 32 ∧
      plaintext3Split cfg p3 cfg.idCredISize rs.ead.length = .ok sp ∧ ∃ ct, decodeBstr cfg m3 m3.length = .ok ct ∧
      ctxtDecrypt cfg C .c3 rs.suite rs.prk3e2m rs.th3 ct = .ok p3 := by
  obtain ⟨m1, m2, rs, m3, q, r3, hq, e1, e2, rfl⟩ := responderRun_ok h
  have e1' := e1
  unfold msg2Gen at e1
  obtain ⟨p, f1, e1⟩ := R.bind_eq_ok.1 e1
  split at e1
  · cases e1
  unfold msg2Build at e1
  obtain ⟨suite, f2, e1⟩ := R.bind_eq_ok.1 e1
  simp only at e1
  obtain ⟨th2, f3, e1⟩ := R.bind_eq_ok.1 e1
  obtain ⟨gxy, f4, e1⟩ := R.bind_eq_ok.1 e1
  obtain ⟨prk3, f5, e1⟩ := R.bind_eq_ok.1 e1
  obtain ⟨⟨c2, p2⟩, f6, e1⟩ := R.bind_eq_ok.1 e1
  simp only at e1
  obtain ⟨msg2, f7, e1⟩ := R.bind_eq_ok.1 e1
  obtain ⟨th3, f8, e1⟩ := R.bind_eq_ok.1 e1
  simp only [R.pure_eq, R.ok.injEq, Prod.mk.injEq] at e1
  obtain ⟨-, rfl⟩ := e1
  have l3 := prkDerive_length hC (hC.base.hmac_len _ _) f5
  have e2' := e2
  unfold msg3Process at e2
  obtain ⟨_, _, e2⟩ := R.bind_eq_ok.1 e2
  obtain ⟨c3, g1, e2⟩ := R.bind_eq_ok.1 e2
  obtain ⟨_, _, e2⟩ := R.bind_eq_ok.1 e2
  obtain ⟨p3, g2, e2⟩ := R.bind_eq_ok.1 e2
  obtain ⟨sp, g3, e2⟩ := R.bind_eq_ok.1 e2
  exact ⟨m1, m2, _, m3, _, p3, sp, q, r3, hq, respView_eq f1 f2 f3 f4 f5 f6, e1', e2', rfl, f3, f8, l3, g3, c3, g1, g2⟩

/-- **C77** (responder) `edhoc_responder_run` returns ok; any authentication method, any network.  If the ciphertext of the
received message_3 is not a forgery under the key and IV of message_3 (it was made in a session of the API), then one of these sessions is an initiator that sent
exactly the message_1 this responder received, received this responder's G_Y, accepted message_2 with the same TH_3 and
PRK_3e2m, and whose plaintext_3 (ID_CRED_I, Signature_or_MAC_3, EAD_3) is the one this responder read; unless a collision was
found between this run and one of the sessions. -/
theorem C77_responder {cfg : ECfg} {C : ECrypto} (hC : C.Lawful) {c : RCtx} {creds : List Cred} {cICap L : Nat}
    {n n' : Net} {o : ROut} (h : responderRun cfg C c creds cICap L n = (.ok o, n')) :
    ∃ m1 m3 q m2 w rs ct p3 sp, n.rxq = .inr m1 :: .inr m3 :: q ∧ respView cfg C c cICap m1 = .ok w ∧
      msg2Gen cfg C c m1 cICap (List.replicate cfg.eadSize 0) = .ok (m2, rs) ∧ decodeBstr cfg m3 m3.length = .ok ct ∧
      ctxtDecrypt cfg C .c3 rs.suite rs.prk3e2m rs.th3 ct = .ok p3 ∧
      plaintext3Split cfg p3 cfg.idCredISize rs.ead.length = .ok sp ∧
      ∀ S : ESession → Prop, Genuine C false rs.prk3e2m rs.th3 ct S →
        EClashes C [m1, th2In c.gY (C.hash m1), thIn w.th2 w.p2 c.credR] (false, rs.prk3e2m, rs.th3) S ∨
        ∃ cfgI ci credsI crBuf m2' suiteI st c2, S (.init cfgI ci credsI crBuf m2') ∧
          initResult cfgI C ci credsI crBuf m2' = .ok (m1, suiteI, st) ∧
          msg2Parse cfgI m2' (ctxt2Len m2'.length) = .ok (c.gY, c2) ∧
          st.th3 = rs.th3 ∧ st.prk3e2m = rs.prk3e2m ∧ plaintext3Of cfgI C ci suiteI st = .ok p3 := by
  obtain ⟨m1, m2, rs, m3, w, p3, sp, q, r3, hq, hv, e1, e2, rfl, t2, t3, l3, hsp, ct, hdc, hd⟩ := responder_msg3 hC h
  refine ⟨m1, m3, q, m2, w, rs, ct, p3, sp, hq, hv, e1, hdc, hd, hsp, fun S hS => ?_⟩
  obtain ⟨s, hs, he⟩ := hS _ _ (ctxtDecrypt_ok hC (four := false) hd)
  have k3 := th34_length hC t3
  cases s with
  | resp cfgR cr credsR cICap' L' m1' m3' =>
    obtain ⟨suiteR, oR, r1, r2, r3', -, -⟩ := encrypted_resp hC he
    exact .inl ⟨_, hs, .inr ⟨_, resp_keySource r1, (fun e => absurd (Prod.mk.inj e).1 (by decide)), r2⟩⟩
  | init cfgI ci credsI crB m2' =>
    obtain ⟨m1', suiteI, st, r1, r2, r3', -, r5⟩ := encrypted_init hC he
    obtain ⟨h1, r6, r7⟩ := initResult_ok r1
    obtain ⟨v, c2', v1, rfl, -, -, d1, d2, -, d5, -, -⟩ := initView_of hC r6 r7
    have k3' := th34_length hC d5
    have ht : rs.th3 = st.th3 := encStruct_inj (by omega) (by omega) r3'
    by_cases hp : rs.prk3e2m = st.prk3e2m
    case neg =>
      exact .inl ⟨_, hs, .inr ⟨_, init_keySource r1, fun e => hp (Prod.mk.inj (Prod.mk.inj e).2).1, r2⟩⟩
    have hh : ESession.hashed C (.init cfgI ci credsI crB m2') = .ok [v.m1, th2In v.gY (C.hash v.m1), thIn v.th2 v.p2 v.credR] := by
      unfold ESession.hashed
      dsimp only
      rw [v1, R.ok_bind]
      rfl
    rw [ht] at t3
    rcases C47_th34_binds t3 d5 (by rw [th2_length hC t2]; decide) (by rw [th2_length hC d2]; decide) with ⟨e3, -, -⟩ | e
    case inr => exact .inl ⟨_, hs, .inl ⟨_, hh, (_, _), List.mem_cons_of_mem _ (List.mem_cons_of_mem _ List.mem_cons_self), e⟩⟩
    rw [e3] at t2
    rcases th2_same hC t2 d2 with (e | e) | ⟨rfl, hgy⟩
    · exact .inl ⟨_, hs, .inl ⟨_, hh, (m1, v.m1), List.mem_cons_self, e⟩⟩
    · exact .inl ⟨_, hs, .inl ⟨_, hh, (_, _), List.mem_cons_of_mem _ List.mem_cons_self, e⟩⟩
    exact .inr ⟨cfgI, ci, credsI, crB, m2', suiteI, st, c2', hs, r1, by rw [hgy]; exact d1, ht.symm, hp.symm, r5⟩

/-! ### what the API encrypts -/

section
variable {cfg : ECfg} {C : ECrypto} {f : Bytes → Bytes → Bytes → Nat → Bytes → Option Bytes}

theorem expandLoop_congr (D : Crypto) (f : Bytes → Bytes → Bytes → Nat → Bytes → Option Bytes) (prk info : Bytes) (L : Nat) :
    ∀ n i t b out, expandLoop { D with aeadEnc := f } prk info L n i t b out = expandLoop D prk info L n i t b out := by
  intro n
  induction n with
  | zero => intros; rfl
  | succ n ih => intros; unfold expandLoop; simp only [ih]

theorem kdf_congr : edhocKdf cfg { C with aeadEnc := f } = edhocKdf cfg C := by
  funext prk label ctx L
  unfold edhocKdf hkdfExpand
  simp only [expandLoop_congr C.toCrypto f]

theorem prkDerive_congr : prkDerive cfg { C with aeadEnc := f } = prkDerive cfg C := by
  funext sd suite label ctx prk pk sk
  unfold prkDerive
  simp only [kdf_congr]
  rfl

theorem mac_congr : mac cfg { C with aeadEnc := f } = mac cfg C := by
  funext prk cR mem th id cred ead label sd suite
  unfold mac
  simp only [kdf_congr]

theorem sigGen_congr : sigOrMacGen cfg { C with aeadEnc := f } = sigOrMacGen cfg C := by
  funext sd suite sk pk prk cR mem th id cred ead label
  unfold sigOrMacGen
  simp only [mac_congr]
  rfl

theorem sigVerify_congr : sigOrMacVerify cfg { C with aeadEnc := f } = sigOrMacVerify cfg C := by
  funext sd suite pk prk cR mem th id cred ead label rcv
  unfold sigOrMacVerify
  simp only [mac_congr]
  rfl

theorem keyGen_congr : keyGen cfg { C with aeadEnc := f } = keyGen cfg C := by
  funext ct prk th len
  unfold keyGen
  simp only [kdf_congr]

theorem decrypt_congr : ctxtDecrypt cfg { C with aeadEnc := f } = ctxtDecrypt cfg C := by
  funext ct suite prk th c
  unfold ctxtDecrypt
  simp only [keyGen_congr]

end

theorem ciphertextGen_congr {cfg : ECfg} {C : ECrypto} {f : Bytes → Bytes → Bytes → Nat → Bytes → Option Bytes} {ct : Ctxt} {suite : Suite}
    {cR id sm ead prk th : Bytes} {buf cap : Nat}
    (h : ∀ p k iv a, plaintextGen cfg ct cR id sm ead cap = .ok p → keyGen cfg C ct prk th p.length = .ok (k, iv) → assocData th = .ok a →
      f k iv a suite.aead.tagLen p = C.aeadEnc k iv a suite.aead.tagLen p) :
    ciphertextGen cfg { C with aeadEnc := f } ct suite cR id sm ead prk th buf cap =
      ciphertextGen cfg C ct suite cR id sm ead prk th buf cap := by
  unfold ciphertextGen
  cases h1 : plaintextGen cfg ct cR id sm ead cap with
  | err e => rfl
  | ub => rfl
  | ok p =>
    simp only [R.ok_bind]
    have e1 : keyGen cfg { C with aeadEnc := f } ct prk th p.length = keyGen cfg C ct prk th p.length := by rw [keyGen_congr]
    rw [e1]
    cases h2 : keyGen cfg C ct prk th p.length with
    | err e => rfl
    | ub => rfl
    | ok ki =>
      obtain ⟨k, iv⟩ := ki
      simp only [R.ok_bind]
      have e2 : ctxtEncrypt { C with aeadEnc := f } ct suite k iv th p buf = ctxtEncrypt C ct suite k iv th p buf := by
        unfold ctxtEncrypt
        split
        · rfl
        · cases h3 : assocData th with
          | err e => rfl
          | ub => rfl
          | ok a =>
            simp only [R.ok_bind]
            rw [h p k iv a h1 h2 h3]
      rw [e2]

/-- looking up credentials does not encrypt -/
theorem retrieveCred_congr {cfg : ECfg} {C : ECrypto} {f : Bytes → Bytes → Bytes → Nat → Bytes → Option Bytes} {sR : Bool} {creds : List Cred}
    (id : Bytes) (cap : Nat) : retrieveCred cfg { C with aeadEnc := f } sR creds id cap = retrieveCred cfg C sR creds id cap := by
  have cs : ∀ m l, caSearch { C with aeadEnc := f } m l = caSearch C m l := by
    intro m l
    induction l with
    | nil => rfl
    | cons d ds ih => unfold caSearch; rw [ih]
  have cg : ∀ m, caPkGet { C with aeadEnc := f } creds m = caPkGet C creds m := by
    intro m; unfold caPkGet; simp only [cs]
  have cv : ∀ x cert cap, verifyCert2cred cfg { C with aeadEnc := f } sR creds x cert cap =
      verifyCert2cred cfg C sR creds x cert cap := by
    intro x cert cap
    unfold verifyCert2cred certX509Verify certC509Verify
    simp only [cg]
    rfl
  unfold retrieveCred
  simp only [cv]

/-- a responder's messages and outputs depend on the encryption only at `ESession.encrypted`: nothing else is encrypted -/
theorem C77_responder_encrypts {cfg : ECfg} {C : ECrypto} {c : RCtx} {creds : List Cred} {cICap L : Nat} {m1 m3 : Bytes}
    {f : Bytes → Bytes → Bytes → Nat → Bytes → Option Bytes}
    (h : ∀ k iv a t p, ESession.encrypted C (.resp cfg c creds cICap L m1 m3) = .ok ((k, iv), a, t, p) → f k iv a t p = C.aeadEnc k iv a t p) :
    msg2Gen cfg { C with aeadEnc := f } c m1 cICap (List.replicate cfg.eadSize 0) =
        msg2Gen cfg C c m1 cICap (List.replicate cfg.eadSize 0) ∧
      respResult cfg { C with aeadEnc := f } c creds cICap L m1 m3 = respResult cfg C c creds cICap L m1 m3 ∧
      ∀ suite o cap, respResult cfg C c creds cICap L m1 m3 = .ok (suite, o) →
        msg4Gen cfg { C with aeadEnc := f } c.ead4 suite o.prk4e3m o.th4 cap = msg4Gen cfg C c.ead4 suite o.prk4e3m o.th4 cap := by
  have e2 : ∀ ead, msg2Gen cfg { C with aeadEnc := f } c m1 cICap ead = msg2Gen cfg C c m1 cICap ead := by
    intro ead
    have c2 : ∀ suite sR prk prk3 th, ctxt2Gen cfg { C with aeadEnc := f } c suite sR prk prk3 th = ctxt2Gen cfg C c suite sR prk prk3 th := by
      intro suite sR prk prk3 th
      unfold ctxt2Gen ciphertextGen
      simp only [sigGen_congr, keyGen_congr]
      rfl
    unfold msg2Gen msg2Build
    simp only [c2, prkDerive_congr]
    rfl
  have e3 : ∀ rs, msg3Process cfg { C with aeadEnc := f } c creds rs m3 L = msg3Process cfg C c creds rs m3 L := by
    intro rs
    unfold msg3Process msg3Auth
    simp only [retrieveCred_congr, prkDerive_congr, sigVerify_congr, decrypt_congr, kdf_congr]
    rfl
  refine ⟨e2 _, ?_, ?_⟩
  · unfold respResult
    rw [e2]
    simp only [e3]
  · intro suite o cap hr
    unfold msg4Gen
    rw [ciphertextGen_congr]
    intro p k iv a g1 g2 g3
    apply h
    unfold ESession.encrypted
    dsimp only
    rw [hr, R.ok_bind]
    dsimp only
    rw [g1, R.ok_bind, g2, R.ok_bind, g3]
    rfl

/-- an initiator's message_3 and outputs depend on the encryption only at `ESession.encrypted` -/
theorem C77_initiator_encrypts {cfg : ECfg} {C : ECrypto} {c : ICtx} {creds : List Cred} {crBuf m1 m2 h1 : Bytes} {L : Nat}
    {suite : Suite} {f : Bytes → Bytes → Bytes → Nat → Bytes → Option Bytes} (hg : msg1Gen cfg C c = .ok (m1, suite, h1))
    (h : ∀ k iv a t p, ESession.encrypted C (.init cfg c creds crBuf m2) = .ok ((k, iv), a, t, p) → f k iv a t p = C.aeadEnc k iv a t p) :
    msg1Gen cfg { C with aeadEnc := f } c = msg1Gen cfg C c ∧
    msg3Gen cfg { C with aeadEnc := f } c creds suite h1 m2 crBuf (List.replicate cfg.eadSize 0) L =
      msg3Gen cfg C c creds suite h1 m2 crBuf (List.replicate cfg.eadSize 0) L := by
  have e1 : ∀ sI sR, msg2Process cfg { C with aeadEnc := f } c creds suite h1 m2 sI sR crBuf (List.replicate cfg.eadSize 0) =
      msg2Process cfg C c creds suite h1 m2 sI sR crBuf (List.replicate cfg.eadSize 0) := by
    intro sI sR
    unfold msg2Process msg2Auth
    simp only [retrieveCred_congr, prkDerive_congr, sigVerify_congr, decrypt_congr]
    rfl
  refine ⟨rfl, ?_⟩
  unfold msg3Gen
  simp only [e1]
  cases h2 : msg2Process cfg C c creds suite h1 m2 (authType c.method (false, false)).1
    (authType c.method (false, false)).2 crBuf (List.replicate cfg.eadSize 0) with
  | err e => rfl
  | ub => rfl
  | ok st =>
    simp only [R.ok_bind]
    have e2 : msg3Build cfg { C with aeadEnc := f } c suite (authType c.method (false, false)).1 st m2.length =
        msg3Build cfg C c suite (authType c.method (false, false)).1 st m2.length := by
      have hsm : sigOrMacGen cfg { C with aeadEnc := f } (authType c.method (false, false)).1 suite c.skI c.pkI st.prk4e3m [] [] st.th3 c.idCredI
          c.credI c.ead3 6 = sigOrMacGen cfg C (authType c.method (false, false)).1 suite c.skI c.pkI st.prk4e3m [] [] st.th3 c.idCredI
          c.credI c.ead3 6 := by rw [sigGen_congr]
      unfold msg3Build
      rw [hsm]
      cases h3 : sigOrMacGen cfg C (authType c.method (false, false)).1 suite c.skI c.pkI st.prk4e3m [] [] st.th3 c.idCredI
          c.credI c.ead3 6 with
      | err e => rfl
      | ub => rfl
      | ok sm =>
        simp only [R.ok_bind]
        rw [ciphertextGen_congr]
        intro p k iv a g1 g2 g3
        apply h
        unfold ESession.encrypted initResult plaintext3Of
        dsimp only
        rw [hg, R.ok_bind]
        dsimp only
        rw [h2, R.ok_bind, R.pure_eq, R.ok_bind]
        dsimp only
        rw [h3, R.ok_bind, g1, R.ok_bind, g2, R.ok_bind, g3]
        rfl
    have e3 : msg3OnlyGen cfg { C with aeadEnc := f } c suite (authType c.method (false, false)).1 st m2 L =
        msg3OnlyGen cfg C c suite (authType c.method (false, false)).1 st m2 L := by
      unfold msg3OnlyGen
      simp only [e2, kdf_congr]
      rfl
    rw [e3]

/-! ### the hypotheses can be met -/

/-- the example parties with static DH keys on both sides (method 3), built with MESSAGE_4 -/
def ex4 : ECfg := { message4 := true, eadSize := 32 }
def exQ1 : Bytes := match msg1Gen ex4 toyE (toyI 3) with | .ok (m, _) => m | _ => []
def exQ2 : Bytes := match msg2Gen ex4 toyE toyR exQ1 10 (List.replicate 32 0) with | .ok (m, _) => m | _ => []
def exQ3 : Bytes :=
  match initiatorRun ex4 toyE (toyI 3) toyCredsR (List.replicate 10 0) 32 (netOf [exQ2]) with | (_, n) => n.sent.getLastD []
def exQ4 : Bytes :=
  match responderRun ex4 toyE toyR toyCredsI 10 32 (netOf [exQ1, exQ3]) with | (_, n) => n.sent.getLastD []

def exER : ESession := .resp ex4 toyR toyCredsI 10 32 exQ1 exQ3
def exEI : ESession := .init ex4 (toyI 3) toyCredsR (List.replicate 10 0) exQ2

/-- the ciphertexts of the two sessions -/
def exCts : List Bytes := [exER, exEI].filterMap fun s =>
  match s.encrypted toyE with
  | .ok (ki, a, t, p) => toyE.aeadEnc ki.1 ki.2 a t p
  | _ => none

/-- not a second way to get one of these ciphertexts -/
def exGood (k n a : Bytes) (t : Nat) (p c : Bytes) : Prop :=
  c ∉ exCts ∨ exER.encrypted toyE = .ok ((k, n), a, t, p) ∨ exEI.encrypted toyE = .ok ((k, n), a, t, p)

instance {k n a t p c} : Decidable (exGood k n a t p c) := by unfold exGood; infer_instance

/-- the toy primitives, but the two ciphertexts decrypt only to what the sessions encrypted -/
def tightE : ECrypto :=
  { toyE with
    aeadEnc := fun k n a t p => (toyE.aeadEnc k n a t p).filter fun c => exGood k n a t p c
    aeadDec := fun k n a t c => (toyE.aeadDec k n a t c).filter fun p => exGood k n a t p c }

theorem tightE_lawful : tightE.Lawful := by
  refine ⟨⟨toyE_lawful.base.hmac_len, toyE_lawful.base.hash_len, ?_, ?_, ?_⟩, toyE_lawful.dh_len, toyE_lawful.sign_len⟩
  · intro k n a t p c h
    simp only [tightE, Option.filter_eq_some_iff, decide_eq_true_eq] at h ⊢
    exact ⟨toyE_lawful.base.dec_enc _ _ _ _ _ _ h.1, h.2⟩
  · intro k n a t p c h
    simp only [tightE, Option.filter_eq_some_iff] at h
    exact toyE_lawful.base.enc_len _ _ _ _ _ _ h.1
  · intro k n a t p c h
    simp only [tightE, Option.filter_eq_some_iff] at h
    exact toyE_lawful.base.dec_len _ _ _ _ _ _ h.1

theorem tightE_sessions : exER.encrypted tightE = exER.encrypted toyE ∧ exEI.encrypted tightE = exEI.encrypted toyE := by
  constructor <;> decide +kernel

theorem tightE_genuine (four : Bool) (prk th : Bytes) {ct : Bytes} (hct : ct ∈ exCts) :
    Genuine tightE four prk th ct (fun s => s = exER ∨ s = exEI) := by
  intro t p h
  generalize keyIv tightE four prk th = ki at h ⊢
  obtain ⟨k, iv⟩ := ki
  simp only [tightE, Option.filter_eq_some_iff, decide_eq_true_eq] at h
  rcases h.2 with hq | hq | hq
  · exact absurd hct hq
  · exact ⟨exER, .inl rfl, tightE_sessions.1.trans hq⟩
  · exact ⟨exEI, .inr rfl, tightE_sessions.2.trans hq⟩

/-- both runs succeed, method 3, and what they receive is genuine -/
example : (∃ o n k, initiatorRun ex4 tightE (toyI 3) toyCredsR (List.replicate 10 0) 32 (netOf [exQ2, exQ4]) = (.ok o, n) ∧ o.prkOut = some k) ∧
    (∃ o n, responderRun ex4 tightE toyR toyCredsI 10 32 (netOf [exQ1, exQ3]) = (.ok o, n)) ∧ ex4.message4 = true ∧
    (∃ ct, decodeBstr ex4 exQ4 ex4.plaintext4Size = .ok ct ∧ ∀ f prk th, Genuine tightE f prk th ct (fun s => s = exER ∨ s = exEI)) ∧
    (∃ ct, decodeBstr ex4 exQ3 exQ3.length = .ok ct ∧ ∀ f prk th, Genuine tightE f prk th ct (fun s => s = exER ∨ s = exEI)) := by
  have ok : ∀ {α : Type} (x : R α × Net), (match x.1 with | .ok _ => true | _ => false) = true → ∃ o n, x = (.ok o, n) := by
    rintro α ⟨r, n⟩ h
    cases r with
    | ok o => exact ⟨o, n, rfl⟩
    | err e => cases h
    | ub => cases h
  have okI : ∀ (x : R IOut × Net), (match x.1 with | .ok o => o.prkOut.isSome | _ => false) = true → ∃ o n k, x = (.ok o, n) ∧ o.prkOut = some k := by
    rintro ⟨r, n⟩ h
    cases r with
    | ok o =>
      obtain ⟨k, hk⟩ := Option.isSome_iff_exists.1 h
      exact ⟨o, n, k, rfl, hk⟩
    | err e => cases h
    | ub => cases h
  have okB : ∀ (x : R Bytes), (match x with | .ok o => decide (o ∈ exCts) | _ => false) = true → ∃ o, x = .ok o ∧ o ∈ exCts := by
    rintro r h
    cases r with
    | ok o => exact ⟨o, rfl, of_decide_eq_true h⟩
    | err e => cases h
    | ub => cases h
  refine ⟨okI _ (by decide +kernel), ok _ (by decide +kernel), rfl, ?_, ?_⟩
  · obtain ⟨ct, h1, h2⟩ := okB (decodeBstr ex4 exQ4 ex4.plaintext4Size) (by decide +kernel)
    exact ⟨ct, h1, fun f prk th => tightE_genuine f prk th h2⟩
  · obtain ⟨ct, h1, h2⟩ := okB (decodeBstr ex4 exQ3 exQ3.length) (by decide +kernel)
    exact ⟨ct, h1, fun f prk th => tightE_genuine f prk th h2⟩

/-- `EClashes` with one session, as a function -/
def eclashB (C : ECrypto) (l : List Bytes) (k : Bool × Bytes × Bytes) (s : ESession) : Bool :=
  (match s.hashed C with
    | .ok l' => (l.zip l').any fun x => decide (x.1 ≠ x.2) && decide (C.hash x.1 = C.hash x.2)
    | _ => false) ||
  (match s.keySource C with
    | .ok k' => decide (k ≠ k') && decide (keyIv C k.1 k.2.1 k.2.2 = keyIv C k'.1 k'.2.1 k'.2.2)
    | _ => false)

theorem eclashB_of {C : ECrypto} {l : List Bytes} {k : Bool × Bytes × Bytes} {S : ESession → Prop} (h : EClashes C l k S) :
    ∃ s, S s ∧ eclashB C l k s = true := by
  obtain ⟨s, hs, ⟨l', e, x, hx, h1, h2⟩ | ⟨k', e, h1, h2⟩⟩ := h
  · refine ⟨s, hs, ?_⟩
    unfold eclashB
    rw [e]
    simp only [Bool.or_eq_true, List.any_eq_true, Bool.and_eq_true, decide_eq_true_eq]
    exact .inl ⟨x, hx, h1, h2⟩
  · refine ⟨s, hs, ?_⟩
    unfold eclashB
    rw [e]
    simp only [Bool.or_eq_true, Bool.and_eq_true, decide_eq_true_eq]
    exact .inr ⟨h1, h2⟩

/-- and the initiator found no collision with the two sessions -/
example : ∃ o n u, initiatorRun ex4 tightE (toyI 3) toyCredsR (List.replicate 10 0) 32 (netOf [exQ2, exQ4]) = (.ok o, n) ∧
    initInputs ex4 tightE (toyI 3) toyCredsR (List.replicate 10 0) exQ2 32 = .ok u ∧
    ¬ EClashes tightE u.hashed (true, o.prk4e3m, o.th4) (fun s => s = exER ∨ s = exEI) := by
  have key : ∀ (x : R IOut × Net) (y : R Inputs), (match x.1, y with
      | .ok o, .ok u => !eclashB tightE u.hashed (true, o.prk4e3m, o.th4) exER && !eclashB tightE u.hashed (true, o.prk4e3m, o.th4) exEI
      | _, _ => false) = true → ∃ o n u, x = (.ok o, n) ∧ y = .ok u ∧ eclashB tightE u.hashed (true, o.prk4e3m, o.th4) exER = false ∧
        eclashB tightE u.hashed (true, o.prk4e3m, o.th4) exEI = false := by
    rintro ⟨r, n⟩ y h
    cases r with
    | ok o =>
      cases y with
      | ok u =>
        simp only [Bool.and_eq_true, Bool.not_eq_true'] at h
        exact ⟨o, n, u, rfl, rfl, h.1, h.2⟩
      | err e => cases h
      | ub => cases h
    | err e => cases h
    | ub => cases h
  obtain ⟨o, n, u, h1, h2, h3, h4⟩ := key (initiatorRun ex4 tightE (toyI 3) toyCredsR (List.replicate 10 0) 32 (netOf [exQ2, exQ4]))
    (initInputs ex4 tightE (toyI 3) toyCredsR (List.replicate 10 0) exQ2 32) (by decide +kernel)
  refine ⟨o, n, u, h1, h2, fun hc => ?_⟩
  obtain ⟨s, rfl | rfl, hs⟩ := eclashB_of hc
  · rw [h3] at hs; cases hs
  · rw [h4] at hs; cases hs

end Verif.Edhoc
