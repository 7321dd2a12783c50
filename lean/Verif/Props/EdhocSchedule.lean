import Verif.Props.EdhocTranscript
/-
C62: the keys, MACs and ciphertexts of every successful run are those of RFC 9528.
-/
namespace Verif.Edhoc
open Verif Verif.Cbor

/-! ### the parts -/

theorem sharedSecret_ok {C : ECrypto} {a : EcdhAlg} {sk pk s : Bytes} (h : sharedSecret C a sk pk = .ok s) :
    C.dh a sk pk = some s := by
  unfold sharedSecret at h
  split at h
  · cases h
  · split at h
    · rename_i x hx; rw [hx, R.ok.inj h]
    · cases h

/-- the static-DH secret a party uses: none if the other (or it) signs -/
def StaticDh (C : ECrypto) (sd : Bool) (a : EcdhAlg) (sk pk : Bytes) (g : Option Bytes) : Prop :=
  if sd then ∃ s, C.dh a sk pk = some s ∧ g = some s else g = none

theorem prkDerive_ok {cfg : ECfg} {C : ECrypto} (hC : C.Lawful) {sd : Bool} {suite : Suite} {label : Nat}
    {ctx prk pk sk o : Bytes} (h : prkDerive cfg C sd suite label ctx prk pk sk = .ok o) :
    ∃ g, StaticDh C sd suite.ecdh sk pk g ∧ o = EdhocSpec.prkNext C.hmac prk label ctx g := by
  unfold prkDerive at h
  unfold StaticDh
  cases sd with
  | false =>
    simp only [Bool.false_eq_true, ↓reduceIte, R.pure_eq, R.ok.injEq] at h
    exact ⟨none, by simp, h.symm⟩
  | true =>
    simp only [↓reduceIte] at h
    obtain ⟨dh, h1, h⟩ := R.bind_eq_ok.1 h
    obtain ⟨salt, h2, h⟩ := R.bind_eq_ok.1 h
    simp only [R.pure_eq, R.ok.injEq] at h
    refine ⟨some dh, by simpa using sharedSecret_ok h1, ?_⟩
    rw [← h, extract_eq, (C38_kdf_rfc9528 hC h2 (by omega)).1]
    rfl

/-- The connection identifier C_R is put into the MAC context as RFC 9528 demands: it is not empty, not a
one-byte negative integer, and if it is a one-byte non-negative integer then the three bytes behind it in
memory are zero. -/
def CrRfc (cR mem : Bytes) : Prop :=
  cR ≠ [] ∧ (∀ b, cR = [b] → ¬(0x20 ≤ b.toNat ∧ b.toNat ≤ 0x37)) ∧ CrMemOk cR mem

theorem crMac_rfc {cR mem : Bytes} (h : CrRfc cR mem) : crMac cR = enc (EdhocSpec.connId cR) := by
  obtain ⟨h1, h2, -⟩ := h
  unfold crMac
  rw [if_neg h1]
  unfold isRawInt EdhocSpec.connId
  split
  · rename_i b
    have h2 := h2 b rfl
    by_cases hb : b.toNat ≤ 23
    · simp only [hb, decide_true, ↓reduceIte]
      rw [enc]; unfold head
      rw [if_pos (by omega)]
      simp
    · simp only [hb, decide_false, Bool.false_eq_true, ↓reduceIte, if_neg h2]
  · simp only [Bool.false_eq_true, ↓reduceIte]

theorem macCr_ok {cfg : ECfg} {cR mem o : Bytes} (hm : CrMemOk cR mem) (hl : cR.length < 2 ^ 32)
    (h : macCr cfg cR mem = .ok o) : o = crMac cR := by
  by_cases h0 : cR = []
  · subst h0
    simp only [macCr, List.length_nil, ↓reduceIte, R.pure_eq, R.ok.injEq] at h
    rw [← h]; rfl
  · have hc : asBstr cR.length ≤ asBstr cfg.cRSize := by
      unfold macCr at h
      rw [if_neg (by simpa using h0)] at h
      obtain ⟨_, h1, _⟩ := R.bind_eq_ok.1 h
      exact checkBufferSize_ok.1 h1
    have : macCr { cfg with cRSize := max cfg.cRSize cR.length } cR mem = .ok (crMac cR) :=
      macCr_total (Nat.le_max_right _ _) hl hm
    have hs : macCr cfg cR mem = macCr { cfg with cRSize := max cfg.cRSize cR.length } cR mem := by
      have hl0 : ¬ cR.length = 0 := by simpa using h0
      unfold macCr
      rw [if_neg hl0, if_neg hl0, checkOk hc,
        checkOk (asBstr_mono (Nat.le_max_right cfg.cRSize cR.length))]
    rw [hs, this] at h
    exact (R.ok.inj h).symm

theorem mac_rfc {cfg : ECfg} {C : ECrypto} (hC : C.Lawful) {prk cR mem th idCred cred ead m : Bytes} {label : Nat}
    {sd : Bool} {suite : Suite} (hs : suite.macLen ≤ 16) (hm : CrMemOk cR mem) (hl : cR.length < 2 ^ 32)
    (h : mac cfg C prk cR mem th idCred cred ead label sd suite = .ok m) :
    m = EdhocSpec.kdf C.hmac prk label (crMac cR ++ idCred ++ enc (.bstr th) ++ cred ++ ead)
      (EdhocSpec.macLength sd suite.macLen) := by
  obtain ⟨c0, h1, h2⟩ := mac_ok hC hs h
  rw [h2, macCr_ok hm hl h1]

/-- what a verifier checks of Signature_or_MAC_x given the MAC.  (With static DH: RFC 9528 demands
equality; the code accepts every prefix, see C41.) -/
def Accepts (C : ECrypto) (sd : Bool) (suite : Suite) (pk idCred th cred ead m field : Bytes) : Prop :=
  if sd then field <+: m
  else C.verify suite.sign pk (EdhocSpec.sigStructure idCred th cred ead m) field = some true

/-- what a prover puts into Signature_or_MAC_x given the MAC -/
def Proves (C : ECrypto) (sd : Bool) (suite : Suite) (sk pk idCred th cred ead m field : Bytes) : Prop :=
  if sd then field = m
  else C.sign suite.sign sk pk (EdhocSpec.sigStructure idCred th cred ead m) = some field

theorem verify_ok {cfg : ECfg} {C : ECrypto} {sd : Bool} {suite : Suite}
    {pk prk cR mem th idCred cred ead : Bytes} {label : Nat} {rcv : Bytes}
    (h : sigOrMacVerify cfg C sd suite pk prk cR mem th idCred cred ead label rcv = .ok ()) :
    ∃ m, mac cfg C prk cR mem th idCred cred ead label sd suite = .ok m ∧
      Accepts C sd suite pk idCred th cred ead m rcv := by
  unfold Accepts
  cases sd with
  | true => simpa using C41_accepted_iff.1 h
  | false => simpa using C42_verify h

theorem gen_ok {cfg : ECfg} {C : ECrypto} {sd : Bool} {suite : Suite}
    {sk pk prk cR mem th idCred cred ead : Bytes} {label : Nat} {field : Bytes}
    (h : sigOrMacGen cfg C sd suite sk pk prk cR mem th idCred cred ead label = .ok field) :
    ∃ m, mac cfg C prk cR mem th idCred cred ead label sd suite = .ok m ∧
      Proves C sd suite sk pk idCred th cred ead m field := by
  unfold sigOrMacGen at h
  obtain ⟨m, hm, h⟩ := R.bind_eq_ok.1 h
  refine ⟨m, hm, ?_⟩
  unfold Proves
  cases sd with
  | true =>
    simp only [↓reduceIte, R.pure_eq, R.ok.injEq] at h
    simpa using h.symm
  | false =>
    simp only [Bool.false_eq_true, ↓reduceIte] at h ⊢
    obtain ⟨s, hs, h⟩ := R.bind_eq_ok.1 h
    rw [sigStruct_ok hs] at h
    unfold signMsg at h
    split at h
    · cases h
    split at h
    · rename_i x hx; rw [hx, R.ok.inj h]
    · cases h

theorem suite_small {n : Nat} {s : Suite} (h : getSuite n = .ok s) :
    EdhocSpec.suite n = some s.params ∧ s.macLen ≤ 16 := by
  cases hs : EdhocSpec.suite n with
  | none => rw [(C35_suites n).2 hs] at h; cases h
  | some p =>
    obtain ⟨s', e1, e2, -⟩ := (C35_suites n).1 p hs
    rw [e1] at h
    have := R.ok.inj h
    subst this
    refine ⟨by rw [e2], ?_⟩
    rcases n with _ | _ | _ | _ | n <;> simp only [EdhocSpec.suite, Option.some.injEq] at hs
    all_goals first
      | (rw [← hs] at e2; unfold Suite.params at e2; simp only [Prod.mk.injEq] at e2; omega)
      | cases hs

theorem keyGen34_ok {cfg : ECfg} {C : ECrypto} (hC : C.Lawful) {ct : Ctxt} (hct : ct ≠ .c2) {prk th : Bytes} {n : Nat}
    {k iv : Bytes} (h : keyGen cfg C ct prk th n = .ok (k, iv)) :
    k = EdhocSpec.kdf C.hmac prk (keyLabel ct) th 16 ∧ iv = EdhocSpec.kdf C.hmac prk (ivLabel ct) th 13 := by
  unfold keyGen at h
  rw [if_neg hct] at h
  obtain ⟨k', h1, h⟩ := R.bind_eq_ok.1 h
  obtain ⟨iv', h2, h⟩ := R.bind_eq_ok.1 h
  simp only [R.pure_eq, R.ok.injEq, Prod.mk.injEq] at h
  rw [← h.1, ← h.2]
  exact ⟨(C38_kdf_rfc9528 hC h1 (by omega)).1, (C38_kdf_rfc9528 hC h2 (by omega)).1⟩

theorem ctxt34Gen_ok {cfg : ECfg} {C : ECrypto} (hC : C.Lawful) {ct : Ctxt} (hct : ct ≠ .c2) {suite : Suite}
    {cR id sm ead prk th c p : Bytes} {buf cap : Nat} (hth : th.length = 32)
    (h : ciphertextGen cfg C ct suite cR id sm ead prk th buf cap = .ok (c, p)) :
    plaintextGen cfg ct cR id sm ead cap = .ok p ∧
    C.aeadEnc (EdhocSpec.kdf C.hmac prk (keyLabel ct) th 16) (EdhocSpec.kdf C.hmac prk (ivLabel ct) th 13)
      (EdhocSpec.encStructure th) suite.aead.tagLen p = some c := by
  unfold ciphertextGen at h
  obtain ⟨p', h1, h⟩ := R.bind_eq_ok.1 h
  obtain ⟨⟨k, iv⟩, h2, h⟩ := R.bind_eq_ok.1 h
  obtain ⟨c', h3, h⟩ := R.bind_eq_ok.1 h
  cases h
  obtain ⟨rfl, rfl⟩ := keyGen34_ok hC hct h2
  unfold ctxtEncrypt at h3
  rw [if_neg hct, assocData_total hth, R.ok_bind] at h3
  split at h3
  · cases h3
  · split at h3
    · rename_i c' he
      cases h3
      exact ⟨h1, he⟩
    · cases h3

theorem ctxt2Gen_rfc {cfg : ECfg} {C : ECrypto} (hC : C.Lawful) {suite : Suite} {cR id sm ead prk th c p : Bytes}
    {buf cap : Nat} (hp : p.length ≤ 255 * 32)
    (h : ciphertextGen cfg C .c2 suite cR id sm ead prk th buf cap = .ok (c, p)) :
    plaintextGen cfg .c2 cR id sm ead cap = .ok p ∧
    c = xorBytes p (EdhocSpec.kdf C.hmac prk 0 th p.length) := by
  unfold ciphertextGen at h
  obtain ⟨p', h1, h⟩ := R.bind_eq_ok.1 h
  obtain ⟨⟨k, iv⟩, h2, h⟩ := R.bind_eq_ok.1 h
  obtain ⟨c', h3, h⟩ := R.bind_eq_ok.1 h
  cases h
  unfold ctxtEncrypt at h3
  rw [if_pos rfl] at h3
  unfold keyGen at h2
  rw [if_pos rfl] at h2
  obtain ⟨_, _, h2⟩ := R.bind_eq_ok.1 h2
  obtain ⟨k', e1, h2⟩ := R.bind_eq_ok.1 h2
  cases h2
  split at h3
  · cases h3
  · cases h3
    exact ⟨h1, by rw [(C38_kdf_rfc9528 hC e1 hp).1]; rfl⟩

theorem ctxt2Dec_rfc {cfg : ECfg} {C : ECrypto} (hC : C.Lawful) {suite : Suite} {prk th c p : Bytes}
    (hc : c.length ≤ 255 * 32) (h : ctxtDecrypt cfg C .c2 suite prk th c = .ok p) :
    p = xorBytes c (EdhocSpec.kdf C.hmac prk 0 th c.length) := by
  unfold ctxtDecrypt at h
  obtain ⟨⟨k, iv⟩, h2, h⟩ := R.bind_eq_ok.1 h
  obtain ⟨_, _, h⟩ := R.bind_eq_ok.1 h
  rw [if_pos rfl] at h
  unfold keyGen at h2
  rw [if_pos rfl] at h2
  obtain ⟨_, _, h2⟩ := R.bind_eq_ok.1 h2
  obtain ⟨k', e1, h2⟩ := R.bind_eq_ok.1 h2
  simp only [R.pure_eq, R.ok.injEq, Prod.mk.injEq] at h h2
  rw [← h, ← h2.1, (C38_kdf_rfc9528 hC e1 hc).1]; rfl

theorem ctxt34Dec_rfc {cfg : ECfg} {C : ECrypto} (hC : C.Lawful) {ct : Ctxt} (hct : ct ≠ .c2) {suite : Suite}
    {prk th c p : Bytes} (hth : th.length = 32) (h : ctxtDecrypt cfg C ct suite prk th c = .ok p) :
    C.aeadDec (EdhocSpec.kdf C.hmac prk (keyLabel ct) th 16) (EdhocSpec.kdf C.hmac prk (ivLabel ct) th 13)
      (EdhocSpec.encStructure th) suite.aead.tagLen c = some p := by
  unfold ctxtDecrypt at h
  obtain ⟨⟨k, iv⟩, h2, h⟩ := R.bind_eq_ok.1 h
  obtain ⟨rfl, rfl⟩ := keyGen34_ok hC hct h2
  simp only at h
  rw [assocData_total hth, R.ok_bind] at h
  rw [if_neg hct] at h
  split at h
  · cases h
  · split at h
    · rename_i q hq
      rw [hq, R.ok.inj h]
    · cases h

/-! ### the initiator -/

/-- what a successful initiator run did, in the terms of RFC 9528 -/
structure IRfc (cfg : ECfg) (C : ECrypto) (c : ICtx) (creds : List Cred) (crBuf wI : Bytes) (L : Nat) (n n' : Net)
    (o : IOut) (k : Bytes) (sI sR : Bool) (su : Suite) (S : EdhocSpec.Session) (m2 c2 pkR gR field3 c3 : Bytes)
    (sp : Split) : Prop where
  /-- the selected cipher suite -/
  suite : EdhocSpec.suite (c.suitesI.getLastD 0).toNat = some su.params
  message1 : S.message1 = EdhocSpec.message1 c.method c.suitesI c.gX c.cI c.ead1
  /-- exactly message_1 and message_3 were sent -/
  sent : n'.sent = n.sent ++ [S.message1, enc (.bstr c3)]
  message2 : n.rxq.head? = some (.inr m2) ∧ msg2Parse cfg m2 (ctxt2Len m2.length) = .ok (S.gY, c2)
  gXY : C.dh su.ecdh c.x S.gY = some S.gXY
  gRX : StaticDh C sR su.ecdh c.x gR S.gRX
  gIY : StaticDh C sI su.ecdh c.i S.gY S.gIY
  plaintext2 : S.plaintext2 = xorBytes c2 (S.KEYSTREAM2 C.hash C.hmac c2.length)
  fields2 : plaintext2Split cfg S.plaintext2 crBuf.length cfg.idCredRSize cfg.eadSize = .ok (o.cR, sp)
  credR : retrieveCred cfg C sR creds sp.idCred cfg.credRSize = .ok (S.credR, pkR, gR)
  /-- Signature_or_MAC_2 was checked -/
  auth2 : CrRfc o.cR (crBuf.drop o.cR.length) →
    Accepts C sR su pkR sp.idCred (S.TH2 C.hash) S.credR sp.ead
      (S.MAC2 C.hash C.hmac o.cR sp.idCred sp.ead (EdhocSpec.macLength sR su.macLen)) sp.sigOrMac
  credI : S.credI = c.credI
  /-- Signature_or_MAC_3 -/
  auth3 : Proves C sI su c.skI c.pkI c.idCredI (S.TH3 C.hash) S.credI c.ead3
    (S.MAC3 C.hash C.hmac c.idCredI c.ead3 (EdhocSpec.macLength sI su.macLen)) field3
  plaintext3 : S.plaintext3 = wI ++ enc (.bstr field3) ++ c.ead3
  ciphertext3 : C.aeadEnc (S.K3 C.hash C.hmac) (S.IV3 C.hash C.hmac) (EdhocSpec.encStructure (S.TH3 C.hash))
    su.aead.tagLen S.plaintext3 = some c3
  th4 : o.th4 = S.TH4 C.hash
  prk4e3m : o.prk4e3m = S.PRK4e3m C.hash C.hmac
  prkOut : k = S.PRKout C.hash C.hmac L
  /-- with MESSAGE_4, a message_4 was received and decrypted -/
  message4 : cfg.message4 = true → ∃ m4 c4 p4 q, n.rxq = .inr m2 :: .inr m4 :: q ∧
    decodeBstr cfg m4 cfg.plaintext4Size = .ok c4 ∧
    C.aeadDec (S.K4 C.hash C.hmac) (S.IV4 C.hash C.hmac) (EdhocSpec.encStructure (S.TH4 C.hash)) su.aead.tagLen c4 = some p4

theorem initiator_trace {cfg : ECfg} {C : ECrypto} {c : ICtx} {creds : List Cred} {crBuf : Bytes} {L : Nat}
    {n n' : Net} {o : IOut} (h : initiatorRun cfg C c creds crBuf L n = (.ok o, n')) :
    ∃ m1 suite h1 m2 q st m3, msg1Gen cfg C c = .ok (m1, suite, h1) ∧ n.rxq = .inr m2 :: q ∧
      msg2Process cfg C c creds suite h1 m2 (authType c.method (false, false)).1
        (authType c.method (false, false)).2 crBuf (List.replicate cfg.eadSize 0) = .ok st ∧
      msg3OnlyGen cfg C c suite (authType c.method (false, false)).1 st m2 L = .ok m3 ∧
      o = ⟨st.cR, m3.prkOut, m3.th4, st.prk4e3m⟩ ∧ n'.sent = n.sent ++ [m1, m3.msg] ∧
      (cfg.message4 = true → ∃ m4 q' e, q = .inr m4 :: q' ∧
        msg4Process cfg C suite st.prk4e3m m3.th4 m4 st.ead.length = .ok e) := by
  unfold initiatorRun at h
  obtain ⟨⟨m1, suite, h1⟩, n1, e1, h⟩ := M.bind_eq_ok.1 h
  simp only [M.run_lift, Prod.mk.injEq] at e1
  obtain ⟨e1, rfl⟩ := e1
  obtain ⟨_, n2, e2, h⟩ := M.bind_eq_ok.1 h
  obtain ⟨m2, n3, e3, h⟩ := M.bind_eq_ok.1 h
  obtain ⟨⟨st, m3⟩, n4, e4, h⟩ := M.bind_eq_ok.1 h
  simp only [M.run_lift, Prod.mk.injEq] at e4
  obtain ⟨e4, rfl⟩ := e4
  obtain ⟨_, n5, e5, h⟩ := M.bind_eq_ok.1 h
  obtain ⟨_, n6, e6, h⟩ := M.bind_eq_ok.1 h
  have s6 : n6.sent = n.sent ++ [m1, m3.msg] := by
    rw [(netTx_eff e6).1, (netEad_eff e5).1, (netRx_eff e3).1, (netTx_eff e2).1]; simp
  have hq : n.rxq = .inr m2 :: n3.rxq := by
    rw [← (netRx_eff e3).2, (netTx_eff e2).2]
  unfold msg3Gen at e4
  obtain ⟨st', f5, e4⟩ := R.bind_eq_ok.1 e4
  obtain ⟨o3, f6, e4⟩ := R.bind_eq_ok.1 e4
  simp only [R.pure_eq, R.ok.injEq, Prod.mk.injEq] at e4
  obtain ⟨rfl, rfl⟩ := e4
  refine ⟨m1, suite, h1, m2, _, _, _, e1, hq, f5, f6, ?_⟩
  split at h
  · obtain ⟨_, n7, e7, h⟩ := M.bind_eq_ok.1 h
    simp only [M.run_pure, Prod.mk.injEq, R.ok.injEq] at h
    unfold initiatorMsg4 at e7
    obtain ⟨m4, n8, e8, e7⟩ := M.bind_eq_ok.1 e7
    obtain ⟨ea, n9, e9, e7⟩ := M.bind_eq_ok.1 e7
    simp only [M.run_lift, Prod.mk.injEq] at e9
    refine ⟨h.1.symm, ?_, fun _ => ⟨m4, n8.rxq, ea, ?_, e9.1⟩⟩
    · rw [← h.2, (netEad_eff e7).1, ← e9.2, (netRx_eff e8).1, s6]
    · rw [← (netRx_eff e8).2, (netTx_eff e6).2, (netEad_eff e5).2]
  · rename_i h4
    simp only [M.run_pure, Prod.mk.injEq, R.ok.injEq] at h
    exact ⟨h.1.symm, by rw [← h.2, s6], fun hx => absurd hx h4⟩

/-- a message_3 was built and PRK_out written -/
theorem msg3OnlyGen_some {cfg : ECfg} {C : ECrypto} {c : ICtx} {suite : Suite} {sI : Bool} {s : IState} {msg2 k : Bytes}
    {L : Nat} {o : M3Out} (h : msg3OnlyGen cfg C c suite sI s msg2 L = .ok o) (hk : o.prkOut = some k) :
    ∃ p3, msg3Build cfg C c suite sI s msg2.length = .ok (o.msg, p3) ∧ th34Calc cfg C s.th3 p3 c.credI = .ok o.th4 ∧
      edhocKdf cfg C s.prk4e3m labelPrkOut o.th4 L = .ok k := by
  unfold msg3OnlyGen at h
  split at h
  · cases h
  · simp only [R.ok.injEq] at h; rw [← h] at hk; cases hk
  · rename_i msg3 p3 g3
    split at h
    · cases h
    · simp only [R.ok.injEq] at h; rw [← h] at hk; cases hk
    · rename_i th4 g4
      split at h
      · cases h
      · simp only [R.ok.injEq] at h; rw [← h] at hk; cases hk
      · rename_i prk g5
        simp only [R.ok.injEq] at h
        rw [← h] at hk ⊢
        simp only [Option.some.injEq] at hk
        rw [hk] at g5
        exact ⟨p3, g3, g4, g5⟩

theorem msg2Parse_cap {cfg : ECfg} {m gY c : Bytes} {cap : Nat} (h : msg2Parse cfg m cap = .ok (gY, c)) :
    c.length ≤ cap := by
  unfold msg2Parse at h
  obtain ⟨b, _, h⟩ := R.bind_eq_ok.1 h
  split at h
  · cases h
  · obtain ⟨c', h2, h⟩ := R.bind_eq_ok.1 h
    simp only [R.pure_eq, R.ok.injEq, Prod.mk.injEq] at h
    obtain ⟨h3, h4⟩ := memcpyS_ok.1 h2
    rw [← h.2]; first | omega | (rw [h4]; omega) | (rw [← h4]; omega) | (rw [h3]; omega)

theorem crOf_cap {f : Int ⊕ Bytes} {cap : Nat} {o : Bytes} (h : crOf f cap = .ok o) : o.length ≤ cap := by
  unfold crOf at h
  split at h
  · obtain ⟨h3, h4⟩ := memcpyS_ok.1 h
    rw [h3]; exact h4
  · unfold encodeInt at h
    obtain ⟨h3, h4⟩ := cborOut_ok.1 h
    rw [h3]; exact h4

/-- C62, initiator: every run that returned ok and wrote PRK_out did what RFC 9528 says. -/
theorem C62_initiator_partial {cfg : ECfg} {C : ECrypto} (hC : C.Lawful) {c : ICtx} {creds : List Cred}
    {crBuf wI : Bytes} {L : Nat} {n n' : Net} {o : IOut} {k : Bytes} {sI sR : Bool}
    (h : initiatorRun cfg C c creds crBuf L n = (.ok o, n')) (hk : o.prkOut = some k)
    (hm : EdhocSpec.method c.method = some (sI, sR)) (hw : IdWire c.idCredI wI) (hL : L ≤ 255 * 32)
    (hp : cfg.plaintext2Size ≤ 255 * 32) (hcr : crBuf.length < 2 ^ 32) :
    ∃ su S m2 c2 pkR gR field3 c3 sp,
      IRfc cfg C c creds crBuf wI L n n' o k sI sR su S m2 c2 pkR gR field3 c3 sp := by
  obtain ⟨m1, suite, h1, m2, q, st, m3, e1, hq, e2, e3, rfl, hsent, h4⟩ := initiator_trace h
  rw [C35_methods hm] at e2 e3
  simp only at e2 e3 hk
  have hm1 := C40_message_1_rfc9528 e1
  have hh1 : h1 = C.hash m1 ∧ getSuite (c.suitesI.getLastD 0).toNat = .ok suite := by
    unfold msg1Gen at e1
    obtain ⟨_, _, e1⟩ := R.bind_eq_ok.1 e1
    obtain ⟨_, _, e1⟩ := R.bind_eq_ok.1 e1
    obtain ⟨_, _, e1⟩ := R.bind_eq_ok.1 e1
    obtain ⟨_, g, e1⟩ := R.bind_eq_ok.1 e1
    simp only [R.pure_eq, R.ok.injEq, Prod.mk.injEq] at e1
    rw [← e1.2.2, ← e1.2.1, e1.1]; exact ⟨rfl, g⟩
  obtain ⟨hh1, hsu⟩ := hh1
  obtain ⟨hsu1, hsu2⟩ := suite_small hsu
  rw [hh1] at e2
  unfold msg2Process at e2
  obtain ⟨_, f0, e2⟩ := R.bind_eq_ok.1 e2
  obtain ⟨⟨gY, c2⟩, f1, e2⟩ := R.bind_eq_ok.1 e2
  simp only at e2
  obtain ⟨gxy, f2, e2⟩ := R.bind_eq_ok.1 e2
  obtain ⟨th2, f3, e2⟩ := R.bind_eq_ok.1 e2
  obtain ⟨ptxt, f4, e2⟩ := R.bind_eq_ok.1 e2
  obtain ⟨⟨cR, sp⟩, f5, e2⟩ := R.bind_eq_ok.1 e2
  simp only at e2
  unfold msg2Auth at e2
  obtain ⟨⟨cred, pk, g⟩, f6, e2⟩ := R.bind_eq_ok.1 e2
  simp only at e2
  obtain ⟨prk3, f7, e2⟩ := R.bind_eq_ok.1 e2
  obtain ⟨_, f8, e2⟩ := R.bind_eq_ok.1 e2
  obtain ⟨th3, f9, e2⟩ := R.bind_eq_ok.1 e2
  obtain ⟨prk4, f10, e2⟩ := R.bind_eq_ok.1 e2
  simp only [R.pure_eq, R.ok.injEq] at e2
  rw [List.length_replicate] at f5
  have l2 := th2_length hC f3
  have l3 := th34_length hC f9
  obtain ⟨p3, g1, g2, g3⟩ := msg3OnlyGen_some e3 hk
  rw [← e2] at g1 g2 g3 ⊢
  simp only at g1 g2 g3 ⊢
  unfold msg3Build at g1
  obtain ⟨_, _, g1⟩ := R.bind_eq_ok.1 g1
  obtain ⟨_, _, g1⟩ := R.bind_eq_ok.1 g1
  obtain ⟨sm, g4, g1⟩ := R.bind_eq_ok.1 g1
  obtain ⟨⟨c3, p3'⟩, g5, g1⟩ := R.bind_eq_ok.1 g1
  simp only at g1 g4 g5
  obtain ⟨m, g6, g7⟩ := R.bind_eq_ok.1 g1
  simp only [R.pure_eq, R.ok.injEq, Prod.mk.injEq] at g7
  obtain ⟨g7, rfl⟩ := g7
  rw [← g7, (encodeBstr_ok.1 g6).1] at hsent
  obtain ⟨gRX, d1, d2⟩ := prkDerive_ok hC f7
  obtain ⟨gIY, d3, d4⟩ := prkDerive_ok hC f10
  obtain ⟨mac2, v1, v2⟩ := verify_ok f8
  obtain ⟨mac3, v3, v4⟩ := gen_ok g4
  have t2 := th2_ok f3
  have t3 := C47_th34_rfc9528 f9
  have t4 := C47_th34_rfc9528 g2
  have hc2 : c2.length ≤ 255 * 32 := by
    have := msg2Parse_cap f1
    have := checkBufferSize_ok.1 f0
    omega
  have hcl : cR.length < 2 ^ 32 := by
    unfold plaintext2Split at f5
    split at f5
    · cases f5
    · obtain ⟨a, k1, f5⟩ := R.bind_eq_ok.1 f5
      obtain ⟨_, _, f5⟩ := R.bind_eq_ok.1 f5
      simp only [R.pure_eq, R.ok.injEq, Prod.mk.injEq] at f5
      have := crOf_cap k1
      rw [f5.1] at this
      omega
  obtain ⟨q1, q2⟩ := ctxt34Gen_ok hC (by decide) l3 g5
  let S : EdhocSpec.Session := ⟨m1, gY, gxy, gRX, gIY, ptxt, cred, p3', c.credI⟩
  have s2 : S.TH2 C.hash = th2 := t2.symm
  have sp2 : S.PRK2e C.hash C.hmac = hkdfExtract C.toCrypto th2 gxy := by
    unfold EdhocSpec.Session.PRK2e; rw [s2, extract_eq]
  have sp3 : S.PRK3e2m C.hash C.hmac = prk3 := by
    unfold EdhocSpec.Session.PRK3e2m; rw [s2, sp2]; exact d2.symm
  have s3 : S.TH3 C.hash = th3 := by unfold EdhocSpec.Session.TH3; rw [s2]; exact t3.symm
  have sp4 : S.PRK4e3m C.hash C.hmac = prk4 := by
    unfold EdhocSpec.Session.PRK4e3m; rw [s3, sp3]; exact d4.symm
  have s4 : S.TH4 C.hash = m3.th4 := by unfold EdhocSpec.Session.TH4; rw [s3]; exact t4.symm
  refine ⟨suite, S, m2, c2, pk, g, sm, c3, sp, ?_⟩
  exact {
    suite := hsu1, message1 := hm1, sent := hsent, message2 := ⟨by rw [hq]; rfl, f1⟩
    gXY := sharedSecret_ok f2, gRX := d1, gIY := d3
    plaintext2 := by
      unfold EdhocSpec.Session.KEYSTREAM2; rw [sp2, s2]; exact ctxt2Dec_rfc hC hc2 f4
    fields2 := f5, credR := f6
    auth2 := fun hx => by
      have := mac_rfc hC hsu2 hx.2.2 hcl v1
      rw [crMac_rfc hx] at this
      unfold EdhocSpec.Session.MAC2
      rw [sp3, s2]
      rw [this] at v2
      exact v2
    credI := rfl
    auth3 := by
      have := mac_rfc hC hsu2 (by intro h; cases h) (by decide) v3
      unfold EdhocSpec.Session.MAC3
      rw [sp4, s3]
      rw [this] at v4
      exact v4
    plaintext3 := ptxt3Gen_ok hw q1
    ciphertext3 := by
      unfold EdhocSpec.Session.K3 EdhocSpec.Session.IV3
      rw [sp3, s3]; exact q2
    th4 := s4.symm, prk4e3m := sp4.symm
    prkOut := by
      unfold EdhocSpec.Session.PRKout
      rw [sp4, s4]; exact (C38_kdf_rfc9528 hC g3 hL).1
    message4 := fun hx => by
      obtain ⟨m4, q', ea, hq', hp4⟩ := h4 hx
      unfold msg4Process at hp4
      obtain ⟨c4, r1, hp4⟩ := R.bind_eq_ok.1 hp4
      obtain ⟨_, _, hp4⟩ := R.bind_eq_ok.1 hp4
      obtain ⟨p4, r2, _⟩ := R.bind_eq_ok.1 hp4
      have := ctxt34Dec_rfc hC (by decide) (th34_length hC g2) r2
      refine ⟨m4, c4, p4, q', by rw [hq, hq'], r1, ?_⟩
      unfold EdhocSpec.Session.K4 EdhocSpec.Session.IV4
      rw [sp4, s4]
      rw [← e2] at this
      exact this }

/-! ### the responder -/

/-- what a successful responder run did, in the terms of RFC 9528 -/
structure RRfc (cfg : ECfg) (C : ECrypto) (c : RCtx) (creds : List Cred) (cICap : Nat) (wR : Bytes) (L : Nat)
    (n n' : Net) (o : ROut) (p : Parsed1) (sI sR : Bool) (su : Suite) (S : EdhocSpec.Session)
    (field2 c2 m3 c3 gI : Bytes) (later : List Bytes) (sp : Split) : Prop where
  /-- message_1 was received, the suite is the last of its list -/
  message1 : (∃ q, n.rxq = .inr S.message1 :: .inr m3 :: q) ∧
    msg1Parse cfg S.message1 cICap (List.replicate cfg.eadSize 0) = .ok p
  cI : o.cI = p.cI
  method : EdhocSpec.method p.method = some (sI, sR)
  suite : EdhocSpec.suite (p.suites.getLastD 0).toNat = some su.params
  gY : S.gY = c.gY
  gXY : C.dh su.ecdh c.y p.gX = some S.gXY
  gRX : StaticDh C sR su.ecdh c.r p.gX S.gRX
  gIY : StaticDh C sI su.ecdh c.y gI S.gIY
  credR : S.credR = c.credR
  /-- Signature_or_MAC_2 -/
  auth2 : CrRfc c.cR c.cRMem → c.cR.length < 2 ^ 32 →
    Proves C sR su c.skR c.pkR c.idCredR (S.TH2 C.hash) S.credR c.ead2
      (S.MAC2 C.hash C.hmac c.cR c.idCredR c.ead2 (EdhocSpec.macLength sR su.macLen)) field2
  plaintext2 : S.plaintext2 = enc (EdhocSpec.connId c.cR) ++ wR ++ enc (.bstr field2) ++ c.ead2
  ciphertext2 : c2 = xorBytes S.plaintext2 (S.KEYSTREAM2 C.hash C.hmac S.plaintext2.length)
  /-- message_2 was sent, and message_4 if configured -/
  sent : n'.sent = n.sent ++ enc (.bstr (S.gY ++ c2)) :: later
  message4 : if cfg.message4 then ∃ c4, later = [enc (.bstr c4)] ∧
      C.aeadEnc (S.K4 C.hash C.hmac) (S.IV4 C.hash C.hmac) (EdhocSpec.encStructure (S.TH4 C.hash)) su.aead.tagLen c.ead4
        = some c4
    else later = []
  message3 : decodeBstr cfg m3 m3.length = .ok c3
  plaintext3 : C.aeadDec (S.K3 C.hash C.hmac) (S.IV3 C.hash C.hmac) (EdhocSpec.encStructure (S.TH3 C.hash))
    su.aead.tagLen c3 = some S.plaintext3
  fields3 : plaintext3Split cfg S.plaintext3 cfg.idCredISize p.ead.length = .ok sp
  credI : retrieveCred cfg C sI creds sp.idCred cfg.credISize = .ok (S.credI, o.pk, gI)
  /-- Signature_or_MAC_3 was checked -/
  auth3 : Accepts C sI su o.pk sp.idCred (S.TH3 C.hash) S.credI sp.ead
    (S.MAC3 C.hash C.hmac sp.idCred sp.ead (EdhocSpec.macLength sI su.macLen)) sp.sigOrMac
  th4 : o.th4 = S.TH4 C.hash
  prk4e3m : o.prk4e3m = S.PRK4e3m C.hash C.hmac
  prkOut : o.prkOut = S.PRKout C.hash C.hmac L

theorem responder_trace {cfg : ECfg} {C : ECrypto} {c : RCtx} {creds : List Cred} {cICap L : Nat}
    {n n' : Net} {o : ROut} (h : responderRun cfg C c creds cICap L n = (.ok o, n')) :
    ∃ m1 m2 rs m3 q r3 later, n.rxq = .inr m1 :: .inr m3 :: q ∧
      msg2Gen cfg C c m1 cICap (List.replicate cfg.eadSize 0) = .ok (m2, rs) ∧
      msg3Process cfg C c creds rs m3 L = .ok r3 ∧
      o = ⟨rs.cI, r3.prkOut, r3.pk, r3.th4, r3.prk4e3m⟩ ∧
      n'.sent = n.sent ++ m2 :: later ∧
      (if cfg.message4 then ∃ m4, later = [m4] ∧
        msg4Gen cfg C c.ead4 rs.suite r3.prk4e3m r3.th4 m3.length = .ok m4 else later = []) := by
  unfold responderRun at h
  obtain ⟨m1, n1, e1, h⟩ := M.bind_eq_ok.1 h
  obtain ⟨⟨m2, rs⟩, n2, e2, h⟩ := M.bind_eq_ok.1 h
  simp only [M.run_lift, Prod.mk.injEq] at e2
  obtain ⟨e2, rfl⟩ := e2
  obtain ⟨_, n3, e3, h⟩ := M.bind_eq_ok.1 h
  obtain ⟨_, n4, e4, h⟩ := M.bind_eq_ok.1 h
  obtain ⟨m3, n5, e5, h⟩ := M.bind_eq_ok.1 h
  obtain ⟨r3, n6, e6, h⟩ := M.bind_eq_ok.1 h
  simp only [M.run_lift, Prod.mk.injEq] at e6
  obtain ⟨e6, rfl⟩ := e6
  obtain ⟨_, n7, e7, h⟩ := M.bind_eq_ok.1 h
  have hs : n7.sent = n.sent ++ [m2] := by
    rw [(netEad_eff e7).1, (netRx_eff e5).1, (netTx_eff e4).1, (netEad_eff e3).1, (netRx_eff e1).1]
  have hq : n.rxq = .inr m1 :: .inr m3 :: n5.rxq := by
    rw [(netRx_eff e1).2, ← (netEad_eff e3).2, ← (netTx_eff e4).2, (netRx_eff e5).2]
  split at h
  · rename_i h4
    obtain ⟨_, n8, e8, h⟩ := M.bind_eq_ok.1 h
    simp only [M.run_pure, Prod.mk.injEq, R.ok.injEq] at h
    unfold responderMsg4 at e8
    obtain ⟨m4, n9, e9, e8⟩ := M.bind_eq_ok.1 e8
    simp only [M.run_lift, Prod.mk.injEq] at e9
    refine ⟨m1, m2, rs, m3, _, r3, [m4], hq, e2, e6, h.1.symm, ?_, ?_⟩
    · rw [← h.2, (netTx_eff e8).1, ← e9.2, hs]; simp
    · rw [if_pos h4]; exact ⟨m4, rfl, e9.1⟩
  · rename_i h4
    simp only [M.run_pure, Prod.mk.injEq, R.ok.injEq] at h
    refine ⟨m1, m2, rs, m3, _, r3, [], hq, e2, e6, h.1.symm, by rw [← h.2, hs], ?_⟩
    rw [if_neg h4]

theorem msg1Parse_method {cfg : ECfg} {m1 ead : Bytes} {cICap : Nat} {p : Parsed1} (h : msg1Parse cfg m1 cICap ead = .ok p) :
    EdhocSpec.method p.method = some (authType p.method (false, false)) := by
  unfold msg1Parse at h
  split at h
  · cases h
  · split at h
    · cases h
    · rename_i m _ hx
      obtain ⟨_, _, h⟩ := R.bind_eq_ok.1 h
      obtain ⟨_, _, h⟩ := R.bind_eq_ok.1 h
      obtain ⟨_, _, h⟩ := R.bind_eq_ok.1 h
      obtain ⟨_, _, h⟩ := R.bind_eq_ok.1 h
      simp only [R.pure_eq, R.ok.injEq] at h
      rw [← h]
      simp only
      cases hm : EdhocSpec.method m.method with
      | none => exact absurd (method_none.1 hm) hx
      | some r => rw [C35_methods hm]

theorem append_cap {d s o : Bytes} {cap : Nat} (hd : d.length ≤ cap) (hc : cap < 2 ^ 32)
    (h : byteArrayAppend d s cap = .ok o) : o.length ≤ cap := by
  have e := append_ok h
  unfold byteArrayAppend at h
  split at h
  · cases h
  · obtain ⟨_, h1, _⟩ := R.bind_eq_ok.1 h
    have := (memcpyS_ok.1 h1).2
    rw [e, List.length_append]
    omega

theorem ptxt2Gen_cap {cfg : ECfg} {cR id sm ead p : Bytes} {cap : Nat} (hc : cap < 2 ^ 32)
    (h : plaintextGen cfg .c2 cR id sm ead cap = .ok p) : p.length ≤ cap := by
  unfold plaintextGen at h
  obtain ⟨_, _, h⟩ := R.bind_eq_ok.1 h
  obtain ⟨_, _, h⟩ := R.bind_eq_ok.1 h
  obtain ⟨_, _, h⟩ := R.bind_eq_ok.1 h
  obtain ⟨_, h1, h⟩ := R.bind_eq_ok.1 h
  obtain ⟨_, _, h⟩ := R.bind_eq_ok.1 h
  obtain ⟨_, h2, h⟩ := R.bind_eq_ok.1 h
  obtain ⟨_, h3, h⟩ := R.bind_eq_ok.1 h
  exact append_cap (append_cap (append_cap (append_cap (Nat.zero_le _) hc h1) hc h2) hc h3) hc h

/-- C62, responder: every run that returned ok did what RFC 9528 says. -/
theorem C62_responder_partial {cfg : ECfg} {C : ECrypto} (hC : C.Lawful) {c : RCtx} {creds : List Cred}
    {wR : Bytes} {cICap L : Nat} {n n' : Net} {o : ROut}
    (h : responderRun cfg C c creds cICap L n = (.ok o, n')) (hw : IdWire c.idCredR wR) (hL : L ≤ 255 * 32)
    (hp : cfg.plaintext2Size ≤ 255 * 32) :
    ∃ p sI sR su S field2 c2 m3 c3 gI later sp,
      RRfc cfg C c creds cICap wR L n n' o p sI sR su S field2 c2 m3 c3 gI later sp := by
  obtain ⟨m1, m2, rs, m3, q, r3, later, hq, e1, e2, rfl, hsent, h4⟩ := responder_trace h
  unfold msg2Gen at e1
  obtain ⟨p, f1, e1⟩ := R.bind_eq_ok.1 e1
  split at e1
  · cases e1
  have hmeth := msg1Parse_method f1
  generalize hr : authType p.method (false, false) = roles at hmeth
  obtain ⟨sI, sR⟩ := roles
  unfold msg2Build at e1
  obtain ⟨suite, f2, e1⟩ := R.bind_eq_ok.1 e1
  rw [hr] at e1
  simp only at e1
  obtain ⟨th2, f3, e1⟩ := R.bind_eq_ok.1 e1
  obtain ⟨gxy, f4, e1⟩ := R.bind_eq_ok.1 e1
  obtain ⟨prk3, f5, e1⟩ := R.bind_eq_ok.1 e1
  obtain ⟨⟨c2, p2⟩, f6, e1⟩ := R.bind_eq_ok.1 e1
  simp only at e1
  obtain ⟨msg2, f7, e1⟩ := R.bind_eq_ok.1 e1
  obtain ⟨th3, f8, e1⟩ := R.bind_eq_ok.1 e1
  simp only [R.pure_eq, R.ok.injEq, Prod.mk.injEq] at e1
  obtain ⟨rfl, rfl⟩ := e1
  obtain ⟨hsu1, hsu2⟩ := suite_small f2
  unfold ctxt2Gen at f6
  obtain ⟨sm, f9, f6⟩ := R.bind_eq_ok.1 f6
  obtain ⟨_, f10, f6⟩ := R.bind_eq_ok.1 f6
  unfold msg3Process at e2
  obtain ⟨_, _, e2⟩ := R.bind_eq_ok.1 e2
  obtain ⟨c3, g1, e2⟩ := R.bind_eq_ok.1 e2
  obtain ⟨_, _, e2⟩ := R.bind_eq_ok.1 e2
  obtain ⟨p3, g2, e2⟩ := R.bind_eq_ok.1 e2
  obtain ⟨sp, g3, e2⟩ := R.bind_eq_ok.1 e2
  unfold msg3Auth at e2
  obtain ⟨⟨credI, pk, gI⟩, g4, e2⟩ := R.bind_eq_ok.1 e2
  simp only at e2 g1 g2 g3 g4
  obtain ⟨prk4, g5, e2⟩ := R.bind_eq_ok.1 e2
  obtain ⟨_, g6, e2⟩ := R.bind_eq_ok.1 e2
  obtain ⟨th4, g7, e2⟩ := R.bind_eq_ok.1 e2
  obtain ⟨prk, g8, e2⟩ := R.bind_eq_ok.1 e2
  simp only [R.pure_eq, R.ok.injEq] at e2
  rw [← e2] at h4 ⊢
  simp only at h4 ⊢
  have l2 := th2_length hC f3
  have l3 := th34_length hC f8
  have l4 := th34_length hC g7
  obtain ⟨gRX, d1, d2⟩ := prkDerive_ok hC f5
  obtain ⟨gIY, d3, d4⟩ := prkDerive_ok hC g5
  obtain ⟨mac2, v1, v2⟩ := gen_ok f9
  obtain ⟨mac3, v3, v4⟩ := verify_ok g6
  have t2 := th2_ok f3
  have t3 := C47_th34_rfc9528 f8
  have t4 := C47_th34_rfc9528 g7
  have pp := ptxt2Gen_ok hw (ctxt_ptxt f6)
  have hp2 : p2.length ≤ 255 * 32 := by
    have := checkBufferSize_ok.1 f10
    have := ptxt2Gen_cap (by omega) (ctxt_ptxt f6)
    omega
  obtain ⟨-, q2⟩ := ctxt2Gen_rfc hC hp2 f6
  unfold msg2Encode at f7
  obtain ⟨_, _, f7⟩ := R.bind_eq_ok.1 f7
  rw [(encodeBstr_ok.1 f7).1] at hsent
  let S : EdhocSpec.Session := ⟨m1, c.gY, gxy, gRX, gIY, p2, c.credR, p3, credI⟩
  have s2 : S.TH2 C.hash = th2 := t2.symm
  have sp2 : S.PRK2e C.hash C.hmac = hkdfExtract C.toCrypto th2 gxy := by
    unfold EdhocSpec.Session.PRK2e; rw [s2, extract_eq]
  have sp3 : S.PRK3e2m C.hash C.hmac = prk3 := by
    unfold EdhocSpec.Session.PRK3e2m; rw [s2, sp2]; exact d2.symm
  have s3 : S.TH3 C.hash = th3 := by unfold EdhocSpec.Session.TH3; rw [s2]; exact t3.symm
  have sp4 : S.PRK4e3m C.hash C.hmac = prk4 := by
    unfold EdhocSpec.Session.PRK4e3m; rw [s3, sp3]; exact d4.symm
  have s4 : S.TH4 C.hash = th4 := by unfold EdhocSpec.Session.TH4; rw [s3]; exact t4.symm
  refine ⟨p, sI, sR, suite, S, sm, c2, m3, c3, gI, later, sp, ?_⟩
  exact {
    message1 := ⟨⟨q, hq⟩, f1⟩, cI := rfl, method := hmeth, suite := hsu1, gY := rfl
    gXY := sharedSecret_ok f4, gRX := d1, gIY := d3, credR := rfl
    auth2 := fun hx hl => by
      have := mac_rfc hC hsu2 hx.2.2 hl v1
      rw [crMac_rfc hx] at this
      unfold EdhocSpec.Session.MAC2
      rw [sp3, s2]
      rw [this] at v2
      exact v2
    plaintext2 := pp
    ciphertext2 := by
      unfold EdhocSpec.Session.KEYSTREAM2
      rw [sp2, s2]; exact q2
    sent := hsent
    message4 := by
      split at h4
      · rename_i hx
        rw [if_pos hx]
        obtain ⟨m4, hl, hg⟩ := h4
        unfold msg4Gen at hg
        obtain ⟨⟨c4, p4⟩, r1, hg⟩ := R.bind_eq_ok.1 hg
        simp only at hg
        obtain ⟨r2, r3⟩ := ctxt34Gen_ok hC (by decide) l4 r1
        rw [ptxt4Gen_ok r2] at r3
        refine ⟨c4, by rw [hl, (encodeBstr_ok.1 hg).1], ?_⟩
        unfold EdhocSpec.Session.K4 EdhocSpec.Session.IV4
        rw [sp4, s4]; exact r3
      · rename_i hx
        rw [if_neg hx]; exact h4
    message3 := g1
    plaintext3 := by
      have := ctxt34Dec_rfc hC (by decide) l3 g2
      unfold EdhocSpec.Session.K3 EdhocSpec.Session.IV3
      rw [sp3, s3]; exact this
    fields3 := g3, credI := g4
    auth3 := by
      have := mac_rfc hC hsu2 (by intro h; cases h) (by decide) v3
      unfold EdhocSpec.Session.MAC3
      rw [sp4, s3]
      rw [this] at v4
      exact v4
    th4 := s4.symm, prk4e3m := sp4.symm
    prkOut := by
      unfold EdhocSpec.Session.PRKout
      rw [sp4, s4]; exact (C38_kdf_rfc9528 hC g8 hL).1 }

/-! ### where the code deviates from RFC 9528 -/

/-- the MAC over a context whose C_R is encoded otherwise is another MAC -/
theorem mac_differs {C : ECrypto} (hC : C.Lawful) {prk x y rest : Bytes} {label n : Nat} (hn : 32 ≤ n)
    (hn' : n < 2 ^ 32) (hl : label < 24) (hx : (x ++ rest).length < 2 ^ 32) (hy : (y ++ rest).length < 2 ^ 32) (hne : x ≠ y)
    (h : EdhocSpec.kdf C.hmac prk label (x ++ rest) n = EdhocSpec.kdf C.hmac prk label (y ++ rest) n) :
    HmacClash C (prk, kdfIn label (x ++ rest) n) (prk, kdfIn label (y ++ rest) n) := by
  have e := congrArg (List.take 32) h
  unfold EdhocSpec.kdf at e
  rw [expand_take hC.base _ _ hn, expand_take hC.base _ _ hn] at e
  refine ⟨fun hc => ?_, e⟩
  have h2 := List.append_cancel_right (Prod.mk.inj hc).2
  have := encList_inj (l := [.uint label, .bstr (x ++ rest), .uint n]) (m := [.uint label, .bstr (y ++ rest), .uint n])
    (by simp [OkList, Item.Ok]; simp at hx; omega) (by simp [OkList, Item.Ok]; simp at hy; omega) h2
  simp only [List.cons.injEq, Item.bstr.injEq, and_true, true_and] at this
  exact hne (List.append_cancel_right this)

/-- a C_R that RFC 9528 puts into the MAC context otherwise than the code -/
def CrDeviates (cR : Bytes) : Prop := cR = [] ∨ ∃ b, cR = [b] ∧ 0x20 ≤ b.toNat ∧ b.toNat ≤ 0x37

theorem crMac_deviates {cR : Bytes} (h : CrDeviates cR) : crMac cR ≠ enc (EdhocSpec.connId cR) := by
  rcases h with rfl | ⟨b, rfl, h1, h2⟩
  · decide
  · unfold crMac EdhocSpec.connId isRawInt
    rw [if_neg (by simp)]
    have hb : ¬ b.toNat ≤ 23 := by omega
    simp only [hb, decide_false, Bool.false_eq_true, ↓reduceIte, if_pos (And.intro h1 h2)]
    intro h
    have := congrArg List.length h
    rw [enc, enc] at this
    unfold head at this
    rw [if_pos (by simp), if_pos (by omega)] at this
    simp at this

/-- C62 is false of some connection identifiers: with an empty C_R, or with one of the one-byte integers -1
to -24, the MAC_2 of this library (here of a signing responder, 32 bytes) is never the one of RFC 9528,
unless the HMAC inputs of the two, which differ in the field of C_R, are a collision of the HMAC; a peer that follows the RFC therefore refuses message_2. -/
theorem C62_false_cr {cfg : ECfg} {C : ECrypto} (hC : C.Lawful) {prk cR mem th idCred cred ead m : Bytes} {suite : Suite}
    (hs : suite.macLen ≤ 16) (hcr : CrDeviates cR)
    (hl : (enc (EdhocSpec.connId cR) ++ idCred ++ enc (.bstr th) ++ cred ++ ead).length < 2 ^ 31)
    (h : mac cfg C prk cR mem th idCred cred ead 2 false suite = .ok m) :
    m ≠ EdhocSpec.kdf C.hmac prk 2 (enc (EdhocSpec.connId cR) ++ idCred ++ enc (.bstr th) ++ cred ++ ead) 32 ∨
      HmacClash C (prk, kdfIn 2 (crMac cR ++ idCred ++ enc (.bstr th) ++ cred ++ ead) 32)
        (prk, kdfIn 2 (enc (EdhocSpec.connId cR) ++ idCred ++ enc (.bstr th) ++ cred ++ ead) 32) := by
  have hcl : cR.length < 2 ^ 32 := by
    rcases hcr with rfl | ⟨b, rfl, -⟩ <;> simp
  have hm : CrMemOk cR mem := by
    intro hr
    rcases hcr with rfl | ⟨b, rfl, h1, h2⟩
    · cases hr
    · unfold isRawInt at hr; simp at hr; omega
  have e := mac_rfc hC hs hm hcl h
  by_cases hx : m = EdhocSpec.kdf C.hmac prk 2 (enc (EdhocSpec.connId cR) ++ idCred ++ enc (.bstr th) ++ cred ++ ead) 32
  · right
    rw [e] at hx
    have : (crMac cR).length ≤ 2 := by
      rcases hcr with rfl | ⟨b, rfl, h1, h2⟩
      · decide
      · have := crMac_length (cR := [b]) (by simp)
        have e : asBstr 1 = 2 := by decide
        simp only [List.length_cons, List.length_nil, Nat.zero_add] at this
        omega
    simp only [List.append_assoc] at hx hl ⊢
    simp only [EdhocSpec.macLength, Bool.false_eq_true, ↓reduceIte] at hx
    refine mac_differs hC (by omega) (by omega) (by omega) ?_ ?_ (crMac_deviates hcr) hx
    · simp only [List.length_append] at hl ⊢; omega
    · simp only [List.length_append] at hl ⊢; omega
  · exact .inl hx

/-! ### the hypotheses are met -/

theorem toy_cr {mem : Bytes} : CrRfc toyR.cR mem :=
  ⟨by simp [toyR], by intro b h; simp [toyR] at h, by intro h; cases h⟩

/-- a run with both parties authenticating by static DH, and one with both signing -/
example {m : Int} (hm : m = 0 ∨ m = 3) : ∃ nI nI' nR nR' oI oR k,
    initiatorRun {} toyE (toyI m) toyCredsR (List.replicate 10 0) 32 nI = (.ok oI, nI') ∧ oI.prkOut = some k ∧
    responderRun {} toyE toyR toyCredsI 10 32 nR = (.ok oR, nR') ∧ toyE.Lawful ∧
    IdWire (toyI m).idCredI [0x2b] ∧ IdWire toyR.idCredR toyR.idCredR ∧ ({} : ECfg).plaintext2Size ≤ 255 * 32 ∧
    CrRfc oI.cR ((List.replicate 10 0).drop oI.cR.length) ∧ CrRfc toyR.cR toyR.cRMem := by
  have : ∃ sI sR, (exSetup m).Honest (exAgreed sI sR) := by
    rcases hm with rfl | rfl
    · exact ⟨_, _, ex_honest (.inl ⟨rfl, rfl, rfl⟩)⟩
    · exact ⟨_, _, ex_honest (.inr ⟨rfl, rfl, rfl⟩)⟩
  obtain ⟨sI, sR, H⟩ := this
  obtain ⟨_, _, _, oI, oR, nI, nR, a, _, c, _, e, _, _, _, hcr, _⟩ := C39_partial H ⟨rfl, rfl⟩
  refine ⟨_, nI, _, nR, oI, oR, _, a, e, c, toyE_lawful, ex_wire_i, ex_wire_r, by decide, ?_, toy_cr⟩
  rw [show oI.cR = toyR.cR from hcr]
  exact toy_cr

example : CrDeviates [0x21] := .inr ⟨_, rfl, by decide, by decide⟩
example : (mac {} toyE (List.replicate 32 1) [0x21] [] (List.replicate 32 2) [0xa0] [0x01] [] 2 false ⟨0, .ccm64, 8, .x25519, .eddsa, .ccm64⟩).isOk
    = true := by decide +kernel

end Verif.Edhoc
