import Verif.Props.EdhocBasic
/-
Specification for C60, C75 and C77: the strings two runs of EDHOC hand to the hash and to the HMAC.  "Unless there is a
collision" in those properties means a collision between two of the strings listed here, which the runs really use (that
collisions exist somewhere is true of every hash and would say nothing).
-/
namespace Verif.Edhoc
open Verif Verif.Cbor

/-- inputs of the hash and of the HMAC (key, message) in the order of their use -/
structure Inputs where
  hashed : List Bytes
  hmaced : List (Bytes × Bytes)

/-- two different pairs of key and message are a collision of the HMAC -/
def HmacClash (C : ECrypto) (x y : Bytes × Bytes) : Prop := x ≠ y ∧ C.hmac x.1 x.2 = C.hmac y.1 y.2

/-- two runs found a collision: at the same place they used different inputs with the same result -/
def Clash (C : ECrypto) (u v : Inputs) : Prop :=
  (∃ x ∈ u.hashed.zip v.hashed, HashClash C x.1 x.2) ∨
    ∃ x ∈ u.hmaced.zip v.hmaced, HmacClash C x.1 x.2

/-- runs with the same inputs found no collision -/
theorem Clash.irrefl {C : ECrypto} {u : Inputs} : ¬ Clash C u u := by
  have key : ∀ {α : Type} (l : List α) (x : α × α), x ∈ l.zip l → x.1 = x.2 := by
    intro α l
    induction l with
    | nil => intro x h; cases h
    | cons a l ih =>
      intro x h
      rcases List.mem_cons.1 h with rfl | h
      · rfl
      · exact ih x h
  rintro (⟨x, h1, h2⟩ | ⟨x, h1, h2⟩)
  · exact h2.1 (key _ _ h1)
  · exact h2.1 (key _ _ h1)

/-- the first input of the HMAC in EDHOC_KDF(_, label, ctx, n) (RFC 5869, 2.3: T(1) = HMAC(PRK, info | 0x01)) -/
def kdfIn (label : Nat) (ctx : Bytes) (n : Nat) : Bytes := EdhocSpec.info label ctx n ++ [1]

/-! ### the initiator -/

/-- what an initiator reads from the received message_2 -/
structure IView where
  m1 : Bytes
  suite : Suite
  gY : Bytes
  gxy : Bytes
  th2 : Bytes
  p2 : Bytes
  cR : Bytes
  sp : Split
  credR : Bytes
  pkR : Bytes

/-- message_1 of the initiator, G_Y, G_XY, TH_2 and plaintext_2 from the received message_2, C_R and the fields of
plaintext_2, and the credential and key found for ID_CRED_R (initiator.c:68-127, 137-178) -/
def initView (cfg : ECfg) (C : ECrypto) (c : ICtx) (creds : List Cred) (crBuf m2 : Bytes) : R IView := do
  let (m1, suite, _) ← msg1Gen cfg C c
  let (gY, c2) ← msg2Parse cfg m2 (ctxt2Len m2.length)
  let gxy ← sharedSecret C suite.ecdh c.x gY
  let th2 ← th2Calc C (C.hash m1) gY
  let p2 ← ctxtDecrypt cfg C .c2 suite (hkdfExtract C.toCrypto th2 gxy) th2 c2
  let (cR, sp) ← plaintext2Split cfg p2 crBuf.length cfg.idCredRSize cfg.eadSize
  let (credR, pkR, _) ← retrieveCred cfg C (authType c.method (false, false)).2 creds sp.idCred cfg.credRSize
  pure ⟨m1, suite, gY, gxy, th2, p2, cR, sp, credR, pkR⟩

/-- What an initiator computes from message_2: message_1, its suite and the state after `msg2_process`. -/
def initResult (cfg : ECfg) (C : ECrypto) (c : ICtx) (creds : List Cred) (crBuf m2 : Bytes) : R (Bytes × Suite × IState) := do
  let (m1, suite, h1) ← msg1Gen cfg C c
  let st ← msg2Process cfg C c creds suite h1 m2 (authType c.method (false, false)).1 (authType c.method (false, false)).2 crBuf
    (List.replicate cfg.eadSize 0)
  pure (m1, suite, st)

/-- plaintext_3: ID_CRED_I, Signature_or_MAC_3, EAD_3 -/
def plaintext3Of (cfg : ECfg) (C : ECrypto) (c : ICtx) (suite : Suite) (st : IState) : R Bytes := do
  let sm ← sigOrMacGen cfg C (authType c.method (false, false)).1 suite c.skI c.pkI st.prk4e3m [] [] st.th3 c.idCredI c.credI c.ead3 6
  plaintextGen cfg .c3 [] c.idCredI sm c.ead3 (c.idCredI.length + asBstr sigOrMacSize + c.ead3.length)

/-- the inputs of an initiator that received message_2: of the hash for H(message_1), TH_2, TH_3 and TH_4, of the HMAC
for PRK_out -/
def initInputs (cfg : ECfg) (C : ECrypto) (c : ICtx) (creds : List Cred) (crBuf m2 : Bytes) (L : Nat) : R Inputs := do
  let v ← initView cfg C c creds crBuf m2
  let (_, suite, st) ← initResult cfg C c creds crBuf m2
  let p3 ← plaintext3Of cfg C c suite st
  let th4 ← th34Calc cfg C st.th3 p3 c.credI
  pure ⟨[v.m1, th2In v.gY (C.hash v.m1), thIn v.th2 v.p2 v.credR, thIn st.th3 p3 c.credI], [(st.prk4e3m, kdfIn 7 th4 L)]⟩

/-! ### the responder -/

/-- what a responder computes from the received message_1: its fields, TH_2, G_XY, plaintext_2 -/
structure RView where
  p : Parsed1
  suite : Suite
  th2 : Bytes
  gxy : Bytes
  p2 : Bytes

/-- responder.c:170-230 -/
def respView (cfg : ECfg) (C : ECrypto) (c : RCtx) (cICap : Nat) (m1 : Bytes) : R RView := do
  let p ← msg1Parse cfg m1 cICap (List.replicate cfg.eadSize 0)
  let suite ← getSuite (p.suites.getLastD 0).toNat
  let th2 ← th2Calc C (C.hash m1) c.gY
  let gxy ← sharedSecret C suite.ecdh c.y p.gX
  let prk3e2m ← prkDerive cfg C (authType p.method (false, false)).2 suite 1 th2 (hkdfExtract C.toCrypto th2 gxy) p.gX c.r
  let (_, p2) ← ctxt2Gen cfg C c suite (authType p.method (false, false)).2 (hkdfExtract C.toCrypto th2 gxy) prk3e2m th2
  pure ⟨p, suite, th2, gxy, p2⟩

/-- What a responder computes from message_1 and message_3: `edhoc_responder_run` without the network. -/
def respResult (cfg : ECfg) (C : ECrypto) (c : RCtx) (creds : List Cred) (cICap L : Nat) (m1 m3 : Bytes) : R (Suite × ROut) := do
  let (_, rs) ← msg2Gen cfg C c m1 cICap (List.replicate cfg.eadSize 0)
  let o ← msg3Process cfg C c creds rs m3 L
  pure (rs.suite, ⟨rs.cI, o.prkOut, o.pk, o.th4, o.prk4e3m⟩)

/-- plaintext_3 as received and the credential found for its ID_CRED_I (responder.c:246-290) -/
def respPlaintext3 (cfg : ECfg) (C : ECrypto) (creds : List Cred) (rs : RState) (m3 : Bytes) : R (Bytes × Bytes) := do
  let ct ← decodeBstr cfg m3 m3.length
  let p3 ← ctxtDecrypt cfg C .c3 rs.suite rs.prk3e2m rs.th3 ct
  let sp ← plaintext3Split cfg p3 cfg.idCredISize rs.ead.length
  let (credI, _, _) ← retrieveCred cfg C rs.staticDhI creds sp.idCred cfg.credISize
  pure (p3, credI)

/-- the inputs of a responder that received message_1 and message_3 -/
def respInputs (cfg : ECfg) (C : ECrypto) (c : RCtx) (creds : List Cred) (cICap : Nat) (m1 m3 : Bytes) (L : Nat) : R Inputs := do
  let w ← respView cfg C c cICap m1
  let (_, rs) ← msg2Gen cfg C c m1 cICap (List.replicate cfg.eadSize 0)
  let (p3, credI) ← respPlaintext3 cfg C creds rs m3
  let o ← msg3Process cfg C c creds rs m3 L
  pure ⟨[m1, th2In c.gY (C.hash m1), thIn w.th2 w.p2 c.credR, thIn rs.th3 p3 credI], [(o.prk4e3m, kdfIn 7 o.th4 L)]⟩

/-! ### evaluation -/

theorem initView_eq {cfg : ECfg} {C : ECrypto} {c : ICtx} {creds : List Cred} {crBuf m1 m2 h1 gY c2 gxy th2 p2 cR credR pkR gR : Bytes}
    {suite : Suite} {sp : Split} (e1 : msg1Gen cfg C c = .ok (m1, suite, h1))
    (e2 : msg2Parse cfg m2 (ctxt2Len m2.length) = .ok (gY, c2)) (e3 : sharedSecret C suite.ecdh c.x gY = .ok gxy)
    (e4 : th2Calc C (C.hash m1) gY = .ok th2)
    (e5 : ctxtDecrypt cfg C .c2 suite (hkdfExtract C.toCrypto th2 gxy) th2 c2 = .ok p2)
    (e6 : plaintext2Split cfg p2 crBuf.length cfg.idCredRSize cfg.eadSize = .ok (cR, sp))
    (e7 : retrieveCred cfg C (authType c.method (false, false)).2 creds sp.idCred cfg.credRSize = .ok (credR, pkR, gR)) :
    initView cfg C c creds crBuf m2 = .ok ⟨m1, suite, gY, gxy, th2, p2, cR, sp, credR, pkR⟩ := by
  unfold initView
  rw [e1, R.ok_bind]
  dsimp only
  rw [e2, R.ok_bind]
  dsimp only
  rw [e3, R.ok_bind, e4, R.ok_bind, e5, R.ok_bind, e6, R.ok_bind]
  dsimp only
  rw [e7, R.ok_bind]
  rfl

theorem initResult_eq {cfg : ECfg} {C : ECrypto} {c : ICtx} {creds : List Cred} {crBuf m1 m2 h1 : Bytes} {suite : Suite} {st : IState}
    (e1 : msg1Gen cfg C c = .ok (m1, suite, h1))
    (e2 : msg2Process cfg C c creds suite h1 m2 (authType c.method (false, false)).1 (authType c.method (false, false)).2 crBuf
        (List.replicate cfg.eadSize 0) = .ok st) : initResult cfg C c creds crBuf m2 = .ok (m1, suite, st) := by
  unfold initResult
  rw [e1, R.ok_bind]
  dsimp only
  rw [e2, R.ok_bind]
  rfl

theorem initInputs_eq {cfg : ECfg} {C : ECrypto} {c : ICtx} {creds : List Cred} {crBuf m1 m2 p3 th4 sm : Bytes} {L : Nat} {suite : Suite}
    {st : IState} {v : IView} (e1 : initView cfg C c creds crBuf m2 = .ok v)
    (e2 : initResult cfg C c creds crBuf m2 = .ok (m1, suite, st))
    (e3 : sigOrMacGen cfg C (authType c.method (false, false)).1 suite c.skI c.pkI st.prk4e3m [] [] st.th3 c.idCredI c.credI c.ead3 6 = .ok sm)
    (e4 : plaintextGen cfg .c3 [] c.idCredI sm c.ead3 (c.idCredI.length + asBstr sigOrMacSize + c.ead3.length) = .ok p3)
    (e5 : th34Calc cfg C st.th3 p3 c.credI = .ok th4) :
    initInputs cfg C c creds crBuf m2 L = .ok ⟨[v.m1, th2In v.gY (C.hash v.m1), thIn v.th2 v.p2 v.credR, thIn st.th3 p3 c.credI],
      [(st.prk4e3m, kdfIn 7 th4 L)]⟩ := by
  unfold initInputs plaintext3Of
  rw [e1, R.ok_bind, e2, R.ok_bind]
  dsimp only
  rw [e3, R.ok_bind, e4, R.ok_bind, e5, R.ok_bind]
  rfl

theorem respView_eq {cfg : ECfg} {C : ECrypto} {c : RCtx} {cICap : Nat} {m1 th2 gxy prk3 c2 p2 : Bytes} {p : Parsed1} {suite : Suite}
    (e1 : msg1Parse cfg m1 cICap (List.replicate cfg.eadSize 0) = .ok p) (e2 : getSuite (p.suites.getLastD 0).toNat = .ok suite)
    (e3 : th2Calc C (C.hash m1) c.gY = .ok th2) (e4 : sharedSecret C suite.ecdh c.y p.gX = .ok gxy)
    (e5 : prkDerive cfg C (authType p.method (false, false)).2 suite 1 th2 (hkdfExtract C.toCrypto th2 gxy) p.gX c.r = .ok prk3)
    (e6 : ctxt2Gen cfg C c suite (authType p.method (false, false)).2 (hkdfExtract C.toCrypto th2 gxy) prk3 th2 = .ok (c2, p2)) :
    respView cfg C c cICap m1 = .ok ⟨p, suite, th2, gxy, p2⟩ := by
  unfold respView
  rw [e1, R.ok_bind, e2, R.ok_bind, e3, R.ok_bind, e4, R.ok_bind, e5, R.ok_bind, e6, R.ok_bind]
  rfl

theorem respInputs_eq {cfg : ECfg} {C : ECrypto} {c : RCtx} {creds : List Cred} {cICap L : Nat} {m1 m2 m3 ct p3 credI pk g : Bytes}
    {w : RView} {rs : RState} {sp : Split} {o : R3Out} (e1 : respView cfg C c cICap m1 = .ok w)
    (e2 : msg2Gen cfg C c m1 cICap (List.replicate cfg.eadSize 0) = .ok (m2, rs)) (e3 : decodeBstr cfg m3 m3.length = .ok ct)
    (e4 : ctxtDecrypt cfg C .c3 rs.suite rs.prk3e2m rs.th3 ct = .ok p3)
    (e5 : plaintext3Split cfg p3 cfg.idCredISize rs.ead.length = .ok sp)
    (e6 : retrieveCred cfg C rs.staticDhI creds sp.idCred cfg.credISize = .ok (credI, pk, g))
    (e7 : msg3Process cfg C c creds rs m3 L = .ok o) :
    respInputs cfg C c creds cICap m1 m3 L = .ok ⟨[m1, th2In c.gY (C.hash m1), thIn w.th2 w.p2 c.credR, thIn rs.th3 p3 credI],
      [(o.prk4e3m, kdfIn 7 o.th4 L)]⟩ := by
  unfold respInputs respPlaintext3
  rw [e1, R.ok_bind, e2, R.ok_bind]
  dsimp only
  rw [e3, R.ok_bind, e4, R.ok_bind, e5, R.ok_bind, e6, R.ok_bind]
  dsimp only
  rw [R.pure_eq, R.ok_bind]
  dsimp only
  rw [e7, R.ok_bind]
  rfl

end Verif.Edhoc
