import Verif.Props.Association
/-
C97: two associations side by side meet the hypotheses of the theorems in `Association.lean`.
-/
namespace Verif.Edhoc
open Verif Verif.Cbor

/-- the use of OSCORE in the example -/
def exUse (hist : List Op) : Use := ⟨[], exCfg, .ok 0, List.replicate 13 0, exJunk, 0, hist⟩

def exParamsI (r : IRun) : InitParams := (oscoreParams r.cfg twoE (r.o.prkOut.getD []) r.o.cR r.c.cI []).getD (exClientParams true)
def exParamsR (r : RRun) : InitParams := (oscoreParams r.cfg twoE r.o.prkOut r.o.cI r.c.cR []).getD (exServerParams true)
def exCtx (p : InitParams) : Ctx := (contextInit exCfg twoE.toCrypto p (.ok 0) (List.replicate 13 0) exJunk).getD exServer

/-- first association: initiator and responder; second association -/
def exI1 : IRun := mkI (toyI 0) exP2
def exR1 : RRun := mkR toyR [exP1, exP3]
def exI2 : IRun := mkI toyI' exInj2
def exR2 : RRun := mkR toyR' [exInj1, exInj3]

def exCI1 : Ctx := exCtx (exParamsI exI1)
def exCR1 : Ctx := exCtx (exParamsR exR1)
def exCI2 : Ctx := exCtx (exParamsI exI2)
def exCR2 : Ctx := exCtx (exParamsR exR2)

/-- the initiators each send one request -/
def exEI1 : Endpoint := .init exI1 (exUse [.protect exGet 256 none])
def exEI2 : Endpoint := .init exI2 (exUse [.protect exGet2 256 none])

/-- the packets of the two initiators -/
def exA1 : Bytes := ((step exCfg twoE.toCrypto ⟨exCI1, 0, []⟩ (.protect exGet 256 none)).1).getD []
def exA2 : Bytes := ((step exCfg twoE.toCrypto ⟨exCI2, 0, []⟩ (.protect exGet2 256 none)).1).getD []

/-- the first responder gets its initiator's packet, the packet of the other association, and the first packet again -/
def exER1 : Endpoint := .resp exR1 (exUse [.unprotect exA1 256, .unprotect exA2 256, .unprotect exA1 256])
def exER2 : Endpoint := .resp exR2 (exUse [.unprotect exA2 256])

/-- everybody else -/
def exAll : Endpoint → Prop := (· ∈ [exEI1, exEI2, exER2])

theorem exUp_I {r : IRun} {hist : List Op} (hc : r.Completed twoE) (hL : r.L = 32)
    (h : (match r.o.prkOut with | some _ => true | none => false) = true)
    (hp : (oscoreParams r.cfg twoE (r.o.prkOut.getD []) r.o.cR r.c.cI []).isOk = true)
    (hi : (contextInit exCfg twoE.toCrypto (exParamsI r) (.ok 0) (List.replicate 13 0) exJunk).isOk = true) :
    (Endpoint.init r (exUse hist)).Up twoE (r.o.prkOut.getD []) (exCtx (exParamsI r)) := by
  refine ⟨hc, hL, ?_, exParamsI r, R.eq_getD _ hp, R.eq_getD _ hi⟩
  cases h' : r.o.prkOut with
  | some k => rfl
  | none => rw [h'] at h; cases h

theorem exUp_R {r : RRun} {hist : List Op} (hc : r.Completed twoE) (hL : r.L = 32)
    (hp : (oscoreParams r.cfg twoE r.o.prkOut r.o.cI r.c.cR []).isOk = true)
    (hi : (contextInit exCfg twoE.toCrypto (exParamsR r) (.ok 0) (List.replicate 13 0) exJunk).isOk = true) :
    (Endpoint.resp r (exUse hist)).Up twoE r.o.prkOut (exCtx (exParamsR r)) :=
  ⟨hc, hL, rfl, exParamsR r, R.eq_getD _ hp, R.eq_getD _ hi⟩

theorem exEI1_up : exEI1.Up twoE (exI1.o.prkOut.getD []) exCI1 :=
  exUp_I (iCompleted _ _ (by decide +kernel)) rfl (by decide +kernel) (by decide +kernel) (by decide +kernel)
theorem exEI2_up : exEI2.Up twoE (exI2.o.prkOut.getD []) exCI2 :=
  exUp_I (iCompleted _ _ (by decide +kernel)) rfl (by decide +kernel) (by decide +kernel) (by decide +kernel)
theorem exER1_up : exER1.Up twoE exR1.o.prkOut exCR1 :=
  exUp_R (rCompleted _ _ (by decide +kernel)) rfl (by decide +kernel) (by decide +kernel)
theorem exER2_up : exER2.Up twoE exR2.o.prkOut exCR2 :=
  exUp_R (rCompleted _ _ (by decide +kernel)) rfl (by decide +kernel) (by decide +kernel)

/-- the inputs of a run -/
def Endpoint.inputs (C : ECrypto) : Endpoint → R Inputs
  | .init r _ => match r.n.rxq with
    | .inr m2 :: _ => initInputs r.cfg C r.c r.creds r.crBuf m2 32
    | _ => .ub
  | .resp r _ => match r.n.rxq with
    | .inr m1 :: .inr m3 :: _ => respInputs r.cfg C r.c r.creds r.cICap m1 m3 32
    | _ => .ub

theorem Hashed_inputs {C : ECrypto} {E : Endpoint} {w : Inputs} (h : E.Hashed C w) : E.inputs C = .ok w := by
  cases E with
  | init r u =>
    obtain ⟨m2, h1, h2⟩ := h
    unfold Endpoint.inputs
    dsimp only
    split
    · rename_i hq
      rw [hq] at h1
      obtain rfl := Sum.inr.inj (Option.some.inj h1)
      exact h2
    · rename_i hq
      cases hr : r.n.rxq with
      | nil => rw [hr] at h1; cases h1
      | cons a l =>
        rw [hr] at h1
        obtain rfl := Option.some.inj h1
        exact absurd hr (hq _ _)
  | resp r u =>
    obtain ⟨m1, m3, q, h1, h2⟩ := h
    unfold Endpoint.inputs
    dsimp only
    rw [h1]
    exact h2

def noClash (C : ECrypto) (E E' : Endpoint) : Bool :=
  match E.inputs C, E'.inputs C with
  | .ok a, .ok b => !clashB C a b
  | _, _ => true

theorem not_collided {E E' : Endpoint} {prk prk' : Bytes} {c c' : Ctx} (h1 : noClash twoE E E' = true)
    (h2 : decide ((prk, E.use.idContext, c.recipientId) = (prk', E'.use.idContext, c'.senderId)) ||
      decide (oscoreKey twoE prk E.use.idContext c.recipientId ≠ oscoreKey twoE prk' E'.use.idContext c'.senderId) = true) :
    ¬ Collided twoE E prk c E' prk' c' := by
  rintro (⟨w, w', hw, hw', hc⟩ | ⟨k1, k2⟩)
  · unfold noClash at h1
    rw [Hashed_inputs hw, Hashed_inputs hw'] at h1
    dsimp only at h1
    rw [clashB_iff.2 hc] at h1
    cases h1
  · simp only [Bool.or_eq_true, decide_eq_true_eq] at h2
    rcases h2 with h2 | h2
    · exact k1 h2
    · exact h2 k2

theorem exCollided : ∀ E' prk' c', exAll E' → E'.Up twoE prk' c' → ¬ Collided twoE exER1 exR1.o.prkOut exCR1 E' prk' c' := by
  intro E' prk' c' hE hup
  simp only [exAll, List.mem_cons, List.not_mem_nil, or_false] at hE
  rcases hE with rfl | rfl | rfl
  · obtain ⟨rfl, rfl⟩ := hup.unique exEI1_up
    exact not_collided (by decide +kernel) (by decide +kernel)
  · obtain ⟨rfl, rfl⟩ := hup.unique exEI2_up
    exact not_collided (by decide +kernel) (by decide +kernel)
  · obtain ⟨rfl, rfl⟩ := hup.unique exER2_up
    exact not_collided (by decide +kernel) (by decide +kernel)

/-- with what a request is checked -/
theorem checked_request {c c' : Ctx} (hi : SameIdentity c c') {inp n a ct piv kid : Bytes} {p : Pkt} {t : List (Opt × Bytes)}
    {o : OscOpt} (hp : coapParse inp = .ok (p, t)) (ho : oscoreOptionParser t = .ok o) (hr : o.read = .ok (piv, kid))
    (hq : isRequest p = true) (hl : c.commonIv.length = 13) (h : Checked c' inp n a ct) :
    n = Rfc8613.nonce c.recipientId piv c.commonIv ∧ a = Rfc8613.aad c.recipientId piv ∧ ct = p.payload := by
  cases h with
  | request g hreq hn =>
    obtain ⟨t', o', g1, g2, g3⟩ := g
    rw [hp] at g1
    obtain ⟨rfl, rfl⟩ := Prod.mk.inj (R.ok.inj g1)
    obtain rfl := R.ok.inj (ho.symm.trans g2)
    rw [hr] at g3
    obtain ⟨rfl, -⟩ := Prod.mk.inj (R.ok.inj g3)
    refine ⟨?_, by rw [hi.recipientId], rfl⟩
    rw [← hi.recipientId, ← hi.commonIv]
    exact hn (by rw [hi.commonIv]; exact hl)
  | ownPiv g hrsp =>
    obtain ⟨t', o', g1, g2, g3⟩ := g
    rw [hp] at g1
    obtain ⟨rfl, rfl⟩ := Prod.mk.inj (R.ok.inj g1)
    rw [hq] at hrsp; cases hrsp
  | samePiv g1 _ _ hrsp =>
    rw [hp] at g1
    obtain ⟨rfl, rfl⟩ := Prod.mk.inj (R.ok.inj g1)
    rw [hq] at hrsp; cases hrsp

/-- parts of a packet -/
def partsOf (inp : Bytes) : R (Pkt × Bytes × Bytes) := do
  let (p, t) ← coapParse inp
  let o ← oscoreOptionParser t
  let (piv, kid) ← o.read
  pure (p, piv, kid)

theorem partsOf_ok {inp : Bytes} {x : Pkt × Bytes × Bytes} (h : partsOf inp = .ok x) :
    ∃ t o, coapParse inp = .ok (x.1, t) ∧ oscoreOptionParser t = .ok o ∧ o.read = .ok (x.2.1, x.2.2) := by
  unfold partsOf at h
  obtain ⟨⟨p, t⟩, h1, h⟩ := R.bind_eq_ok.1 h
  obtain ⟨o, h2, h⟩ := R.bind_eq_ok.1 h
  obtain ⟨⟨piv, kid⟩, h3, h⟩ := R.bind_eq_ok.1 h
  obtain rfl := R.ok.inj h
  exact ⟨t, o, h1, h2, h3⟩

def exParts (inp : Bytes) : Pkt × Bytes × Bytes := (partsOf inp).getD (⟨0, 0, 0, 0, [], [], []⟩, [], [])

/-- what the first responder gets when it decrypts this request -/
def exDec (inp : Bytes) : Option Bytes :=
  twoE.aeadDec exCR1.recipientKey (Rfc8613.nonce exCR1.recipientId (exParts inp).2.1 exCR1.commonIv)
    (Rfc8613.aad exCR1.recipientId (exParts inp).2.1) 8 (exParts inp).1.payload

def exCall1 : EncCall := ((exEI1.encrypted twoE exCI1)[0]?).getD ⟨[], [], [], [], none⟩

theorem exUnforged : Unforged twoE exAll exER1 exCR1 := by
  intro before inp cap later hh n a ct pt hc hd
  have hid : SameIdentity exCR1 (exER1.after twoE exCR1 before).ctx := run_identity _ _ ⟨exCR1, exER1.use.nvm, []⟩ before
  have hl : exCR1.commonIv.length = 13 := by decide +kernel
  have hm : Op.unprotect inp cap ∈ exER1.use.hist := by rw [hh]; simp
  have hin : inp = exA1 ∨ inp = exA2 := by
    simp only [exER1, Endpoint.use, exUse, List.mem_cons, Op.unprotect.injEq, List.not_mem_nil, or_false] at hm
    rcases hm with ⟨e, _⟩ | ⟨e, _⟩ | ⟨e, _⟩
    · exact .inl e
    · exact .inr e
    · exact .inl e
  rcases hin with rfl | rfl
  · obtain ⟨t, o, g1, g2, g3⟩ := partsOf_ok (show partsOf exA1 = .ok (exParts exA1) from R.eq_getD _ (by decide +kernel))
    obtain ⟨rfl, rfl, rfl⟩ := checked_request hid g1 g2 g3 (by decide +kernel) hl hc
    refine ⟨exEI1, _, _, by simp [exAll], exEI1_up, exCall1, ?_, by decide +kernel, by decide +kernel, by decide +kernel, ?_⟩
    · have : exEI1.encrypted twoE exCI1 = [exCall1] := by decide +kernel
      rw [this]; simp
    · have e : exDec exA1 = some exCall1.pt := by decide +kernel
      exact Option.some.inj (e.symm.trans hd)
  · obtain ⟨t, o, g1, g2, g3⟩ := partsOf_ok (show partsOf exA2 = .ok (exParts exA2) from R.eq_getD _ (by decide +kernel))
    obtain ⟨rfl, rfl, rfl⟩ := checked_request hid g1 g2 g3 (by decide +kernel) hl hc
    have e : exDec exA2 = none := by decide +kernel
    exact absurd (e.symm.trans hd) (by simp)

theorem exSane : ∀ E', exAll E' → E'.Sane := by
  intro E' hE
  simp only [exAll, List.mem_cons, List.not_mem_nil, or_false] at hE
  rcases hE with rfl | rfl | rfl
  · simp only [exEI1, Endpoint.Sane]; decide +kernel
  · simp only [exEI2, Endpoint.Sane]; decide +kernel
  · simp only [exER2, Endpoint.Sane]; decide +kernel

/-- The hypotheses of the C97 theorems are met, and of the three packets that reach the responder one is delivered: the
request of its own initiator, once; the request of the other association is not. -/
theorem C97_example :
    twoE.Lawful ∧ exER1.Up twoE exR1.o.prkOut exCR1 ∧ exER1.Sane ∧ (∀ E', exAll E' → E'.Sane) ∧
    exCR1.senderId ≠ exCR1.recipientId ∧ Unforged twoE exAll exER1 exCR1 ∧
    (∀ E' prk' c', exAll E' → E'.Up twoE prk' c' → ¬ Collided twoE exER1 exR1.o.prkOut exCR1 E' prk' c') ∧
    (∀ E', exAll E' → SameEphemeral exER1 E' → E' = exER1) ∧
    (∀ E1 E2, exAll E1 → exAll E2 → SameEphemeral E1 E2 → E1 = E2) ∧ 0 < exER1.use.cfg.windowSize ∧
    (∀ E', exAll E' → ∀ inp0 cap0 nvmW p0, Op.protect inp0 cap0 nvmW ∈ E'.use.hist → coapDeserialize inp0 = .ok p0 →
      InnerOk E'.use.cfg p0 ∧ isRequest p0 = true) ∧
    requestsDelivered exER1.use.cfg twoE.toCrypto ⟨exCR1, exER1.use.nvm, []⟩ exER1.use.hist = [(exA1, exGet)] ∧
    earlyNumber (exA1, exGet) = true ∧ OtherEnd twoE exER1 exR1.o.prkOut exCR1 exEI1 exCI1 := by
  have h1 : (toyI 0).gX ≠ toyI'.gX := by decide
  have h2 : toyR.gY ≠ toyR'.gY := by decide
  have hown : ∀ E', exAll E' → SameEphemeral exER1 E' → E' = exER1 := by
    intro E' hE hs
    simp only [exAll, List.mem_cons, List.not_mem_nil, or_false] at hE
    rcases hE with rfl | rfl | rfl
    · cases hs
    · cases hs
    · exact absurd hs h2
  have hids : exCR1.senderId ≠ exCR1.recipientId := by decide +kernel
  refine ⟨twoE_lawful, exER1_up, ?_, exSane, hids, exUnforged, exCollided, hown, ?_, by decide, ?_, by decide +kernel,
    by decide +kernel, ?_⟩
  · simp only [exER1, Endpoint.Sane]; decide +kernel
  · intro E1 E2 g1 g2 hs
    simp only [exAll, List.mem_cons, List.not_mem_nil, or_false] at g1 g2
    rcases g1 with rfl | rfl | rfl <;> rcases g2 with rfl | rfl | rfl
    · rfl
    · exact absurd hs h1
    · cases hs
    · exact absurd hs.symm h1
    · rfl
    · cases hs
    · cases hs
    · cases hs
    · rfl
  · intro E' hE inp0 cap0 nvmW p0 hm hp
    simp only [exAll, List.mem_cons, List.not_mem_nil, or_false] at hE
    rcases hE with rfl | rfl | rfl
    · exact exGet_calls inp0 cap0 nvmW p0 hm hp
    · simp only [exEI2, Endpoint.use, exUse, List.mem_singleton, Op.protect.injEq] at hm
      obtain ⟨rfl, _, _⟩ := hm
      have e : coapDeserialize exGet2 = .ok ((coapDeserialize exGet2).getD ⟨0, 0, 0, 0, [], [], []⟩) :=
        R.eq_getD _ (by decide +kernel)
      rw [R.ok.inj (hp.symm.trans e)]
      refine ⟨?_, by decide +kernel⟩
      constructor <;> decide +kernel
    · simp [exER2, Endpoint.use, exUse] at hm
  · rcases other_end twoE_lawful exER1_up exEI1_up (by simp only [exER1, Endpoint.Sane]; decide +kernel)
      (exSane _ (by simp [exAll])) (by decide +kernel) hids (hown _ (by simp [exAll])) with hx | ⟨_, ho⟩
    · exact absurd hx (exCollided _ _ _ (by simp [exAll]) exEI1_up)
    · have e : exI1.o.prkOut.getD [] = exR1.o.prkOut := by decide +kernel
      exact ho

/-! ### C_I = C_R -/

/-- an initiator whose C_I is the C_R the responder will choose, and the messages of its run with that responder -/
def refI : ICtx := { toyI 0 with cI := toyR.cR }
def ref1 : Bytes := match msg1Gen {} toyE refI with | .ok (m, _) => m | _ => []
def ref2 : Bytes := match msg2Gen {} toyE toyR ref1 10 [] with | .ok (m, _) => m | _ => []
def ref3 : Bytes :=
  match initiatorRun {} toyE refI toyCredsR (List.replicate 10 0) 32 (netOf [ref2]) with | (_, n) => n.sent.getLastD []

def refIRun : IRun :=
  ⟨{}, refI, toyCredsR, List.replicate 10 0, 32, netOf [ref2],
    (initiatorRun {} toyE refI toyCredsR (List.replicate 10 0) 32 (netOf [ref2])).2,
    iOutOf (initiatorRun {} toyE refI toyCredsR (List.replicate 10 0) 32 (netOf [ref2]))⟩
def refRRun : RRun :=
  ⟨{}, toyR, toyCredsI, 10, 32, netOf [ref1, ref3], (responderRun {} toyE toyR toyCredsI 10 32 (netOf [ref1, ref3])).2,
    rOutOf (responderRun {} toyE toyR toyCredsI 10 32 (netOf [ref1, ref3]))⟩

def refParamsI : InitParams :=
  (oscoreParams refIRun.cfg toyE (refIRun.o.prkOut.getD []) refIRun.o.cR refI.cI []).getD (exClientParams true)
def refParamsR : InitParams := (oscoreParams refRRun.cfg toyE refRRun.o.prkOut refRRun.o.cI toyR.cR []).getD (exServerParams true)
def refCI : Ctx := (contextInit exCfg toyCrypto refParamsI (.ok 0) (List.replicate 13 0) exJunk).getD exServer
def refCR : Ctx := (contextInit exCfg toyCrypto refParamsR (.ok 0) (List.replicate 13 0) exJunk).getD exServer

/-- its first request -/
def refA : Bytes := ((step exCfg toyCrypto ⟨refCI, 0, []⟩ (.protect exGet 256 none)).1).getD []

/-- **C97 is false when C_I = C_R**, which the library does not exclude (`C57_false_run`): a run of EDHOC completes on both
sides with the same PRK_out, the responder never sends anything, and the initiator, which got its own request back from the
network, hands it to its application as a request of the peer. -/
theorem C97_false_reflection :
    (Endpoint.init refIRun (exUse [.protect exGet 256 none, .unprotect refA 256])).Up toyE refRRun.o.prkOut refCI ∧
    (Endpoint.resp refRRun (exUse [])).Up toyE refRRun.o.prkOut refCR ∧
    (step exCfg toyCrypto ⟨refCI, 0, []⟩ (.protect exGet 256 none)).1 = .ok refA ∧
    requestsDelivered exCfg toyCrypto ⟨refCI, 0, []⟩ [.protect exGet 256 none, .unprotect refA 256] = [(refA, exGet)] := by
  refine ⟨⟨?_, rfl, by decide +kernel, refParamsI, ?_, R.eq_getD _ (by decide +kernel)⟩,
    ⟨?_, rfl, rfl, refParamsR, R.eq_getD _ (by decide +kernel), R.eq_getD _ (by decide +kernel)⟩, R.eq_getD _ (by decide +kernel),
    by decide +kernel⟩
  · have h : (match (initiatorRun {} toyE refI toyCredsR (List.replicate 10 0) 32 (netOf [ref2])).1 with
      | .ok _ => true | _ => false) = true := by decide +kernel
    unfold IRun.Completed refIRun iOutOf
    dsimp only
    generalize initiatorRun {} toyE refI toyCredsR (List.replicate 10 0) 32 (netOf [ref2]) = x at *
    obtain ⟨r, n⟩ := x
    cases r with
    | ok o => rfl
    | err e => cases h
    | ub => cases h
  · rw [show refRRun.o.prkOut = refIRun.o.prkOut.getD [] by decide +kernel]
    exact R.eq_getD _ (by decide +kernel)
  · have h : (match (responderRun {} toyE toyR toyCredsI 10 32 (netOf [ref1, ref3])).1 with
      | .ok _ => true | _ => false) = true := by decide +kernel
    unfold RRun.Completed refRRun rOutOf
    dsimp only
    generalize responderRun {} toyE toyR toyCredsI 10 32 (netOf [ref1, ref3]) = x at *
    obtain ⟨r, n⟩ := x
    cases r with
    | ok o => rfl
    | err e => cases h
    | ub => cases h

end Verif.Edhoc
