import Verif.Props.Wire
import Verif.Lemmas.CheckedLemmas
/-
Property C92: what an observer of the network can tell from a whole history of calls.
-/
namespace Verif

/-! ### specification -/

/-- The calls of the AEAD made between two states -/
def newCalls (w w' : World) : List EncCall := w'.log.take (w'.log.length - w.log.length)

/-- What one call puts on the network, with the encryptions made for it -/
def sentByCall (cfg : Cfg) (C : Crypto) (w : World) (op : Op) : List (Bytes × List EncCall) :=
  match op, (step cfg C w op).1 with
  | .protect _ _ _, .ok b => [(b, newCalls w (step cfg C w op).2)]
  | _, _ => []

/-- What a history of calls puts on the network -/
def traffic (cfg : Cfg) (C : Crypto) : World → List Op → List (Bytes × List EncCall)
  | _, [] => []
  | w, op :: h => sentByCall cfg C w op ++ traffic cfg C (step cfg C w op).2 h

/-- Two received packets that differ at most in the ciphertext -/
def SameOutside (inp₁ inp₂ : Bytes) : Prop :=
  ∃ p₁ p₂ piv kid, HasOption inp₁ p₁ piv kid ∧ HasOption inp₂ p₂ piv kid ∧ { p₁ with payload := [] } = { p₂ with payload := [] }

/-- Two calls that look the same from outside: messages to protect with the same public part, the same empty ACK, or received packets
that differ in the ciphertext only.  Code, class E options and payload, and what the received ciphertexts contain, may be different. -/
inductive SameShape : Op → Op → Prop
  | send {inp₁ inp₂ cap₁ cap₂ nvmW p₁ p₂} (h₁ : coapDeserialize inp₁ = .ok p₁) (h₂ : coapDeserialize inp₂ = .ok p₂)
      (a₁ : ¬(p₁.type = 2 ∧ p₁.code = 0)) (a₂ : ¬(p₂.type = 2 ∧ p₂.code = 0)) (hp : SamePublic p₁ p₂) :
      SameShape (.protect inp₁ cap₁ nvmW) (.protect inp₂ cap₂ nvmW)
  | ack {inp cap₁ cap₂ nvmW p} (h : coapDeserialize inp = .ok p) (a : p.type = 2 ∧ p.code = 0) :
      SameShape (.protect inp cap₁ nvmW) (.protect inp cap₂ nvmW)
  | receive {inp₁ inp₂ cap₁ cap₂} (h : SameOutside inp₁ inp₂) : SameShape (.unprotect inp₁ cap₁) (.unprotect inp₂ cap₂)

/-- How a call ended -/
inductive Ends (cfg : Cfg) (C : Crypto) (w : World) (op : Op) : Fin 3 → Prop
  /-- ok -/
  | ok {b} (h : (step cfg C w op).1 = .ok b) : Ends cfg C w op 0
  /-- a rebooted server got its first request and now waits for the Echo -/
  | challenge (h : w.ctx.echo = .reboot) (h' : (step cfg C w op).2.ctx.echo = .verify) (hr : ∀ b, (step cfg C w op).1 ≠ .ok b) :
      Ends cfg C w op 1
  /-- refused without any effect -/
  | refused (h : (step cfg C w op).2 = w) (hr : ∀ b, (step cfg C w op).1 ≠ .ok b) : Ends cfg C w op 2

/-- Two histories whose calls look the same one by one and end in the same way -/
inductive SameCourse (cfg : Cfg) (C : Crypto) : World → World → List Op → List Op → Prop
  | nil {w₁ w₂} : SameCourse cfg C w₁ w₂ [] []
  | cons {w₁ w₂ o₁ o₂ h₁ h₂ k} (hs : SameShape o₁ o₂) (e₁ : Ends cfg C w₁ o₁ k) (e₂ : Ends cfg C w₂ o₂ k)
      (hr : SameCourse cfg C (step cfg C w₁ o₁).2 (step cfg C w₂ o₂).2 h₁ h₂) : SameCourse cfg C w₁ w₂ (o₁ :: h₁) (o₂ :: h₂)

/-- Two packets that are equal, or equal up to ciphertexts that are the results of AEAD calls with the same key and the same nonce -/
def Alike (C : Crypto) (key : Bytes) (x y : Bytes × List EncCall) : Prop :=
  x = y ∧ x.2 = [] ∨
  ∃ pre ct₁ ct₂ e₁ e₂, x = (pre ++ ct₁, [e₁]) ∧ y = (pre ++ ct₂, [e₂]) ∧ Sealed C e₁ ct₁ ∧ Sealed C e₂ ct₂ ∧
    e₁.key = key ∧ e₂.key = key ∧ e₁.nonce = e₂.nonce ∧ e₁.newSsn = e₂.newSsn

/-- Packet by packet -/
def AllAlike (C : Crypto) (key : Bytes) (l₁ l₂ : List (Bytes × List EncCall)) : Prop :=
  l₁.length = l₂.length ∧ ∀ x ∈ l₁.zip l₂, Alike C key x.1 x.2

/-- The parts of the state that do not depend on confidential data: all but the table of outstanding requests (it has their paths)
and the cached Echo -/
def openPart (w : World) : Ctx × Nat := ({ w.ctx with inter := [], echoVal := [] }, w.nvm)


/-! ### receiving -/

/-- what receiving does to the open part of the context -/
def recvOpen (req obs : Bool) (piv kid : Bytes) (c : Ctx) : Ctx :=
  let c1 := if req = true ∨ piv ≠ [] then { c with nonce := (createNonce kid piv c.commonIv).getD [] } else c
  if req then
    match c.echo with
    | .reboot => { c1 with echo := .verify }
    | .verify => { c1 with window := c.window.reinit (beVal piv), echo := .synchronized }
    | .synchronized => { c1 with window := (c.window.update (piv.headD 0).toNat).2 }
  else if obs then { c1 with notifNum := beVal piv, notifInit := true } else c1

def openCtx (c : Ctx) : Ctx := { c with inter := [], echoVal := [] }

theorem decNonce_some {c : Ctx} {o : OscOpt} {piv kid n : Bytes} (ho : o.read = .ok (piv, kid)) (h : decNonce c (some o) = .ok n) :
    createNonce kid piv c.commonIv = .ok n := by
  unfold decNonce at h
  simp only [ho, R.ok_bind] at h
  exact h

theorem read_parts {o : OscOpt} {piv kid : Bytes} (h : o.read = .ok (piv, kid)) :
    o.piv.read = .ok piv ∧ o.kid.read = .ok kid ∧ (o.piv.len ≠ 0 ↔ piv ≠ []) := by
  unfold OscOpt.read at h
  obtain ⟨a, h1, h'⟩ := R.bind_eq_ok.1 h
  obtain ⟨b, h2, h''⟩ := R.bind_eq_ok.1 h'
  simp only [R.pure_eq, R.ok.injEq, Prod.mk.injEq] at h''
  obtain ⟨rfl, rfl⟩ := h''
  refine ⟨h1, h2, ?_⟩
  have := read_length h1
  rw [← this, Ne, List.length_eq_zero_iff]

theorem receive_open {cfg : Cfg} {C : Crypto} {w : World} {inp piv kid : Bytes} {cap : Nat} {p : Pkt} {k : Fin 3}
    (ho : HasOption inp p piv kid) (hk : k ≠ 2) (he : Ends cfg C w (.unprotect inp cap) k) :
    openPart (step cfg C w (.unprotect inp cap)).2 =
      (recvOpen (isRequest p) (isObserve p.opts) piv kid (openPart w).1, w.nvm) := by
  obtain ⟨t, o, hp, hpo, hrd⟩ := ho
  obtain ⟨hpr, hkr, hpl⟩ := read_parts hrd
  have hE := oscore2coap_effect cfg C inp cap w.ctx
  have hok : (∃ b, (oscore2coap cfg C inp cap w.ctx).1 = .ok b) ∨
      (w.ctx.echo = .reboot ∧ (oscore2coap cfg C inp cap w.ctx).2.echo = .verify) := by
    cases he with
    | ok h => exact .inl ⟨_, h⟩
    | challenge h h' _ => exact .inr ⟨h, h'⟩
    | refused => exact absurd rfl hk
  have goal : ∀ r c', UnprotectEffect cfg C inp cap w.ctx r c' →
      ((∃ b, r = .ok b) ∨ (w.ctx.echo = .reboot ∧ c'.echo = .verify)) →
      openCtx c' = recvOpen (isRequest p) (isObserve p.opts) piv kid (openCtx w.ctx) := by
    intro r c' h hres
    cases h with
    | unchanged hr =>
      rcases hres with ⟨b, hb⟩ | ⟨h1, h2⟩
      · exact absurd hb (hr b)
      · rw [h1] at h2; cases h2
    | reqFail _ _ _ _ _ _ hdec _ hr =>
      rcases hres with ⟨b, hb⟩ | ⟨h1, h2⟩
      · exact absurd hb (hr b)
      · rw [hdec.frame.2.2.2.2, h1] at h2; cases h2
    | rspFail _ _ _ _ _ hdec _ hr =>
      rcases hres with ⟨b, hb⟩ | ⟨h1, h2⟩
      · exact absurd hb (hr b)
      · rw [hdec.frame.2.2.2.2, h1] at h2; cases h2
    | reqOk hf hp' ho' hreq hkid hrep hdec hafter =>
      rw [hp] at hp'; cases hp'
      rw [hpo] at ho'; cases ho'
      cases hdec with
      | unchanged hr => exact absurd rfl (hr _)
      | auth hread hnonce haad hpt hres' =>
        have hn := decNonce_some hrd hnonce
        cases hafter with
        | reboot hec =>
          have hec' : w.ctx.echo = .reboot := hec
          unfold recvOpen openCtx
          simp only [hreq, hec', hn, R.getD, true_or, if_true]
        | verified hec _ hp2 =>
          have hec' : w.ctx.echo = .verify := hec
          rw [hpr] at hp2
          obtain rfl := R.ok.inj hp2
          unfold recvOpen openCtx
          simp only [hreq, hec', hn, R.getD, true_or, if_true]
        | recorded hec hp2 =>
          have hec' : w.ctx.echo = .synchronized := hec
          rw [hpr] at hp2
          obtain rfl := R.ok.inj hp2
          unfold recvOpen openCtx
          simp only [hreq, hec', hn, R.getD, true_or, if_true, List.headD_cons]
        | failed hr hec =>
          have hec' : w.ctx.echo = .verify := hec
          rcases hres with ⟨b, hb⟩ | ⟨h1, h2⟩
          · obtain ⟨x, hx, _⟩ := R.bind_eq_ok.1 hb
            exact absurd hx (hr x)
          · rw [hec'] at h1; cases h1
        | bad hr hec =>
          have hec' : w.ctx.echo = .synchronized := hec
          rcases hres with ⟨b, hb⟩ | ⟨h1, h2⟩
          · obtain ⟨x, hx, _⟩ := R.bind_eq_ok.1 hb
            exact absurd hx (hr x)
          · rw [hec'] at h1; cases h1
    | notifOk hf hp' ho' hreq hobs hl hpiv hchk hdec =>
      rw [hp] at hp'; cases hp'
      rw [hpo] at ho'; cases ho'
      rw [hpr] at hpiv
      obtain rfl := R.ok.inj hpiv
      cases hdec with
      | unchanged hr => exact absurd rfl (hr _)
      | auth hread hnonce haad hpt hres' =>
        have hn := decNonce_some hrd hnonce
        have hne := hpl.1 hl
        unfold recvOpen openCtx
        simp only [hreq, hobs, hn, R.getD, hne, ne_eq, not_false_eq_true, or_true, if_true, Bool.false_eq_true, if_false]
    | rspOk hf hp' ho' hreq hobs hopt hdec =>
      rw [hp] at hp'; cases hp'
      rw [hpo] at ho'; cases ho'
      cases hdec with
      | unchanged hr => exact absurd rfl (hr _)
      | auth hread hnonce haad hpt hres' =>
        by_cases hl : o.piv.len ≠ 0
        · rw [if_pos hl] at hopt
          subst hopt
          have hn := decNonce_some hrd hnonce
          have hne := hpl.1 hl
          unfold recvOpen openCtx
          simp only [hreq, hobs, hn, R.getD, hne, ne_eq, not_false_eq_true, or_true, if_true, Bool.false_eq_true, if_false]
        · rw [if_neg hl] at hopt
          subst hopt
          have hne : piv = [] := Classical.byContradiction (fun h => hl (hpl.2 h))
          have hn : w.ctx.nonce = _ := R.ok.inj hnonce
          unfold recvOpen openCtx
          simp only [hreq, hobs, hne, ne_eq, not_true_eq_false, or_false, Bool.false_eq_true, if_false, ← hn]
  have := goal _ _ hE hok
  unfold openPart
  exact Prod.ext this rfl


/-! ### sending -/

theorem openCtx_fields {a b : Ctx} (h : openCtx a = openCtx b) :
    a.fresh = b.fresh ∧ a.idContext = b.idContext ∧ a.commonIv = b.commonIv ∧ a.senderId = b.senderId ∧ a.senderKey = b.senderKey ∧
    a.ssn = b.ssn ∧ a.recipientId = b.recipientId ∧ a.recipientKey = b.recipientKey ∧ a.window = b.window ∧ a.notifNum = b.notifNum ∧
    a.notifInit = b.notifInit ∧ a.nonce = b.nonce ∧ a.echo = b.echo := by
  unfold openCtx at h
  simp only [Ctx.mk.injEq] at h
  obtain ⟨h1, h2, h3, h4, h5, h6, h7, h8, h9, h10, h11, h12, -, -, h13⟩ := h
  exact ⟨h1, h2, h3, h4, h5, h6, h7, h8, h9, h10, h11, h12, h13⟩

theorem openCtx_ext {a b : Ctx} (h1 : a.fresh = b.fresh) (h2 : a.idContext = b.idContext) (h3 : a.commonIv = b.commonIv)
    (h4 : a.senderId = b.senderId) (h5 : a.senderKey = b.senderKey) (h6 : a.ssn = b.ssn) (h7 : a.recipientId = b.recipientId)
    (h8 : a.recipientKey = b.recipientKey) (h9 : a.window = b.window) (h10 : a.notifNum = b.notifNum)
    (h11 : a.notifInit = b.notifInit) (h12 : a.nonce = b.nonce) (h13 : a.echo = b.echo) : openCtx a = openCtx b := by
  unfold openCtx
  rw [h1, h2, h3, h4, h5, h6, h7, h8, h9, h10, h11, h12, h13]

theorem newCalls_one {w w' : World} {e : EncCall} (h : w'.log = e :: w.log) : newCalls w w' = [e] := by
  unfold newCalls
  rw [h]
  simp only [List.length_cons]
  rw [show w.log.length + 1 - w.log.length = 1 by omega]
  rfl

theorem newCalls_none (w : World) : newCalls w w = [] := by unfold newCalls; simp

theorem send_open {cfg : Cfg} {C : Crypto} (hlen : ∀ k n a t p c, C.aeadEnc k n a t p = some c → c.length = p.length + t)
    {nvmW : Option Err} {inp₁ inp₂ b₁ b₂ : Bytes} {cap₁ cap₂ : Nat} {w₁ w₂ : World} {p₁ p₂ : Pkt}
    (hp₁ : coapDeserialize inp₁ = .ok p₁) (hp₂ : coapDeserialize inp₂ = .ok p₂)
    (ha₁ : ¬(p₁.type = 2 ∧ p₁.code = 0)) (ha₂ : ¬(p₂.type = 2 ∧ p₂.code = 0)) (hpub : SamePublic p₁ p₂)
    (hw : openPart w₁ = openPart w₂)
    (h₁ : (coap2oscore cfg C nvmW inp₁ cap₁ w₁).1 = .ok b₁) (h₂ : (coap2oscore cfg C nvmW inp₂ cap₂ w₂).1 = .ok b₂) :
    Alike C w₁.ctx.senderKey (b₁, newCalls w₁ (coap2oscore cfg C nvmW inp₁ cap₁ w₁).2) (b₂, newCalls w₂ (coap2oscore cfg C nvmW inp₂ cap₂ w₂).2) ∧
    openPart (coap2oscore cfg C nvmW inp₁ cap₁ w₁).2 = openPart (coap2oscore cfg C nvmW inp₂ cap₂ w₂).2 := by
  obtain ⟨v, hv⟩ := protect_ok (w' := (coap2oscore cfg C nvmW inp₁ cap₁ w₁).2) (Prod.ext h₁ rfl) hp₁ ha₁
  obtain ⟨u, hu⟩ := protect_ok (w' := (coap2oscore cfg C nvmW inp₂ cap₂ w₂).2) (Prod.ext h₂ rfl) hp₂ ha₂
  have f1 := coap2oscore_frame cfg C nvmW inp₁ cap₁ w₁
  have f2 := coap2oscore_frame cfg C nvmW inp₂ cap₂ w₂
  obtain ⟨hwc, hwn⟩ := Prod.mk.inj hw
  obtain ⟨c1, c2, c3, c4, c5, c6, c7, c8, c9, c10, c11, c12, c13⟩ := openCtx_fields hwc
  have hreq : isRequest p₁ = isRequest p₂ := by
    have e : ∀ p : Pkt, isRequest p = true ↔ p.code.toNat < 32 := by
      intro p; unfold isRequest; simp only [beq_iff_eq]; omega
    rw [Bool.eq_iff_iff, e, e]; exact hpub.req
  have hopts := hpub.opts
  rw [← outerOpts_eq, ← outerOpts_eq] at hopts
  have hty : msgType p₁ = msgType p₂ := by
    unfold msgType
    rw [hreq, ← getObserve_outer p₁.opts, ← getObserve_outer p₂.opts, getObserve_map hopts]
  have hnew : v.new = u.new := by rw [hv.new, hu.new, hty, c13]
  have hdue : nvmWriteDue cfg w₁.ctx ↔ nvmWriteDue cfg w₂.ctx := by
    unfold nvmWriteDue; rw [c1, c6, c13]
  have hsame : v.piv = u.piv ∧ v.kid = u.kid ∧ v.kctx = u.kctx ∧ v.nonce = u.nonce ∧
      (coap2oscore cfg C nvmW inp₁ cap₁ w₁).2.ctx.ssn = (coap2oscore cfg C nvmW inp₂ cap₂ w₂).2.ctx.ssn ∧
      (coap2oscore cfg C nvmW inp₁ cap₁ w₁).2.nvm = (coap2oscore cfg C nvmW inp₂ cap₂ w₂).2.nvm := by
    cases hn : v.new with
    | true =>
      obtain ⟨a1, a2, a3, a4, _, a5, a6⟩ := hv.ifNew hn
      obtain ⟨b1, b2, b3, b4, _, b5, b6⟩ := hu.ifNew (hnew ▸ hn)
      rw [c6, b1] at a1
      have e1 := (R.ok.inj a1).symm
      rw [e1, c4, c3, b4] at a4
      refine ⟨e1, by rw [a2, b2, c4], by rw [a3, b3, c2], (R.ok.inj a4).symm, by rw [a5, b5, c6], ?_⟩
      rw [a6, b6, c6, hwn]
      by_cases hd : nvmWriteDue cfg w₁.ctx
      · rw [if_pos hd, if_pos (hdue.1 hd)]
      · rw [if_neg hd, if_neg (fun h => hd (hdue.2 h))]
    | false =>
      obtain ⟨a1, a2, a3, a4, a5, a6⟩ := hv.ifReuse hn
      obtain ⟨b1, b2, b3, b4, b5, b6⟩ := hu.ifReuse (hnew ▸ hn)
      exact ⟨by rw [a1, b1], by rw [a2, b2], by rw [a3, b3], by rw [a4, b4, c12], by rw [a5, b5, c6], by rw [a6, b6, hwn]⟩
  obtain ⟨e1, e2, e3, e4, e5, e6⟩ := hsame
  have hopt : v.opt = u.opt := by
    have := hv.opt; rw [e1, e2, e3, hu.opt] at this; exact (R.ok.inj this).symm
  obtain ⟨s1, hs1, hct1⟩ := sealed_of (s := none) hv.ct
  obtain ⟨s2, hs2, hct2⟩ := sealed_of (s := none) hu.ct
  dsimp only at hct1 hct2
  have l1 := hlen _ _ _ _ _ _ hct1
  have l2 := hlen _ _ _ _ _ _ hct2
  obtain ⟨hb1, _, _⟩ := coapSerialize_ok.1 hv.out
  obtain ⟨hb2, _, _⟩ := coapSerialize_ok.1 hu.out
  have hshape : ∀ (p : Pkt) (us : List Opt) (ct o : Bytes), ct.length ≠ 0 →
      encPkt (oscorePkgGenerate p us ct o) =
        (coapHeaderBytes (oscorePkgGenerate p us [] o) ++ p.token ++
          encOpts (oscorePkgGenerate p us [] o).opts ++ [0xFF]) ++ ct := by
    intro p us ct o hne
    unfold encPkt
    have : (oscorePkgGenerate p us ct o).payload = ct := rfl
    rw [this, if_neg hne]
    simp only [List.append_assoc, List.cons_append, List.nil_append]
    rfl
  rw [hshape _ _ _ _ (by omega)] at hb1 hb2
  have hpre : coapHeaderBytes (oscorePkgGenerate p₁ (redelta 0 (outerOpts p₁.opts)) [] v.opt) ++ p₁.token ++
      encOpts (oscorePkgGenerate p₁ (redelta 0 (outerOpts p₁.opts)) [] v.opt).opts ++ [0xFF] =
      coapHeaderBytes (oscorePkgGenerate p₂ (redelta 0 (outerOpts p₂.opts)) [] u.opt) ++ p₂.token ++
      encOpts (oscorePkgGenerate p₂ (redelta 0 (outerOpts p₂.opts)) [] u.opt).opts ++ [0xFF] := by
    rw [redelta_map hopts, hopt]
    unfold coapHeaderBytes oscorePkgGenerate
    simp only
    rw [hreq, hpub.ver, hpub.type, hpub.mid, hpub.token]
  rw [hpre] at hb1
  constructor
  · rw [newCalls_one hv.log, newCalls_one hu.log, hb1, hb2]
    exact .inr ⟨_, v.ct, u.ct, _, _, rfl, rfl, sealed_of hv.ct, sealed_of hu.ct, rfl, c5.symm, e4, by simp only [hnew, c6]⟩
  · unfold openPart
    refine Prod.ext (openCtx_ext ?_ ?_ ?_ ?_ ?_ e5 ?_ ?_ ?_ ?_ ?_ ?_ ?_) e6
    · rw [f1.fresh, f2.fresh, c1]
    · rw [f1.idContext, f2.idContext, c2]
    · rw [f1.commonIv, f2.commonIv, c3]
    · rw [f1.senderId, f2.senderId, c4]
    · rw [f1.senderKey, f2.senderKey, c5]
    · rw [f1.recipientId, f2.recipientId, c7]
    · rw [f1.recipientKey, f2.recipientKey, c8]
    · rw [f1.window, f2.window, c9]
    · rw [f1.notifNum, f2.notifNum, c10]
    · rw [f1.notifInit, f2.notifInit, c11]
    · rw [hv.nonce', hu.nonce', e4]
    · rw [f1.echo, f2.echo, c13]

theorem ack_open {cfg : Cfg} {C : Crypto} {nvmW : Option Err} {inp b : Bytes} {cap : Nat} {w : World} {p : Pkt}
    (hp : coapDeserialize inp = .ok p) (ha : p.type = 2 ∧ p.code = 0) :
    (coap2oscore cfg C nvmW inp cap w).2 = w ∧ ((coap2oscore cfg C nvmW inp cap w).1 = .ok b → b = inp) := by
  have h := coap2oscore_effect cfg C nvmW inp cap w
  generalize (coap2oscore cfg C nvmW inp cap w).1 = r at *
  generalize (coap2oscore cfg C nvmW inp cap w).2 = w' at *
  cases h with
  | unchanged hr => exact ⟨rfl, fun h => absurd h (hr _)⟩
  | emptyAck => exact ⟨rfl, fun h => (R.ok.inj h).symm⟩
  | enc _ hp' hack =>
    rw [hp] at hp'
    obtain rfl := R.ok.inj hp'
    exact absurd ha hack

theorem echo_protect (cfg : Cfg) (C : Crypto) (w : World) (inp : Bytes) (cap : Nat) (nvmW : Option Err) :
    (step cfg C w (.protect inp cap nvmW)).2.ctx.echo = w.ctx.echo := (coap2oscore_frame cfg C nvmW inp cap w).echo

theorem AllAlike.nil {C : Crypto} {key : Bytes} : AllAlike C key [] [] := ⟨rfl, by simp⟩

theorem AllAlike.one {C : Crypto} {key : Bytes} {x y : Bytes × List EncCall} (h : Alike C key x y) : AllAlike C key [x] [y] :=
  ⟨rfl, by simpa using h⟩

theorem AllAlike.append {C : Crypto} {key : Bytes} {a b a' b' : List (Bytes × List EncCall)} (h : AllAlike C key a b)
    (h' : AllAlike C key a' b') : AllAlike C key (a ++ a') (b ++ b') := by
  refine ⟨by simp only [List.length_append, h.1, h'.1], ?_⟩
  intro x hx
  rw [List.zip_append h.1, List.mem_append] at hx
  rcases hx with hx | hx
  · exact h.2 x hx
  · exact h'.2 x hx

/-- one step of both histories -/
theorem same_step {cfg : Cfg} {C : Crypto} (hlen : ∀ k n a t p c, C.aeadEnc k n a t p = some c → c.length = p.length + t)
    {w₁ w₂ : World} {o₁ o₂ : Op} {k : Fin 3} (hw : openPart w₁ = openPart w₂) (hs : SameShape o₁ o₂)
    (e₁ : Ends cfg C w₁ o₁ k) (e₂ : Ends cfg C w₂ o₂ k) :
    AllAlike C w₁.ctx.senderKey (sentByCall cfg C w₁ o₁) (sentByCall cfg C w₂ o₂) ∧
    openPart (step cfg C w₁ o₁).2 = openPart (step cfg C w₂ o₂).2 := by
  have notok : ∀ {w : World} {op : Op}, (∀ b, (step cfg C w op).1 ≠ .ok b) → sentByCall cfg C w op = [] := by
    intro w op h
    unfold sentByCall
    split
    · rename_i h'; exact absurd h' (h _)
    · rfl
  by_cases hk : k = 2
  · subst hk
    cases e₁ with
    | refused s₁ r₁ => cases e₂ with
      | refused s₂ r₂ =>
        rw [notok r₁, notok r₂, s₁, s₂]
        exact ⟨AllAlike.nil, hw⟩
  cases hs with
  | send h₁ h₂ a₁ a₂ hp =>
    cases e₁ with
    | ok r₁ => cases e₂ with
      | ok r₂ =>
        obtain ⟨g1, g2⟩ := send_open hlen h₁ h₂ a₁ a₂ hp hw r₁ r₂
        refine ⟨?_, g2⟩
        unfold sentByCall
        rw [r₁, r₂]
        exact AllAlike.one g1
    | challenge x y _ => rw [echo_protect, x] at y; cases y
    | refused => exact absurd rfl hk
  | ack h a =>
    cases e₁ with
    | ok r₁ => cases e₂ with
      | ok r₂ =>
        obtain ⟨g1, g2⟩ := ack_open (cfg := cfg) (C := C) (b := _) (w := w₁) h a
        obtain ⟨g3, g4⟩ := ack_open (cfg := cfg) (C := C) (b := _) (w := w₂) h a
        refine ⟨?_, ?_⟩
        · unfold sentByCall
          rw [r₁, r₂]
          obtain rfl := g2 r₁
          obtain rfl := g4 r₂
          refine AllAlike.one (.inl ⟨Prod.ext rfl ?_, ?_⟩)
          · show newCalls w₁ (coap2oscore _ _ _ _ _ _).2 = newCalls w₂ (coap2oscore _ _ _ _ _ _).2
            rw [g1, g3, newCalls_none, newCalls_none]
          · show newCalls w₁ (coap2oscore _ _ _ _ _ _).2 = []
            rw [g1, newCalls_none]
        · show openPart (coap2oscore _ _ _ _ _ _).2 = openPart (coap2oscore _ _ _ _ _ _).2
          rw [g1, g3, hw]
    | challenge x y _ => rw [echo_protect, x] at y; cases y
    | refused => exact absurd rfl hk
  | receive h =>
    obtain ⟨p₁, p₂, piv, kid, g1, g2, g3⟩ := h
    have hu : ∀ {w : World} {inp : Bytes} {cap : Nat}, sentByCall cfg C w (.unprotect inp cap) = [] := by
      intro w inp cap; rfl
    rw [hu, hu]
    refine ⟨AllAlike.nil, ?_⟩
    rw [receive_open g1 hk e₁, receive_open g2 hk e₂]
    obtain ⟨hwc, hwn⟩ := Prod.mk.inj hw
    simp only [Pkt.mk.injEq] at g3
    obtain ⟨-, -, k1, -, -, k2, -⟩ := g3
    unfold isRequest
    rw [k1, k2, hw, hwn]


/-- **C92** Two histories of calls that look the same from outside - messages with the same public parts, received packets that differ
only in their ciphertexts - and whose calls end in the same way put the same packets on the network, except for the ciphertexts,
and these are results of AEAD calls with the same key and the same nonces: whatever the codes, class E options and payloads of all the
messages sent and received were, an observer sees no difference outside the ciphertexts, and no difference in what was open before shows up
later.  `_partial`: that the calls end in the same way has to be assumed, see `C92_false_outcome`. -/
theorem C92_partial (cfg : Cfg) (C : Crypto) (hlen : ∀ k n a t p c, C.aeadEnc k n a t p = some c → c.length = p.length + t)
    {w₁ w₂ : World} {h₁ h₂ : List Op} (hw : openPart w₁ = openPart w₂) (h : SameCourse cfg C w₁ w₂ h₁ h₂) :
    AllAlike C w₁.ctx.senderKey (traffic cfg C w₁ h₁) (traffic cfg C w₂ h₂) ∧
    openPart (run cfg C w₁ h₁) = openPart (run cfg C w₂ h₂) := by
  induction h with
  | nil => exact ⟨AllAlike.nil, hw⟩
  | @cons w₁ w₂ o₁ o₂ h₁ h₂ k hs e₁ e₂ hr ih =>
    obtain ⟨g1, g2⟩ := same_step hlen hw hs e₁ e₂
    obtain ⟨g3, g4⟩ := ih g2
    have hk : (step cfg C w₁ o₁).2.ctx.senderKey = w₁.ctx.senderKey := (step_identity cfg C w₁ o₁).senderKey
    rw [hk] at g3
    rw [run_cons, run_cons]
    exact ⟨g1.append g3, g4⟩

/-- **C92** If the AEAD's ciphertexts tell nothing but their length (as those of an ideal AEAD: the ciphertext does not depend on plaintext and
additional data), and corresponding plaintexts have the same length, then the traffic of both histories is the same. -/
theorem C92_ideal_partial (cfg : Cfg) (C : Crypto) (hlen : ∀ k n a t p c, C.aeadEnc k n a t p = some c → c.length = p.length + t)
    (hideal : ∀ k n a a' t p p', p.length = p'.length → C.aeadEnc k n a t p = C.aeadEnc k n a' t p')
    {w₁ w₂ : World} {h₁ h₂ : List Op} (hw : openPart w₁ = openPart w₂) (h : SameCourse cfg C w₁ w₂ h₁ h₂)
    (hpt : (traffic cfg C w₁ h₁).map (fun x => x.2.map (fun e => e.pt.length)) =
      (traffic cfg C w₂ h₂).map (fun x => x.2.map (fun e => e.pt.length))) :
    (traffic cfg C w₁ h₁).map (·.1) = (traffic cfg C w₂ h₂).map (·.1) := by
  have hA := (C92_partial cfg C hlen hw h).1
  revert hA hpt
  generalize traffic cfg C w₁ h₁ = l₁
  generalize traffic cfg C w₂ h₂ = l₂
  induction l₁ generalizing l₂ with
  | nil =>
    intro hpt hA
    cases l₂ with
    | nil => rfl
    | cons => simp [AllAlike] at hA
  | cons x l₁ ih =>
    intro hpt hA
    cases l₂ with
    | nil => simp [AllAlike] at hA
    | cons y l₂ =>
      simp only [List.map_cons, List.cons.injEq] at hpt ⊢
      refine ⟨?_, ih l₂ hpt.2 ⟨by simpa using hA.1, fun z hz => hA.2 z (by simp [hz])⟩⟩
      rcases hA.2 (x, y) (by simp) with ⟨h1, _⟩ | ⟨pre, ct₁, ct₂, e₁, e₂, rfl, rfl, ⟨a₁, _, s₁⟩, ⟨a₂, _, s₂⟩, k1, k2, hn, _⟩
      · have h1' : x = y := h1
        rw [h1']
      · have hl : e₁.pt.length = e₂.pt.length := by simpa using hpt.1
        rw [k1, hn, hideal _ _ a₁ a₂ 8 e₁.pt e₂.pt hl, ← k2, s₂] at s₁
        rw [Option.some.inj s₁]


/-! ### examples -/

theorem hasOption_of {inp piv kid : Bytes} {p : Pkt} (h : (coapParse inp >>= fun x => oscoreOptionParser x.2 >>= fun o => o.read >>= fun r => .ok (x.1, r)) = .ok (p, piv, kid)) :
    HasOption inp p piv kid := by
  obtain ⟨x, h1, h'⟩ := R.bind_eq_ok.1 h
  obtain ⟨o, h2, h''⟩ := R.bind_eq_ok.1 h'
  obtain ⟨r, h3, h4⟩ := R.bind_eq_ok.1 h''
  simp only [R.ok.injEq, Prod.mk.injEq] at h4
  obtain ⟨rfl, rfl⟩ := h4
  exact ⟨x.2, o, h1, h2, h3⟩

/-- PUT "a" with payload 1 2, with the header and the token of `exGet` -/
def exPutA : Bytes := [0x41, 0x03, 0x12, 0x34, 0x4A, 0xB1, 0x61, 0xFF, 1, 2]
/-- 4.04 without payload, with the header and the token of `exRsp` -/
def exRsp404 : Bytes := [0x61, 0x84, 0x12, 0x34, 0x4A]

def exPktOf (b : Bytes) : Pkt := (coapDeserialize b).getD ⟨0, 0, 0, 0, [], [], []⟩

/-- a server that answers `req` with `rsp`: its packet -/
def exAnswerTo (req rsp : Bytes) : Bytes := sendOf exCfg (afterRecv exCfg (exW exServer) (sendOf exCfg (exW exClient) req)) rsp

/-- the client asks, gets the answer and asks again; other method, path, payload and other response code -/
def exCourse (b : Bool) : List Op :=
  let req := if b then exGet else exPutA
  let rsp := if b then exRsp else exRsp404
  [.protect req 256 none, .unprotect (exAnswerTo req rsp) 256, .protect exGet2 256 none]

theorem exSamePublic {p q : Pkt} (h1 : p.ver = q.ver ∧ p.type = q.type ∧ p.mid = q.mid ∧ p.token = q.token)
    (h2 : p.code.toNat < 32 ↔ q.code.toNat < 32)
    (h3 : (p.opts.filter (fun o => decide (PublicOption o.num))).map (fun o => (o.num, o.value)) =
      (q.opts.filter (fun o => decide (PublicOption o.num))).map (fun o => (o.num, o.value))) : SamePublic p q :=
  ⟨h1.1, h1.2.1, h1.2.2.1, h1.2.2.2, h2, h3⟩

def okBytes (r : R Bytes) : Bytes := r.getD []

theorem ends_ok {cfg : Cfg} {C : Crypto} {w : World} {op : Op} (h : (step cfg C w op).1.isOk = true) : Ends cfg C w op 0 :=
  .ok (R.eq_getD [] h)

/-- the hypotheses of `C92_partial` are met -/
theorem exSameCourse : SameCourse exCfg toyCrypto (exW exClient) (exW exClient) (exCourse true) (exCourse false) := by
  refine .cons (k := 0) (.send (p₁ := exPktOf exGet) (p₂ := exPktOf exPutA) (by decide +kernel) (by decide +kernel) (by decide +kernel) (by decide +kernel)
    (exSamePublic (by decide +kernel) (by decide +kernel) (by decide +kernel))) (ends_ok (by decide +kernel)) (ends_ok (by decide +kernel)) ?_
  refine .cons (k := 0) (.receive ⟨exPktOf (exAnswerTo exGet exRsp), exPktOf (exAnswerTo exPutA exRsp404), [], [],
    hasOption_of (by decide +kernel), hasOption_of (by decide +kernel), by decide +kernel⟩)
    (ends_ok (by decide +kernel)) (ends_ok (by decide +kernel)) ?_
  refine .cons (k := 0) (.send (p₁ := exPktOf exGet2) (p₂ := exPktOf exGet2) (by decide +kernel) (by decide +kernel) (by decide +kernel) (by decide +kernel)
    (exSamePublic ⟨rfl, rfl, rfl, rfl⟩ Iff.rfl rfl)) (ends_ok (by decide +kernel)) (ends_ok (by decide +kernel)) .nil

example : (traffic exCfg toyCrypto (exW exClient) (exCourse true)).length = 2 ∧
    (traffic exCfg toyCrypto (exW exClient) (exCourse true)).map (·.1) ≠ (traffic exCfg toyCrypto (exW exClient) (exCourse false)).map (·.1) := by
  decide +kernel

/-- an AEAD whose ciphertexts are all zeros -/
def blindCrypto : Crypto :=
  { toyCrypto with
    aeadEnc := fun _ _ _ t p => some (List.replicate (p.length + t) 0)
    aeadDec := fun _ _ _ t c => some (c.take (c.length - t)) }

/-- PUT without options and with a payload of three bytes, as long as `exGet` -/
def exPutB : Bytes := [0x41, 0x03, 0x12, 0x34, 0x4A, 0xFF, 1, 2]

/-- the hypotheses of `C92_ideal_partial` are met -/
example : (∀ k n a t p c, blindCrypto.aeadEnc k n a t p = some c → c.length = p.length + t) ∧
    (∀ k n a a' t p p', p.length = p'.length → blindCrypto.aeadEnc k n a t p = blindCrypto.aeadEnc k n a' t p') ∧
    SameCourse exCfg blindCrypto (exW exClient) (exW exClient) [.protect exGet 256 none] [.protect exPutB 256 none] ∧
    (traffic exCfg blindCrypto (exW exClient) [.protect exGet 256 none]).map (fun x => x.2.map (fun e => e.pt.length)) =
      (traffic exCfg blindCrypto (exW exClient) [.protect exPutB 256 none]).map (fun x => x.2.map (fun e => e.pt.length)) := by
  refine ⟨?_, ?_, ?_, by decide +kernel⟩
  · intro k n a t p c h
    rw [← Option.some.inj h, List.length_replicate]
  · intro k n a a' t p p' h
    show some _ = some _
    rw [h]
  · exact .cons (k := 0) (.send (p₁ := exPktOf exGet) (p₂ := exPktOf exPutB) (by decide +kernel) (by decide +kernel) (by decide +kernel) (by decide +kernel)
      (exSamePublic (by decide +kernel) (by decide +kernel) (by decide +kernel))) (ends_ok (by decide +kernel)) (ends_ok (by decide +kernel)) .nil

/-- GET of a one-letter path, with message ID and token n -/
def exGetPath (n c : UInt8) : Bytes := [0x41, 0x01, 0, n, n, 0xB1, c]

/-- **C92 is false** of the outcome of calls: four requests for the same path are all sent (each takes the place of the one before in the
table of outstanding requests); of four requests for different paths, with the same public parts and lengths, the last one is refused.  So the
confidential Uri-Path can be seen from outside, by whether packets are sent. -/
theorem C92_false_outcome :
    let same := [exGetPath 1 0x61, exGetPath 2 0x61, exGetPath 3 0x61, exGetPath 4 0x61].map (fun m => Op.protect m 256 none)
    let diff := [exGetPath 1 0x61, exGetPath 2 0x62, exGetPath 3 0x63, exGetPath 4 0x64].map (fun m => Op.protect m 256 none)
    (∀ x ∈ same.zip diff, SameShape x.1 x.2) ∧
    (traffic exCfg toyCrypto (exW exClient) same).length = 4 ∧ (traffic exCfg toyCrypto (exW exClient) diff).length = 3 ∧
    ((traffic exCfg toyCrypto (exW exClient) same).map (fun x => x.1.length)).take 3 =
      (traffic exCfg toyCrypto (exW exClient) diff).map (fun x => x.1.length) := by
  refine ⟨?_, by decide +kernel, by decide +kernel, by decide +kernel⟩
  have key : ∀ n c c', coapDeserialize (exGetPath n c) = .ok (exPktOf (exGetPath n c)) →
      coapDeserialize (exGetPath n c') = .ok (exPktOf (exGetPath n c')) →
      ¬((exPktOf (exGetPath n c)).type = 2 ∧ (exPktOf (exGetPath n c)).code = 0) →
      ¬((exPktOf (exGetPath n c')).type = 2 ∧ (exPktOf (exGetPath n c')).code = 0) →
      SamePublic (exPktOf (exGetPath n c)) (exPktOf (exGetPath n c')) →
      SameShape (.protect (exGetPath n c) 256 none) (.protect (exGetPath n c') 256 none) :=
    fun n c c' h1 h2 h3 h4 h5 => .send h1 h2 h3 h4 h5
  intro x hx
  simp only [List.map_cons, List.map_nil, List.zip_cons_cons, List.zip_nil_right, List.mem_cons, List.not_mem_nil, or_false] at hx
  rcases hx with rfl | rfl | rfl | rfl
  all_goals
    exact key _ _ _ (by decide +kernel) (by decide +kernel) (by decide +kernel) (by decide +kernel) (exSamePublic (by decide +kernel) (by decide +kernel) (by decide +kernel))

end Verif
