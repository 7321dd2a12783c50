import Verif.Lemmas.ProtectOk
import Verif.Lemmas.Examples
import Verif.Props.Receive
/-
Properties C09 (new PIVs), C11 (nonce reuse), C20, C21, C31: what `coap2oscore` puts on the wire.
-/
namespace Verif

/-! ## C09 -/

/-- the Partial IV that a receiver finds in an OSCORE packet, as a number -/
def wirePiv (b : Bytes) : Option Nat :=
  match coapParse b with
  | .ok (_, t) =>
    match oscoreOptionParser t with
    | .ok o =>
      match o.piv.read with
      | .ok (x :: l) => some (beVal (x :: l))
      | _ => none
    | _ => none
  | _ => none

/-- A plain CoAP message: it parses, has no OSCORE option of its own, is not an empty ACK, and has at
most 18 options (with 19 outer options the result has 20, which no receiver's parser accepts). -/
structure PlainCoap (inp : Bytes) (p : Pkt) : Prop where
  parse : coapDeserialize inp = .ok p
  noOscore : ∀ o ∈ p.opts, o.num ≠ 9
  notAck : ¬(p.type = 2 ∧ p.code = 0)
  count : p.opts.length ≤ 18

theorem PlainCoap.outer {inp : Bytes} {p : Pkt} (h : PlainCoap inp p) :
    (outerOpts p.opts).length ≤ 18 := by
  have := List.length_filter_le (fun o : Opt => o.num == optOBSERVE || !isClassE o.num) p.opts
  have := h.count
  unfold outerOpts; omega

/-- The PIV on the wire is the sequence number at the time of the call, which is then used up. -/
theorem wirePiv_protect {cfg : Cfg} {C : Crypto} {nvmW : Option Err} {inp b : Bytes} {cap n : Nat}
    {w w' : World} {p : Pkt} (hcfg : cfg.maxCoapOptions ≤ 260) (hb : b.length < 65536)
    (hpl : PlainCoap inp p) (h : coap2oscore cfg C nvmW inp cap w = (.ok b, w'))
    (hn : wirePiv b = some n) : n = w.ctx.ssn ∧ w'.ctx.ssn = n + 1 := by
  obtain ⟨v, hv⟩ := protect_ok h hpl.parse hpl.notAck
  obtain ⟨t, o, h1, h2, h3, _⟩ := hv.parsed hcfg hb hpl.outer hpl.noOscore
  unfold wirePiv at hn
  rw [h1] at hn
  simp only [h2, h3] at hn
  cases hnew : v.new with
  | true =>
    obtain ⟨k1, _, _, _, _, k6, _⟩ := hv.ifNew hnew
    have hm := (ssn2piv_minimal k1).1
    cases hp : v.piv with
    | nil => rw [hp] at hn; cases hn
    | cons x l =>
      rw [hp] at hn hm
      simp only [Option.some.injEq] at hn
      have := hm.1
      rw [hn] at this
      exact ⟨this, by rw [k6, this]⟩
  | false =>
    rw [(hv.ifReuse hnew).1] at hn; cases hn

/-- the sequence number never decreases -/
theorem step_ssn_mono (cfg : Cfg) (C : Crypto) (w : World) (op : Op) :
    w.ctx.ssn ≤ (step cfg C w op).2.ctx.ssn := by
  cases op with
  | protect inp cap nvmW =>
    have h := coap2oscore_frame cfg C nvmW inp cap w
    rcases h.ssn with ⟨h, _⟩ | h
    · exact Nat.le_of_eq h.symm
    · show w.ctx.ssn ≤ (coap2oscore cfg C nvmW inp cap w).2.ctx.ssn; omega
  | unprotect inp cap => exact Nat.le_of_eq (oscore2coap_frame cfg C inp cap w.ctx).ssn.symm

theorem run_ssn_mono (cfg : Cfg) (C : Crypto) (w : World) (h : List Op) :
    w.ctx.ssn ≤ (run cfg C w h).ctx.ssn :=
  run_induction (fun v => w.ctx.ssn ≤ v.ctx.ssn)
    (fun v op hv => Nat.le_trans hv (step_ssn_mono cfg C v op)) (Nat.le_refl _) h

/-- **C09** In any history of calls on one context, if two calls of `coap2oscore` on plain CoAP
messages succeed and the packets they produce carry Partial IVs, the later PIV is larger.  Whatever
happened before, between and after (including failed calls) does not matter. -/
theorem C09_piv_increasing (cfg : Cfg) (C : Crypto) (w0 : World) (h₁ h₂ : List Op)
    (inp₁ inp₂ b₁ b₂ : Bytes) (cap₁ cap₂ : Nat) (e₁ e₂ : Option Err) (p₁ p₂ : Pkt) (n₁ n₂ : Nat)
    (hcfg : cfg.maxCoapOptions ≤ 260) (hb₁ : b₁.length < 65536) (hb₂ : b₂.length < 65536)
    (hpl₁ : PlainCoap inp₁ p₁) (hpl₂ : PlainCoap inp₂ p₂)
    (hr₁ : (step cfg C (run cfg C w0 h₁) (.protect inp₁ cap₁ e₁)).1 = .ok b₁)
    (hr₂ : (step cfg C (run cfg C w0 (h₁ ++ .protect inp₁ cap₁ e₁ :: h₂)) (.protect inp₂ cap₂ e₂)).1
      = .ok b₂)
    (hn₁ : wirePiv b₁ = some n₁) (hn₂ : wirePiv b₂ = some n₂) : n₁ < n₂ := by
  have k1 := wirePiv_protect (w := run cfg C w0 h₁) (w' := (step cfg C (run cfg C w0 h₁) (.protect inp₁ cap₁ e₁)).2)
    hcfg hb₁ hpl₁ (Prod.ext hr₁ rfl) hn₁
  rw [run_append, run_cons] at hr₂
  have k2 := wirePiv_protect hcfg hb₂ hpl₂ (Prod.ext hr₂ rfl) hn₂
  have hm := run_ssn_mono cfg C (step cfg C (run cfg C w0 h₁) (.protect inp₁ cap₁ e₁)).2 h₂
  rw [← k2.1] at hm
  omega

/-- One call adds at most one AEAD encryption; if it has its own PIV, that is the sequence number. -/
inductive LogStep (w w' : World) : Prop
  | none (h : w'.log = w.log) (hs : w.ctx.ssn ≤ w'.ctx.ssn)
  | fresh (e : EncCall) (piv : Bytes) (h : w'.log = e :: w.log) (hn : e.newSsn = some w.ctx.ssn)
      (hs : w'.ctx.ssn = w.ctx.ssn + 1) (hpiv : ssn2piv w.ctx.ssn = .ok piv)
      (hnonce : createNonce w.ctx.senderId piv w.ctx.commonIv = .ok e.nonce)
      (hk : e.key = w.ctx.senderKey) (hc : w'.ctx.nonce = e.nonce)
  | reuse (e : EncCall) (h : w'.log = e :: w.log) (hn : e.newSsn = .none) (hs : w'.ctx.ssn = w.ctx.ssn)
      (hnonce : e.nonce = w.ctx.nonce) (hk : e.key = w.ctx.senderKey) (hc : w'.ctx.nonce = w.ctx.nonce)

theorem coap2oscore_log (cfg : Cfg) (C : Crypto) (nvmW : Option Err) (inp : Bytes) (cap : Nat)
    (w : World) : LogStep w (coap2oscore cfg C nvmW inp cap w).2 := by
  have h := coap2oscore_effect cfg C nvmW inp cap w
  generalize (coap2oscore cfg C nvmW inp cap w).1 = r at h
  generalize (coap2oscore cfg C nvmW inp cap w).2 = w' at h
  cases h with
  | unchanged _ => exact .none rfl (Nat.le_refl _)
  | emptyAck => exact .none rfl (Nat.le_refl _)
  | enc hf hp hack hs hlen hpt hev henc =>
    cases henc with
    | unchanged _ => exact .none rfl (Nat.le_refl _)
    | consumed _ _ => exact .none rfl (Nat.le_succ _)
    | fresh hn hw hpiv hnonce hopt hread haad hct hres =>
      exact .fresh _ _ rfl rfl rfl hpiv hnonce rfl rfl
    | reuse hn hopt hread haad hct hres => exact .reuse _ rfl rfl rfl rfl rfl rfl

theorem step_log (cfg : Cfg) (C : Crypto) (w : World) (op : Op) : LogStep w (step cfg C w op).2 := by
  cases op with
  | protect inp cap nvmW => exact coap2oscore_log cfg C nvmW inp cap w
  | unprotect inp cap =>
    exact .none rfl (Nat.le_of_eq (oscore2coap_frame cfg C inp cap w.ctx).ssn.symm)

/-- the log of one session: newest first, sequence numbers strictly decreasing and used up, nonces
as specified -/
structure LogInv (s0 : Nat) (id iv : Bytes) (w : World) : Prop where
  ids : w.ctx.senderId = id ∧ w.ctx.commonIv = iv
  dec : (w.log.filterMap EncCall.newSsn).Pairwise (· > ·)
  bound : ∀ n ∈ w.log.filterMap EncCall.newSsn, s0 ≤ n ∧ n < w.ctx.ssn
  low : s0 ≤ w.ctx.ssn
  nonce : ∀ e ∈ w.log, ∀ n, e.newSsn = some n → ∃ piv, ssn2piv n = .ok piv ∧
    createNonce id piv iv = .ok e.nonce

theorem step_logInv {cfg : Cfg} {C : Crypto} {s0 id iv} (w : World) (op : Op)
    (h : LogInv s0 id iv w) : LogInv s0 id iv (step cfg C w op).2 := by
  have hid := step_identity cfg C w op
  have hids : (step cfg C w op).2.ctx.senderId = id ∧ (step cfg C w op).2.ctx.commonIv = iv :=
    ⟨by rw [hid.senderId]; exact h.ids.1, by rw [hid.commonIv]; exact h.ids.2⟩
  cases step_log cfg C w op with
  | none hl hs =>
    refine ⟨hids, by rw [hl]; exact h.dec, ?_, by have := h.low; omega, by rw [hl]; exact h.nonce⟩
    rw [hl]; intro n hn; have := h.bound n hn; omega
  | fresh e piv hl hn hs hpiv hnonce =>
    have hf : (step cfg C w op).2.log.filterMap EncCall.newSsn =
        w.ctx.ssn :: w.log.filterMap EncCall.newSsn := by rw [hl, List.filterMap_cons, hn]
    refine ⟨hids, ?_, ?_, by have := h.low; omega, ?_⟩
    · rw [hf, List.pairwise_cons]
      exact ⟨fun n hn => (h.bound n hn).2, h.dec⟩
    · rw [hf]
      intro n hn'
      rcases List.mem_cons.1 hn' with rfl | hn'
      · exact ⟨h.low, by omega⟩
      · have := h.bound n hn'; omega
    · rw [hl]
      intro e' he' n hn'
      rcases List.mem_cons.1 he' with rfl | he'
      · rw [hn] at hn'
        obtain rfl := Option.some.inj hn'
        exact ⟨piv, hpiv, by rw [← h.ids.1, ← h.ids.2]; exact hnonce⟩
      · exact h.nonce e' he' n hn'
  | reuse e hl hn hs hnonce =>
    have hf : (step cfg C w op).2.log.filterMap EncCall.newSsn =
        w.log.filterMap EncCall.newSsn := by rw [hl, List.filterMap_cons, hn]
    refine ⟨hids, by rw [hf]; exact h.dec, ?_, by have := h.low; omega, ?_⟩
    · rw [hf]; intro n hn'; have := h.bound n hn'; omega
    · rw [hl]
      intro e' he' n hn'
      rcases List.mem_cons.1 he' with rfl | he'
      · rw [hn] at hn'; cases hn'
      · exact h.nonce e' he' n hn'

/-- **C09** The sequence numbers under which messages are encrypted in one session strictly
increase (the log is newest first), whether or not the message left the device in the end. -/
theorem C09_ssn_increasing (cfg : Cfg) (C : Crypto) (w0 : World) (h : List Op) (h0 : w0.log = []) :
    ((run cfg C w0 h).log.filterMap EncCall.newSsn).Pairwise (· > ·) := by
  have hinv : LogInv w0.ctx.ssn w0.ctx.senderId w0.ctx.commonIv w0 :=
    ⟨⟨rfl, rfl⟩, by rw [h0]; exact .nil, by rw [h0]; simp, Nat.le_refl _, by rw [h0]; simp⟩
  exact (run_induction (LogInv w0.ctx.ssn w0.ctx.senderId w0.ctx.commonIv)
    (fun w op => step_logInv w op) hinv h).dec

/-- non-vacuity: a client sends two requests -/
example : PlainCoap exGet ⟨1, 0, 1, 0x1234, [0x4A], [⟨11, [0x74, 0x76], 11⟩], []⟩ :=
  ⟨by decide +kernel, by decide, by decide, by decide⟩
example : wirePiv (sendOf exCfg (exW exClient) exGet) = some 0 ∧
    wirePiv (sendOf exCfg (afterSend exCfg (exW exClient) exGet) exGet2) = some 1 ∧
    exCfg.maxCoapOptions ≤ 260 := by decide +kernel

/-! ## C11 -/

/-- **C11** (partial) Two encryptions with an own Partial IV never use the same nonce, in any
history.  Missing: encryptions that take the nonce of the request; for those the property is false
(`C11_false_two_requests`, `C11_false_notification`), and it holds in the lock-step use described by
`C11_lockstep_partial`. -/
theorem C11_new_piv_partial (cfg : Cfg) (C : Crypto) (w0 : World) (h : List Op) (h0 : w0.log = []) :
    ((run cfg C w0 h).log.filter (fun e => e.newSsn.isSome)).Pairwise (fun a b => a.nonce ≠ b.nonce) := by
  have hinv : LogInv w0.ctx.ssn w0.ctx.senderId w0.ctx.commonIv w0 :=
    ⟨⟨rfl, rfl⟩, by rw [h0]; exact .nil, by rw [h0]; simp, Nat.le_refl _, by rw [h0]; simp⟩
  have hfin := run_induction (cfg := cfg) (C := C) (LogInv w0.ctx.ssn w0.ctx.senderId w0.ctx.commonIv)
    (fun w op => step_logInv w op) hinv h
  obtain ⟨_, hdec, _, _, hnon⟩ := hfin
  generalize (run cfg C w0 h).log = l at hdec hnon
  induction l with
  | nil => exact .nil
  | cons e l ih =>
    have hrest : (l.filterMap EncCall.newSsn).Pairwise (· > ·) := by
      rw [List.filterMap_cons] at hdec
      cases he : e.newSsn with
      | none => rw [he] at hdec; exact hdec
      | some n => rw [he] at hdec; exact (List.pairwise_cons.1 hdec).2
    have ih' := ih hrest (fun e' he' => hnon e' (List.mem_cons_of_mem _ he'))
    rw [List.filter_cons]
    cases he : e.newSsn with
    | none => simpa using ih'
    | some n =>
      simp only [Option.isSome_some, if_true]
      rw [List.pairwise_cons]
      refine ⟨?_, ih'⟩
      intro e' he'
      rw [List.mem_filter] at he'
      obtain ⟨hm, hs⟩ := he'
      cases hn' : e'.newSsn with
      | none => rw [hn'] at hs; cases hs
      | some m =>
        rw [List.filterMap_cons, he] at hdec
        have hlt : n > m := (List.pairwise_cons.1 hdec).1 m (List.mem_filterMap.2 ⟨e', hm, hn'⟩)
        intro heq
        obtain ⟨q1, a1, a2⟩ := hnon e (by simp) n he
        obtain ⟨q2, b1, b2⟩ := hnon e' (List.mem_cons_of_mem _ hm) m hn'
        rw [heq] at a2
        have := (C10_nonce_injective_minimal _ _ _ _ _ _ n m a1 b1 a2 b2).2.1
        omega

/-- What a successfully received request leaves in the context: the nonce of that request. -/
theorem delivered_nonce {cfg : Cfg} {C : Crypto} {c c' : Ctx} {m out : Bytes} {cap : Nat} {p : Pkt}
    {t : List (Opt × Bytes)} {o : OscOpt}
    (h : oscore2coap cfg C m cap c = (.ok out, c')) (hp : coapParse m = .ok (p, t))
    (hreq : isRequest p = true) (ho : oscoreOptionParser t = .ok o) :
    ∃ kid piv, o.kid.read = .ok kid ∧ o.piv.read = .ok piv ∧ kid = c.recipientId ∧
      createNonce kid piv c.commonIv = .ok c'.nonce := by
  have he := oscore2coap_effect cfg C m cap c
  rw [h] at he
  simp only at he
  generalize hr : (R.ok out : R Bytes) = r at he
  cases he with
  | unchanged hn => exact absurd hr.symm (hn out)
  | reqFail _ _ _ _ _ _ _ _ hn => exact absurd hr.symm (hn out)
  | @reqOk p' t' o' out' pt c1 r' _ _ hp' ho' hreq' hkid hrep hdec ha =>
    rw [hp] at hp'
    obtain ⟨rfl, rfl⟩ := Prod.mk.inj (R.ok.inj hp')
    rw [ho] at ho'
    obtain rfl := R.ok.inj ho'
    have hnon := ha.frame.2.2.2.1
    rw [hnon]
    have hk : o.kid.read = .ok c.recipientId := by
      unfold kidMatches at hkid
      split at hkid
      · cases hkid
      · obtain ⟨k, hk1, hk2⟩ := R.bind_eq_ok.1 hkid
        have : arrayEquals c.recipientId k = true := R.ok.inj hk2
        rw [arrayEquals_iff.1 this]; exact hk1
    cases hdec with
    | unchanged hn => exact absurd rfl (hn _)
    | @auth rp rk nonce aad pt' t1 hread hnonce haad hpt hres =>
      unfold decNonce at hnonce
      obtain ⟨⟨piv, kid⟩, hpk, hcn⟩ := R.bind_eq_ok.1 hnonce
      unfold OscOpt.read at hpk
      obtain ⟨piv', hpr, hpk⟩ := R.bind_eq_ok.1 hpk
      obtain ⟨kid', hkr, hpk⟩ := R.bind_eq_ok.1 hpk
      have := Prod.mk.inj (R.ok.inj hpk)
      obtain ⟨rfl, rfl⟩ := this
      refine ⟨_, _, hkr, hpr, ?_, hcn⟩
      rw [hk] at hkr
      exact (R.ok.inj hkr).symm
  | rspFail _ _ _ _ _ _ _ hn => exact absurd hr.symm (hn out)
  | notifOk _ hp' _ hreq' =>
    rw [hp] at hp'
    obtain ⟨rfl, rfl⟩ := Prod.mk.inj (R.ok.inj hp')
    rw [hreq] at hreq'; cases hreq'
  | rspOk _ hp' _ hreq' =>
    rw [hp] at hp'
    obtain ⟨rfl, rfl⟩ := Prod.mk.inj (R.ok.inj hp')
    rw [hreq] at hreq'; cases hreq'

/-- A request `m` with PIV value `n` is delivered, and the next call protects a response with the
nonce of a request; `e` is the AEAD encryption of that response. -/
def Answered (cfg : Cfg) (C : Crypto) (w : World) (m : Bytes) (n : Nat) (e : EncCall)
    (w' : World) : Prop :=
  ∃ (cap : Nat) (out : Bytes) (p : Pkt) (t : List (Opt × Bytes)) (o : OscOpt) (piv : Bytes)
    (r : Bytes) (cap' : Nat) (nvmW : Option Err),
    coapParse m = .ok (p, t) ∧ isRequest p = true ∧ oscoreOptionParser t = .ok o ∧
    o.piv.read = .ok piv ∧ n = beVal piv ∧
    (step cfg C w (.unprotect m cap)).1 = .ok out ∧
    w' = (step cfg C (step cfg C w (.unprotect m cap)).2 (.protect r cap' nvmW)).2 ∧
    w'.log = e :: w.log ∧ e.newSsn = none

theorem Answered.nonce {cfg C w m n e w'} (h : Answered cfg C w m n e w') :
    ∃ piv, n = beVal piv ∧ createNonce w.ctx.recipientId piv w.ctx.commonIv = .ok e.nonce ∧
      e.key = w.ctx.senderKey := by
  obtain ⟨cap, out, p, t, o, piv, r, cap', nvmW, hp, hreq, ho, hpiv, hn, hok, hw', hlog, hnew⟩ := h
  obtain ⟨kid, piv', h1, h2, h3, h4⟩ :=
    delivered_nonce (c := w.ctx) (c' := (oscore2coap cfg C m cap w.ctx).2) (Prod.ext hok rfl) hp hreq ho
  rw [hpiv] at h2
  obtain rfl := R.ok.inj h2
  have hst := step_log cfg C (step cfg C w (.unprotect m cap)).2 (.protect r cap' nvmW)
  rw [← hw'] at hst
  have hl0 : (step cfg C w (.unprotect m cap)).2.log = w.log := rfl
  have hid := step_identity cfg C w (.unprotect m cap)
  refine ⟨piv, hn, ?_⟩
  cases hst with
  | none hl => rw [hl, hl0] at hlog; exact absurd hlog (by simp)
  | fresh e' _ hl hn' =>
    rw [hl, hl0] at hlog
    obtain ⟨rfl, _⟩ := List.cons.inj hlog
    rw [hnew] at hn'; cases hn'
  | reuse e' hl hn' hs hnon hk =>
    rw [hl, hl0] at hlog
    obtain ⟨rfl, _⟩ := List.cons.inj hlog
    rw [hnon, hk, hid.senderKey]
    exact ⟨by rw [← h3]; exact h4, rfl⟩

/-- **C11** (partial) Lock-step use: a server that answers every request before it accepts the next
one never uses a nonce twice.  If two requests with different PIVs are each answered directly after
they were delivered, the two responses use different nonces, whatever happens in between. -/
theorem C11_lockstep_partial (cfg : Cfg) (C : Crypto) (w w₁ w₂ : World) (h : List Op)
    (m₁ m₂ : Bytes) (n₁ n₂ : Nat) (e₁ e₂ : EncCall)
    (h₁ : Answered cfg C w m₁ n₁ e₁ w₁) (h₂ : Answered cfg C (run cfg C w₁ h) m₂ n₂ e₂ w₂)
    (hne : n₁ ≠ n₂) : e₁.nonce ≠ e₂.nonce := by
  obtain ⟨p1, k1, k2, _⟩ := h₁.nonce
  obtain ⟨p2, j1, j2, _⟩ := h₂.nonce
  have hid : SameIdentity w.ctx (run cfg C w₁ h).ctx := by
    obtain ⟨cap, out, p, t, o, piv, r, cap', nvmW, _, _, _, _, _, _, hw', _⟩ := h₁
    refine SameIdentity.trans ?_ (run_identity cfg C w₁ h)
    rw [hw']
    exact (step_identity cfg C w _).trans (step_identity cfg C _ _)
  rw [hid.recipientId, hid.commonIv] at j2
  intro heq
  rw [heq] at k2
  have := (C10_nonce_injective _ _ _ _ _ _ k2 j2).2
  omega

/-- **C11** (partial) ... and such a response never collides with a message that has its own PIV,
provided Sender ID and Recipient ID differ. -/
theorem C11_lockstep_new_partial (cfg : Cfg) (C : Crypto) (w w₁ : World) (m : Bytes) (n k : Nat)
    (e : EncCall) (piv nonce : Bytes)
    (h₁ : Answered cfg C w m n e w₁) (hids : w.ctx.senderId ≠ w.ctx.recipientId)
    (_hpiv : ssn2piv k = .ok piv)
    (hnew : createNonce w.ctx.senderId piv w.ctx.commonIv = .ok nonce) : e.nonce ≠ nonce := by
  obtain ⟨p1, _, k2, _⟩ := h₁.nonce
  intro heq
  rw [heq] at k2
  exact hids (C10_nonce_injective _ _ _ _ _ _ hnew k2).1

/-- the server after it received the client's two requests -/
def exServerTwo : World :=
  afterRecv exCfg (afterRecv exCfg (exW exServer) (sendOf exCfg (exW exClient) exGet))
    (sendOf exCfg (afterSend exCfg (exW exClient) exGet) exGet2)

/-- **C11 is false**: a server receives two requests and then answers both (two responses, both
accepted by `coap2oscore`): the two responses are encrypted under the same key with the same nonce
and different plaintexts. -/
theorem C11_false_two_requests :
    let w := afterSend exCfg (afterSend exCfg exServerTwo exRsp) exRsp2
    (step exCfg toyCrypto exServerTwo (.protect exRsp 256 none)).1.isOk = true ∧
    (step exCfg toyCrypto (afterSend exCfg exServerTwo exRsp) (.protect exRsp2 256 none)).1.isOk = true ∧
    ∃ a b, w.log = [a, b] ∧ a.key = b.key ∧ a.nonce = b.nonce ∧ a.pt ≠ b.pt := by
  refine ⟨by decide +kernel, by decide +kernel, ?_⟩
  refine ⟨(afterSend exCfg (afterSend exCfg exServerTwo exRsp) exRsp2).log[0]!,
    (afterSend exCfg (afterSend exCfg exServerTwo exRsp) exRsp2).log[1]!, ?_, ?_, ?_, ?_⟩ <;>
    decide +kernel

/-- the server after an observe registration (token 0x4A) and a GET (token 0x4B) -/
def exServerObs : World :=
  afterRecv exCfg (afterRecv exCfg (exW exServer) (sendOf exCfg (exW exClient) exObs))
    (sendOf exCfg (afterSend exCfg (exW exClient) exObs) exGet2)

/-- **C11 is false**: a notification (own PIV) followed by the answer to another request: the answer
is encrypted with the nonce of the notification. -/
theorem C11_false_notification :
    let w := afterSend exCfg (afterSend exCfg exServerObs exNotif) exRsp2
    (step exCfg toyCrypto exServerObs (.protect exNotif 256 none)).1.isOk = true ∧
    (step exCfg toyCrypto (afterSend exCfg exServerObs exNotif) (.protect exRsp2 256 none)).1.isOk = true ∧
    ∃ a b, w.log = [a, b] ∧ a.key = b.key ∧ a.nonce = b.nonce ∧ a.pt ≠ b.pt := by
  refine ⟨by decide +kernel, by decide +kernel, ?_⟩
  refine ⟨(afterSend exCfg (afterSend exCfg exServerObs exNotif) exRsp2).log[0]!,
    (afterSend exCfg (afterSend exCfg exServerObs exNotif) exRsp2).log[1]!, ?_, ?_, ?_, ?_⟩ <;>
    decide +kernel

/-- the client's first request, parsed -/
def exReqParsed : Pkt × List (Opt × Bytes) :=
  (coapParse (sendOf exCfg (exW exClient) exGet)).getD (⟨0, 0, 0, 0, [], [], []⟩, [])
/-- its OSCORE option -/
def exReqOpt : OscOpt := (oscoreOptionParser exReqParsed.2).getD ⟨.null, .null, .null⟩

/-- non-vacuity of `Answered` -/
example : ∃ e w', Answered exCfg toyCrypto (exW exServer) (sendOf exCfg (exW exClient) exGet) 0 e w' := by
  refine ⟨(afterSend exCfg (afterRecv exCfg (exW exServer) (sendOf exCfg (exW exClient) exGet)) exRsp).log[0]!,
    afterSend exCfg (afterRecv exCfg (exW exServer) (sendOf exCfg (exW exClient) exGet)) exRsp,
    256, exGet, exReqParsed.1, exReqParsed.2, exReqOpt, [0], exRsp, 256, none,
    ?_, ?_, ?_, ?_, ?_, ?_, ?_, ?_, ?_⟩ <;> decide +kernel

end Verif
