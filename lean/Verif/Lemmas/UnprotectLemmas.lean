import Verif.Lemmas.ProtectLemmas
namespace Verif

/-- What one run of `decrypt_wrapper` can do to the context. -/
inductive DecEffect (cfg : Cfg) (C : Crypto) (opt : Option OscOpt) (p : Pkt) (c : Ctx) :
    R (Pkt × Bytes) → Ctx → Prop
  | unchanged {r} (hr : ∀ x, r ≠ .ok x) : DecEffect cfg C opt p c r c
  /-- the AEAD accepted the ciphertext -/
  | auth {r} {rp rk nonce aad pt t}
      (hread : readWrapper c.inter (msgType p) p.token (decPivKid opt) = .ok (rp, rk))
      (hnonce : decNonce c opt = .ok nonce)
      (haad : createAad rk rp = .ok aad)
      (hpt : coseDecrypt C p.payload nonce aad c.recipientKey = .ok pt)
      (hres : (∃ out uri, r = .ok (out, pt) ∧ oCoapPkgGenerate pt p = .ok out ∧
          uriPathCreate out.opts cfg.uriMax = .ok uri ∧
          updateWrapper cfg c.inter (msgType out) p.token uri rp rk = .ok t) ∨
        ((∀ x, r ≠ .ok x) ∧ t = c.inter)) :
      DecEffect cfg C opt p c r { c with nonce := nonce, inter := t }

theorem decryptWrapper_effect (cfg : Cfg) (C : Crypto) (opt : Option OscOpt) (p : Pkt) (c : Ctx) :
    DecEffect cfg C opt p c (decryptWrapper cfg C opt p c).1 (decryptWrapper cfg C opt p c).2 := by
  unfold decryptWrapper
  simp only [M.bind_get]
  cases hread : readWrapper c.inter (msgType p) p.token (decPivKid opt) with
  | err e => exact .unchanged (by simp [M.bind_lift_err])
  | ub => exact .unchanged (by simp [M.bind_lift_ub])
  | ok rr =>
  obtain ⟨rp, rk⟩ := rr
  simp only [M.bind_lift_ok]
  cases hnonce : decNonce c opt with
  | err e => exact .unchanged (by simp [M.bind_lift_err])
  | ub => exact .unchanged (by simp [M.bind_lift_ub])
  | ok nonce =>
  simp only [M.bind_lift_ok]
  cases haad : createAad rk rp with
  | err e => exact .unchanged (by simp [M.bind_lift_err])
  | ub => exact .unchanged (by simp [M.bind_lift_ub])
  | ok aad =>
  simp only [M.bind_lift_ok]
  cases hpt : coseDecrypt C p.payload nonce aad c.recipientKey with
  | err e => exact .unchanged (by simp [M.bind_lift_err])
  | ub => exact .unchanged (by simp [M.bind_lift_ub])
  | ok pt =>
  simp only [M.bind_lift_ok]
  have hst : ∀ (f : M Ctx (Pkt × Bytes)),
      (if opt.isSome = true then (M.modify (fun c : Ctx => { c with nonce := nonce }) >>= fun _ => f) else f) c =
        f { c with nonce := nonce } := by
    intro f
    cases opt with
    | some o => rfl
    | none =>
      simp only [decNonce, R.ok.injEq] at hnonce
      subst hnonce
      rfl
  rw [hst]
  cases hout : oCoapPkgGenerate pt p with
  | err e => exact .auth hread hnonce haad hpt (t := c.inter) (Or.inr ⟨by simp [M.bind_lift_err], rfl⟩)
  | ub => exact .auth hread hnonce haad hpt (t := c.inter) (Or.inr ⟨by simp [M.bind_lift_ub], rfl⟩)
  | ok out =>
  simp only [M.bind_lift_ok]
  cases huri : uriPathCreate out.opts cfg.uriMax with
  | err e => exact .auth hread hnonce haad hpt (t := c.inter) (Or.inr ⟨by simp [M.bind_lift_err], rfl⟩)
  | ub => exact .auth hread hnonce haad hpt (t := c.inter) (Or.inr ⟨by simp [M.bind_lift_ub], rfl⟩)
  | ok uri =>
  simp only [M.bind_lift_ok]
  cases ht : updateWrapper cfg c.inter (msgType out) p.token uri rp rk with
  | err e => exact .auth hread hnonce haad hpt (t := c.inter) (Or.inr ⟨by simp [M.bind_lift_err], rfl⟩)
  | ub => exact .auth hread hnonce haad hpt (t := c.inter) (Or.inr ⟨by simp [M.bind_lift_ub], rfl⟩)
  | ok t => exact .auth hread hnonce haad hpt (Or.inl ⟨out, uri, rfl, hout, huri, ht⟩)

/-- how a run of `m >>= f` splits -/
theorem M.bind_cases {σ α β : Type} (m : M σ α) (f : α → M σ β) (s : σ) :
    (∃ a, (m s).1 = .ok a ∧ (m >>= f) s = f a (m s).2) ∨
    ((∀ a, (m s).1 ≠ .ok a) ∧ (∀ b, ((m >>= f) s).1 ≠ .ok b) ∧ ((m >>= f) s).2 = (m s).2) := by
  rw [M.run_bind]
  rcases h : m s with ⟨r, s'⟩
  cases r with
  | ok a => exact Or.inl ⟨a, rfl, rfl⟩
  | err e => exact Or.inr ⟨by simp, by simp, rfl⟩
  | ub => exact Or.inr ⟨by simp, by simp, rfl⟩

/-- What `oscore2coap` does to the Echo state and the replay window after decryption. -/
inductive AfterEffect (o : OscOpt) (pt : Bytes) (c : Ctx) : R Unit → Ctx → Prop
  | reboot (he : c.echo = .reboot) :
      AfterEffect o pt c (.err .first_request_after_reboot) { c with echo := .verify }
  | verified {piv} (he : c.echo = .verify) (hv : echoValIsFresh c.echoVal pt = .ok ())
      (hp : o.piv.read = .ok piv) :
      AfterEffect o pt c (.ok ())
        { c with window := c.window.reinit (beVal piv), echo := .synchronized }
  | failed {r} (hr : ∀ x, r ≠ .ok x) (he : c.echo = .verify) : AfterEffect o pt c r c
  | recorded {b l} (he : c.echo = .synchronized) (hp : o.piv.read = .ok (b :: l)) :
      AfterEffect o pt c (.ok ()) { c with window := (c.window.update b.toNat).2 }
  | bad {r} (hr : ∀ x, r ≠ .ok x) (he : c.echo = .synchronized)
      (hp : ∀ b l, o.piv.read ≠ .ok (b :: l)) : AfterEffect o pt c r c

theorem afterRequest_effect (o : OscOpt) (pt : Bytes) (c : Ctx) :
    AfterEffect o pt c (afterRequest o pt c).1 (afterRequest o pt c).2 := by
  unfold afterRequest
  simp only [M.bind_get]
  cases he : c.echo with
  | reboot => exact .reboot he
  | verify =>
    simp only
    cases hv : echoValIsFresh c.echoVal pt with
    | ok u =>
      simp only
      cases hp : o.piv.read with
      | ok piv => exact .verified he hv hp
      | err e => exact .failed (by simp [M.bind_lift_err]) he
      | ub => exact .failed (by simp [M.bind_lift_ub]) he
    | err e => exact .failed (by simp) he
    | ub => exact .failed (by simp) he
  | synchronized =>
    simp only
    cases hp : o.piv.read with
    | ok piv =>
      simp only [M.bind_lift_ok]
      cases piv with
      | nil => exact .bad (by simp) he (by simp [hp])
      | cons b l => exact .recorded he hp
    | err e => exact .bad (by simp [M.bind_lift_err]) he (by simp [hp])
    | ub => exact .bad (by simp [M.bind_lift_ub]) he (by simp [hp])

/-- What one call of `oscore2coap` can do. -/
inductive UnprotectEffect (cfg : Cfg) (C : Crypto) (inp : Bytes) (cap : Nat) (c : Ctx) :
    R Bytes → Ctx → Prop
  | unchanged {r} (hr : ∀ x, r ≠ .ok x) : UnprotectEffect cfg C inp cap c r c
  | reqFail {p t o r1 c1 r}
      (hf : c.ssn < ssnOverflow) (hp : coapParse inp = .ok (p, t))
      (ho : oscoreOptionParser t = .ok o) (hreq : isRequest p = true)
      (hkid : kidMatches c o = .ok true) (hrep : checkReplay c o = .ok ())
      (hdec : DecEffect cfg C (some o) p c r1 c1) (hr1 : ∀ x, r1 ≠ .ok x) (hr : ∀ x, r ≠ .ok x) :
      UnprotectEffect cfg C inp cap c r c1
  | reqOk {p t o out pt c1 r2 c2}
      (hf : c.ssn < ssnOverflow) (hp : coapParse inp = .ok (p, t))
      (ho : oscoreOptionParser t = .ok o) (hreq : isRequest p = true)
      (hkid : kidMatches c o = .ok true) (hrep : checkReplay c o = .ok ())
      (hdec : DecEffect cfg C (some o) p c (.ok (out, pt)) c1)
      (hafter : AfterEffect o pt c1 r2 c2) :
      UnprotectEffect cfg C inp cap c (r2 >>= fun _ => coapSerialize cfg out cap) c2
  | rspFail {p t o opt r1 c1 r}
      (hf : c.ssn < ssnOverflow) (hp : coapParse inp = .ok (p, t))
      (ho : oscoreOptionParser t = .ok o) (hreq : isRequest p = false)
      (hopt : opt = if o.piv.len ≠ 0 then some o else none)
      (hdec : DecEffect cfg C opt p c r1 c1) (hr1 : ∀ x, r1 ≠ .ok x) (hr : ∀ x, r ≠ .ok x) :
      UnprotectEffect cfg C inp cap c r c1
  /-- an observe notification -/
  | notifOk {p t o out pt c1 piv}
      (hf : c.ssn < ssnOverflow) (hp : coapParse inp = .ok (p, t))
      (ho : oscoreOptionParser t = .ok o) (hreq : isRequest p = false)
      (hobs : isObserve p.opts = true) (hpl : o.piv.len ≠ 0) (hpiv : o.piv.read = .ok piv)
      (hchk : checkNotification c piv = .ok ())
      (hdec : DecEffect cfg C (some o) p c (.ok (out, pt)) c1) :
      UnprotectEffect cfg C inp cap c (coapSerialize cfg out cap)
        { c1 with notifNum := beVal piv, notifInit := true }
  /-- any other response -/
  | rspOk {p t o opt out pt c1}
      (hf : c.ssn < ssnOverflow) (hp : coapParse inp = .ok (p, t))
      (ho : oscoreOptionParser t = .ok o) (hreq : isRequest p = false)
      (hobs : isObserve p.opts = false) (hopt : opt = if o.piv.len ≠ 0 then some o else none)
      (hdec : DecEffect cfg C opt p c (.ok (out, pt)) c1) :
      UnprotectEffect cfg C inp cap c (coapSerialize cfg out cap) c1

theorem checkNotification_ok {c : Ctx} {piv : Bytes} (u) (h : checkNotification c piv = .ok u) :
    piv2ssn piv = .ok (beVal piv) ∧ ¬(c.notifInit = true ∧ c.notifNum ≥ beVal piv) := by
  unfold checkNotification at h
  obtain ⟨n, h1, h2⟩ := R.bind_eq_ok.1 h
  have : n = beVal piv := by
    unfold piv2ssn at h1
    split at h1
    · cases h1
    · simpa using h1.symm
  subst this
  refine ⟨h1, ?_⟩
  intro hh
  rw [if_pos hh] at h2
  cases h2

/-- What the part of `oscore2coap` after parsing does. -/
inductive BodyEffect (cfg : Cfg) (C : Crypto) (o : OscOpt) (p : Pkt) (c : Ctx) :
    R Pkt → Ctx → Prop
  | unchanged {r} (hr : ∀ x, r ≠ .ok x) : BodyEffect cfg C o p c r c
  | reqFail {r1 c1 r} (hreq : isRequest p = true)
      (hkid : kidMatches c o = .ok true) (hrep : checkReplay c o = .ok ())
      (hdec : DecEffect cfg C (some o) p c r1 c1) (hr1 : ∀ x, r1 ≠ .ok x) (hr : ∀ x, r ≠ .ok x) :
      BodyEffect cfg C o p c r c1
  | reqOk {out pt c1 r2 c2} (hreq : isRequest p = true)
      (hkid : kidMatches c o = .ok true) (hrep : checkReplay c o = .ok ())
      (hdec : DecEffect cfg C (some o) p c (.ok (out, pt)) c1)
      (hafter : AfterEffect o pt c1 r2 c2) :
      BodyEffect cfg C o p c (r2 >>= fun _ => .ok out) c2
  | rspFail {opt r1 c1 r} (hreq : isRequest p = false)
      (hopt : opt = if o.piv.len ≠ 0 then some o else none)
      (hdec : DecEffect cfg C opt p c r1 c1) (hr1 : ∀ x, r1 ≠ .ok x) (hr : ∀ x, r ≠ .ok x) :
      BodyEffect cfg C o p c r c1
  | notifOk {out pt c1 piv} (hreq : isRequest p = false)
      (hobs : isObserve p.opts = true) (hpl : o.piv.len ≠ 0) (hpiv : o.piv.read = .ok piv)
      (hchk : checkNotification c piv = .ok ())
      (hdec : DecEffect cfg C (some o) p c (.ok (out, pt)) c1) :
      BodyEffect cfg C o p c (.ok out) { c1 with notifNum := beVal piv, notifInit := true }
  | rspOk {opt out pt c1} (hreq : isRequest p = false)
      (hobs : isObserve p.opts = false) (hopt : opt = if o.piv.len ≠ 0 then some o else none)
      (hdec : DecEffect cfg C opt p c (.ok (out, pt)) c1) :
      BodyEffect cfg C o p c (.ok out) c1

theorem unprotectRequest_effect (cfg : Cfg) (C : Crypto) (o : OscOpt) (p : Pkt) (c : Ctx)
    (hreq : isRequest p = true) :
    BodyEffect cfg C o p c (unprotectRequest cfg C o p c).1 (unprotectRequest cfg C o p c).2 := by
  unfold unprotectRequest
  simp only [M.bind_get]
  cases hk : kidMatches c o with
  | err e => exact .unchanged (by simp [M.bind_lift_err])
  | ub => exact .unchanged (by simp [M.bind_lift_ub])
  | ok m =>
  simp only [M.bind_lift_ok]
  cases m with
  | false => exact .unchanged (by simp)
  | true =>
  simp only [Bool.true_eq_false, if_false]
  cases hrep : checkReplay c o with
  | err e => exact .unchanged (by simp [M.bind_lift_err])
  | ub => exact .unchanged (by simp [M.bind_lift_ub])
  | ok u =>
  simp only [M.bind_lift_ok]
  have hd := decryptWrapper_effect cfg C (some o) p c
  rw [M.run_bind]
  rcases hdw : decryptWrapper cfg C (some o) p c with ⟨r1, c1⟩
  rw [hdw] at hd
  simp only at hd
  cases r1 with
  | err e => exact .reqFail hreq hk hrep hd (by intro x h; cases h) (by intro x h; cases h)
  | ub => exact .reqFail hreq hk hrep hd (by intro x h; cases h) (by intro x h; cases h)
  | ok x =>
    obtain ⟨out, pt⟩ := x
    simp only
    have ha := afterRequest_effect o pt c1
    rw [M.run_bind]
    rcases haw : afterRequest o pt c1 with ⟨r2, c2⟩
    rw [haw] at ha
    simp only at ha
    have := BodyEffect.reqOk (C := C) (cfg := cfg) hreq hk hrep hd ha
    cases r2 with
    | ok _ => exact this
    | err e => exact this
    | ub => exact this

theorem unprotectResponse_effect (cfg : Cfg) (C : Crypto) (o : OscOpt) (p : Pkt) (c : Ctx)
    (hreq : isRequest p = false) :
    BodyEffect cfg C o p c (unprotectResponse cfg C o p c).1 (unprotectResponse cfg C o p c).2 := by
  unfold unprotectResponse
  simp only [M.bind_get]
  cases hobs : isObserve p.opts with
  | true =>
    simp only [if_true]
    by_cases hpl : o.piv.len ≠ 0
    · rw [if_pos hpl]
      cases hpiv : o.piv.read with
      | err e => exact .unchanged (by simp [M.bind_lift_err])
      | ub => exact .unchanged (by simp [M.bind_lift_ub])
      | ok piv =>
      simp only [M.bind_lift_ok]
      cases hc : checkNotification c piv with
      | err e => exact .unchanged (by simp [M.bind_lift_err])
      | ub => exact .unchanged (by simp [M.bind_lift_ub])
      | ok u =>
      simp only [M.bind_lift_ok]
      have hd := decryptWrapper_effect cfg C (some o) p c
      rw [M.run_bind]
      rcases hdw : decryptWrapper cfg C (some o) p c with ⟨r1, c1⟩
      rw [hdw] at hd
      simp only at hd
      have ho : some o = if o.piv.len ≠ 0 then some o else none := by rw [if_pos hpl]
      cases r1 with
      | err e => exact .rspFail hreq ho hd (by intro x h; cases h) (by intro x h; cases h)
      | ub => exact .rspFail hreq ho hd (by intro x h; cases h) (by intro x h; cases h)
      | ok x =>
        obtain ⟨out, pt⟩ := x
        simp only
        unfold notificationUpdate
        rw [(checkNotification_ok u hc).1]
        simp only [M.bind_assoc, M.bind_lift_ok, M.bind_modify]
        exact .notifOk hreq hobs hpl hpiv hc hd
    · rw [if_neg hpl]
      exact .unchanged (by simp)
  | false =>
    simp only [Bool.false_eq_true, if_false]
    generalize ho : (if o.piv.len ≠ 0 then some o else none) = opt
    have hd := decryptWrapper_effect cfg C opt p c
    rw [M.run_bind]
    rcases hdw : decryptWrapper cfg C opt p c with ⟨r1, c1⟩
    rw [hdw] at hd
    simp only at hd
    cases r1 with
    | err e => exact .rspFail hreq ho.symm hd (by intro x h; cases h) (by intro x h; cases h)
    | ub => exact .rspFail hreq ho.symm hd (by intro x h; cases h) (by intro x h; cases h)
    | ok x =>
      obtain ⟨out, pt⟩ := x
      exact .rspOk hreq hobs ho.symm hd

theorem oscore2coap_effect (cfg : Cfg) (C : Crypto) (inp : Bytes) (cap : Nat) (c : Ctx) :
    UnprotectEffect cfg C inp cap c (oscore2coap cfg C inp cap c).1
      (oscore2coap cfg C inp cap c).2 := by
  unfold oscore2coap
  simp only [M.bind_get]
  cases hf : checkFreshness c with
  | err e => exact .unchanged (by rw [M.bind_lift_err]; simp)
  | ub => exact .unchanged (by rw [M.bind_lift_ub]; simp)
  | ok u =>
  have hf' := checkFreshness_ok u hf
  rw [M.bind_lift_ok]
  cases hp : coapParse inp with
  | err e => exact .unchanged (by rw [M.bind_lift_err]; simp)
  | ub => exact .unchanged (by rw [M.bind_lift_ub]; simp)
  | ok pp =>
  obtain ⟨p, t⟩ := pp
  rw [M.bind_lift_ok]
  cases ho : oscoreOptionParser t with
  | err e => exact .unchanged (by rw [M.bind_lift_err]; simp)
  | ub => exact .unchanged (by rw [M.bind_lift_ub]; simp)
  | ok o =>
  rw [M.bind_lift_ok]
  generalize checkBufferSize cfg.maxPlaintext (sub32 p.payload.length 8) = hb
  cases hb with
  | err e => exact .unchanged (by rw [M.bind_lift_err]; simp)
  | ub => exact .unchanged (by rw [M.bind_lift_ub]; simp)
  | ok _ =>
  rw [M.bind_lift_ok]
  have key : ∀ (m : M Ctx Pkt), BodyEffect cfg C o p c (m c).1 (m c).2 →
      UnprotectEffect cfg C inp cap c ((m >>= fun out => (M.lift (coapSerialize cfg out cap) : M Ctx Bytes)) c).1
        ((m >>= fun out => (M.lift (coapSerialize cfg out cap) : M Ctx Bytes)) c).2 := by
    intro m hm
    have h1 : ((m >>= fun out => (M.lift (coapSerialize cfg out cap) : M Ctx Bytes)) c).1 =
        ((m c).1 >>= fun out => coapSerialize cfg out cap) := by
      rw [M.run_bind]; rcases m c with ⟨r, s⟩; cases r <;> rfl
    have h2 : ((m >>= fun out => (M.lift (coapSerialize cfg out cap) : M Ctx Bytes)) c).2 = (m c).2 := by
      rw [M.run_bind]; rcases m c with ⟨r, s⟩; cases r <;> rfl
    rw [h1, h2]
    clear h1 h2
    generalize (m c).1 = r at hm
    generalize (m c).2 = c' at hm
    have nok : ∀ {r : R Pkt}, (∀ x, r ≠ .ok x) → ∀ x, (r >>= fun out => coapSerialize cfg out cap) ≠ .ok x := by
      intro r hr x hx
      obtain ⟨a, ha, _⟩ := R.bind_eq_ok.1 hx
      exact hr a ha
    cases hm with
    | unchanged hr => exact .unchanged (nok hr)
    | reqFail hreq hkid hrep hdec hr1 hr => exact .reqFail hf' hp ho hreq hkid hrep hdec hr1 (nok hr)
    | @reqOk out pt c1 r2 _ hreq hkid hrep hdec hafter =>
      have : ((r2 >>= fun _ => R.ok out) >>= fun out => coapSerialize cfg out cap) =
          (r2 >>= fun _ => coapSerialize cfg out cap) := by cases r2 <;> rfl
      rw [this]
      exact .reqOk hf' hp ho hreq hkid hrep hdec hafter
    | rspFail hreq hopt hdec hr1 hr => exact .rspFail hf' hp ho hreq hopt hdec hr1 (nok hr)
    | notifOk hreq hobs hpl hpiv hchk hdec => exact .notifOk hf' hp ho hreq hobs hpl hpiv hchk hdec
    | rspOk hreq hobs hopt hdec => exact .rspOk hf' hp ho hreq hobs hopt hdec
  cases hreq : isRequest p with
  | true =>
    rw [if_pos rfl]
    exact key _ (unprotectRequest_effect cfg C o p c hreq)
  | false =>
    rw [if_neg (by simp)]
    exact key _ (unprotectResponse_effect cfg C o p c hreq)

end Verif
