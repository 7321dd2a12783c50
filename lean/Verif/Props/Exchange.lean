import Verif.Props.Interactions
/-
C22, C23: a protected request is recovered by the server, a protected response by the client.
-/
namespace Verif

/-- The two parties hold the same (PIV, KID) for the request with this token. -/
def SameRequest (t1 t2 : Table) (token : Bytes) : Prop :=
  ∃ r1 r2, Outstanding t1 token r1 ∧ Outstanding t2 token r2 ∧ r1.piv = r2.piv ∧ r1.kid = r2.kid

theorem updateWrapper_outstanding {cfg : Cfg} {t t' : Table} {ty : MsgType} {token uri rp rk : Bytes}
    (hd : Distinct t) (h : updateWrapper cfg t ty token uri rp rk = .ok t')
    (hty : ty ≠ .response ∧ ty ≠ .notification) :
    ∃ r, Outstanding t' token r ∧ r.piv = rp ∧ r.kid = rk := by
  unfold updateWrapper at h
  simp only at h
  generalize hk : (if ty = .cancellation then MsgType.registration else ty) = k at h
  have hreq : k = .request ∨ k = .registration := by
    subst hk; cases ty <;> simp_all
  rw [if_pos hreq] at h
  obtain ⟨a, ha, h⟩ := R.bind_eq_ok.1 h
  obtain ⟨b, hb, h⟩ := R.bind_eq_ok.1 h
  obtain ⟨c, hc, h⟩ := R.bind_eq_ok.1 h
  obtain ⟨d, hd', hset⟩ := R.bind_eq_ok.1 h
  have ha' := (memcpyS_ok.1 ha).1
  have hb' := (memcpyS_ok.1 hb).1
  have hc' := (memcpyS_ok.1 hc).1
  have := (C29_set cfg t t' _ hd hset).2.2
  exact ⟨_, ⟨(this _).2 (.inl rfl), hc'⟩, ha', hb'⟩

/-- **C22** If the client's `coap2oscore` returns `ok` for a request that can be carried without
loss, then the server's `oscore2coap` – mirrored context, synchronised, sequence number acceptable,
room in the interaction table, large enough output buffer – returns `ok`, and its output is the CoAP
serialisation of exactly the message the client protected: parsing it gives the same packet as
parsing the client's input.  Afterwards both sides hold the same request nonce and the same
(PIV, KID) for that token.

`_partial`: the carriability conditions are needed (see the `C22_false_*` theorems). -/
theorem C22_request_partial (cfg : Cfg) (C : Crypto) (hC : C.Lawful) (nvmW : Option Err)
    (inp b : Bytes) (cap cap' : Nat) (w w' : World) (srv : Ctx) (p : Pkt)
    (hsend : coap2oscore cfg C nvmW inp cap w = (.ok b, w'))
    (hp : coapDeserialize inp = .ok p) (hreq : isRequest p = true) (hack : ¬(p.type = 2 ∧ p.code = 0))
    (hcar : Carriable cfg p) (hb : b.length < 65536)
    (hmir : Mirror w.ctx srv) (hssn : srv.ssn < 0x7FFFFF) (hsync : srv.echo = .synchronized)
    (hfresh : srv.window.valid w.ctx.ssn = true)
    (hroom : HasRoom srv.inter p.token) (hd1 : Distinct w.ctx.inter) (hd2 : Distinct srv.inter)
    (hcap : (encPkt p).length ≤ cap') :
    ∃ out srv', oscore2coap cfg C b cap' srv = (.ok out, srv') ∧ coapDeserialize out = .ok p ∧
      out = encPkt p ∧ srv'.nonce = w'.ctx.nonce ∧ SameRequest w'.ctx.inter srv'.inter p.token := by
  obtain ⟨out, srv', h1, h2, h3, h4, uri, rp, rk, _, h6, h7⟩ :=
    request_recovered cfg C hC nvmW inp b cap cap' w w' srv p hsend hp hreq hack hcar hb hmir hssn
      hsync hfresh hroom hcap
  obtain ⟨r1, ho1, hp1, hk1⟩ := updateWrapper_outstanding hd1 h7 (msgType_request hreq)
  obtain ⟨r2, ho2, hp2, hk2⟩ := updateWrapper_outstanding hd2 h6 (msgType_request hreq)
  exact ⟨out, srv', h1, h3, h2, h4, r1, r2, ho1, ho2, by rw [hp1, hp2], by rw [hk1, hk2]⟩

/-! ### responses -/

theorem isObserve_getObserve (l : List Opt) : isObserve l = (getObserveValue l).isSome := by
  unfold isObserve getObserveValue
  rw [Option.isSome_map]
  induction l with
  | nil => rfl
  | cons o l ih =>
    rw [List.any_cons, List.find?_cons]
    cases o.num == optOBSERVE <;> simp [ih]

theorem isObserve_msgType {p : Pkt} (h : isRequest p = false) :
    isObserve p.opts = true ↔ msgType p = .notification := by
  rw [isObserve_getObserve]
  unfold msgType
  rw [h]
  cases getObserveValue p.opts <;> simp

theorem getObserve_recovered_isSome (req : Bool) (l : List Opt) :
    isObserve (l.map (recovered req)) = isObserve l := by
  unfold isObserve
  rw [List.any_map]
  congr 1
  funext o
  simp [recovered_num]

theorem uriPathLoop_recovered (max : Nat) (req : Bool) (l : List Opt) (cur : Bytes) :
    uriPathLoop max cur (l.map (recovered req)) = uriPathLoop max cur l := by
  induction l generalizing cur with
  | nil => rfl
  | cons o l ih =>
    rw [List.map_cons]
    unfold uriPathLoop
    rw [recovered_num]
    by_cases h : o.num = optURI_PATH
    · have : recovered req o = o := by
        unfold recovered
        rw [if_neg]
        rintro ⟨h6, _⟩
        rw [h] at h6; cases h6
      rw [this]
      simp only [h, ne_eq, not_true_eq_false, if_false]
      simp only [ih]
    · rw [if_pos h, if_pos h, ih]

theorem uriPathCreate_recovered (max : Nat) (req : Bool) (l : List Opt) :
    uriPathCreate (l.map (recovered req)) max = uriPathCreate l max := by
  unfold uriPathCreate; rw [uriPathLoop_recovered]

theorem optBytesLen_recovered (req : Bool) (l : List Opt) :
    optBytesLen (l.map (recovered req)) ≤ optBytesLen l := by
  induction l with
  | nil => exact Nat.le_refl _
  | cons o l ih =>
    rw [List.map_cons]
    unfold optBytesLen recovered at *
    split
    · simp [Opt.len] at *; omega
    · simp at *; omega

/-- the part of `oscore2coap` before and after the decryption of a response -/
theorem oscore2coap_response {cfg : Cfg} {C : Crypto} {b out : Bytes} {cap : Nat} {c c' : Ctx} {p q : Pkt}
    {t : List (Opt × Bytes)} {o : OscOpt} (hssn : c.ssn < 0x7FFFFF) (hp : coapParse b = .ok (p, t))
    (ho : oscoreOptionParser t = .ok o)
    (hsize : checkBufferSize cfg.maxPlaintext (sub32 p.payload.length 8) = .ok ())
    (hrsp : isRequest p = false)
    (hbody : unprotectResponse cfg C o p c = (.ok q, c')) (hser : coapSerialize cfg q cap = .ok out) :
    oscore2coap cfg C b cap c = (.ok out, c') := by
  unfold oscore2coap
  rw [M.bind_get]
  have hfr : checkFreshness c = .ok () := by
    unfold checkFreshness ssnOverflow; rw [if_neg (by omega)]
  rw [hfr, M.bind_lift_ok, hp, M.bind_lift_ok]
  simp only
  rw [ho, M.bind_lift_ok, hsize, M.bind_lift_ok, hrsp]
  simp only [Bool.false_eq_true, if_false]
  rw [M.bind_ok hbody, M.run_lift, hser]

/-- The message the client gets: the response, where the value of an Observe option (which is not
protected) is empty. -/
def receivedResponse (p : Pkt) : Pkt := { p with opts := p.opts.map (recovered false) }

theorem receivedResponse_eq {p : Pkt} (h : ∀ o ∈ p.opts, o.num = 6 → o.value = []) :
    receivedResponse p = p := by
  unfold receivedResponse
  have : p.opts.map (recovered false) = p.opts := by
    rw [List.map_congr_left (g := id)]
    · exact List.map_id _
    · intro o ho
      unfold recovered
      split
      · rename_i hh
        have := h o ho hh.1
        cases o; simp_all
      · rfl
  rw [this]

/-- The core of C23, with everything the client changes; the two sides may be built with different configurations. -/
theorem response_recovered_builds (cfg cfgR : Cfg) (C : Crypto) (hC : C.Lawful) (nvmW : Option Err)
    (inp b : Bytes) (cap cap' : Nat) (w w' : World) (cl : Ctx) (p : Pkt)
    (hsend : coap2oscore cfg C nvmW inp cap w = (.ok b, w'))
    (hp : coapDeserialize inp = .ok p) (hrsp : isRequest p = false)
    (hcar : Carriable cfg p) (hR : Receivable cfg cfgR p) (uriR : Bytes) (huriR : uriPathCreate p.opts cfgR.uriMax = .ok uriR) (hb : b.length < 65536)
    (hmir : Mirror w.ctx cl) (hssn : cl.ssn < 0x7FFFFF)
    (hd1 : Distinct w.ctx.inter) (hd2 : Distinct cl.inter)
    (hsame : SameRequest w.ctx.inter cl.inter p.token)
    (hnonce : w.ctx.echo = .verify ∨ isObserve p.opts = true ∨ cl.nonce = w.ctx.nonce)
    (hnotif : isObserve p.opts = true → cl.notifInit = true → cl.notifNum < w.ctx.ssn)
    (hcap : (encPkt (receivedResponse p)).length ≤ cap') :
    ∃ cl', oscore2coap cfgR C b cap' cl = (.ok (encPkt (receivedResponse p)), cl') ∧
      (isObserve p.opts = false → ¬∃ r, Outstanding cl'.inter p.token r) ∧
      (isObserve p.opts = true → cl'.inter = cl.inter ∧ cl'.notifNum = w.ctx.ssn) ∧
      ∃ uri rp rk, updateWrapper cfgR cl.inter (msgType p) p.token uriR rp rk = .ok cl'.inter ∧ uriPathCreate p.opts cfg.uriMax = .ok uri ∧
        updateWrapper cfg w.ctx.inter (msgType p) p.token uri rp rk = .ok w'.ctx.inter ∧
        (w'.ctx.ssn = w.ctx.ssn ∨ w'.ctx.ssn = w.ctx.ssn + 1) ∧
        (isObserve p.opts = false → cl' = { cl with nonce := w'.ctx.nonce, inter := cl'.inter }) ∧
        (isObserve p.opts = true → w'.ctx.ssn = w.ctx.ssn + 1 ∧
          cl' = { cl with nonce := w'.ctx.nonce, notifNum := w.ctx.ssn, notifInit := true }) := by
  have hack : ¬(p.type = 2 ∧ p.code = 0) := by
    rintro ⟨_, h0⟩
    unfold isRequest at hrsp
    rw [h0] at hrsp
    cases hrsp
  obtain ⟨v, hv⟩ := protect_ok hsend hp hack
  have hcfg := maxCoapOptions_le ⟨hcar.bufs.1, hcar.bufs.2.1⟩
  obtain ⟨t, o, hparse, hopt, hpiv, hkid, _, hpl, hkl⟩ :=
    hv.parsed (by omega) hb hcar.outer hcar.noOscore
  obtain ⟨hOrsp, hOty⟩ := outer_msgType_response (ct := v.ct) (v := v.opt) hrsp
  have hty := msgType_response hrsp
  have htok := hv.range.token
  obtain ⟨r1, r2, ho1, ho2, hep, hek⟩ := hsame
  have hg1 := ((C29_get _ _ htok hd1).1 r1).2 ho1
  have hg2 := ((C29_get _ _ htok hd2).1 r2).2 ho2
  have hread := hv.read
  unfold readWrapper at hread
  rw [if_pos hty, hg1] at hread
  simp only [R.ok_bind, R.pure_eq, R.ok.injEq, Prod.mk.injEq] at hread
  obtain ⟨hrp, hrk⟩ := hread
  have hdecr := coseDecrypt_encrypt hC hv.ct
  have hreb := hv.rebuilt hcar.toInnerOk
  rw [hrsp] at hreb
  have hmsg : msgType (receivedResponse p) = msgType p := by
    have h1 : isRequest (receivedResponse p) = false := hrsp
    have h2 : isObserve (receivedResponse p).opts = isObserve p.opts := getObserve_recovered_isSome _ _
    rcases msgType_response h1 with h | h
    · rcases hty with h' | h'
      · rw [h, h']
      · have := (isObserve_msgType hrsp).2 h'
        rw [← h2] at this
        exact absurd ((isObserve_msgType h1).1 this) (by rw [h]; simp)
    · have := (isObserve_msgType h1).2 h
      rw [h2] at this
      rw [h, (isObserve_msgType hrsp).1 this]
  -- the table after the call
  have hupd : ∃ t2, updateWrapper cfgR cl.inter (msgType (receivedResponse p)) p.token uriR v.rp v.rk = .ok t2 ∧
      (isObserve p.opts = false → ¬∃ r, Outstanding t2 p.token r) ∧
      (isObserve p.opts = true → t2 = cl.inter) := by
    rw [hmsg]
    rcases hty with h | h
    · obtain ⟨t2, h2, _, _, h4⟩ := (C29_remove cl.inter p.token htok hd2).2 ⟨r2, ho2⟩
      refine ⟨t2, ?_, ?_, ?_⟩
      · rw [h]; unfold updateWrapper
        simp only [reduceCtorEq, if_false, or_self, if_true]
        exact h2
      · rintro _ ⟨r, hr⟩
        exact ((h4 r).1 hr.1).2 hr.2
      · intro hob
        rw [(isObserve_msgType hrsp).1 hob] at h; cases h
    · refine ⟨cl.inter, ?_, ?_, fun _ => rfl⟩
      · rw [h]; unfold updateWrapper
        simp only [reduceCtorEq, if_false, or_self]
      · intro hob
        rw [(isObserve_msgType hrsp).2 h] at hob; cases hob
  obtain ⟨t2, ht2, hcons, hkeep⟩ := hupd
  have ht2' := ht2
  rw [hmsg] at ht2'
  have hupdS : updateWrapper cfg w.ctx.inter (msgType p) p.token v.uri v.rp v.rk = .ok w'.ctx.inter := by
    rw [hv.inter']; exact hv.upd
  have hssn' : w'.ctx.ssn = w.ctx.ssn ∨ w'.ctx.ssn = w.ctx.ssn + 1 := by
    cases hn : v.new with
    | true => exact .inr (hv.ifNew hn).2.2.2.2.2.1
    | false => exact .inl (hv.ifReuse hn).2.2.2.2.1
  -- decryption with the option the receiver passes on
  have hoptE : ∀ opt, opt = (if o.piv.len ≠ 0 then some o else none) →
      decryptWrapper cfgR C opt (oscorePkgGenerate p (redelta 0 (outerOpts p.opts)) v.ct v.opt) cl =
      (.ok (receivedResponse p, v.pt), { cl with nonce := v.nonce, inter := t2 }) := by
    rintro opt rfl
    refine decryptWrapper_ok (rp := v.rp) (rk := v.rk) (aad := v.aad) (uri := uriR) ?_ ?_ hv.aad ?_ hreb ?_ ht2
    · unfold readWrapper
      rw [hOty, if_pos hty]
      have : (oscorePkgGenerate p (redelta 0 (outerOpts p.opts)) v.ct v.opt).token = p.token := rfl
      rw [this, hg2, ← hrp, ← hrk, hep, hek]; rfl
    · cases hn : v.new with
      | true =>
        obtain ⟨hpivS, hkidS, _, hnonceS, _⟩ := hv.ifNew hn
        have := (ssn2piv_minimal hpivS).2.1
        rw [if_pos (by rw [hpl]; omega)]
        simp only [decNonce, OscOpt.read]
        rw [hpiv, hkid]
        simp only [R.ok_bind, R.pure_eq]
        rw [hmir.iv, hkidS]; exact hnonceS
      | false =>
        obtain ⟨hpe, _, _, hne, _⟩ := hv.ifReuse hn
        rw [if_neg (by rw [hpl, hpe]; simp)]
        simp only [decNonce]
        rw [hne]
        have hnn := hv.new
        rw [hn] at hnn
        unfold needsNewPiv at hnn
        simp only [Bool.false_eq, Bool.or_eq_false_iff, bne_eq_false_iff_eq, beq_eq_false_iff_ne] at hnn
        rcases hnonce with h | h | h
        · exact absurd h hnn.2
        · have := (isObserve_msgType hrsp).1 h
          rw [this] at hnn; cases hnn.1
        · rw [h]
    · rw [hmir.key]; exact hdecr.1
    · have : (receivedResponse p).opts = p.opts.map (recovered false) := rfl
      rw [this, uriPathCreate_recovered]; exact huriR
  have hser : coapSerialize cfgR (receivedResponse p) cap' = .ok (encPkt (receivedResponse p)) := by
    refine coapSerialize_ok.2 ⟨rfl, hcap, ?_⟩
    have := optBytesLen_recovered false p.opts
    have h2 := hR.optBytes
    unfold receivedResponse
    simp only
    omega
  have hlen8 : checkBufferSize cfgR.maxPlaintext (sub32
      (oscorePkgGenerate p (redelta 0 (outerOpts p.opts)) v.ct v.opt).payload.length 8) = .ok () := by
    have : (oscorePkgGenerate p (redelta 0 (outerOpts p.opts)) v.ct v.opt).payload = v.ct := rfl
    have hbuf := hcar.bufs
    have hpt := (hv.plain hcar.toInnerOk).2
    have hR1 := hR.plain _ hpt hv.pt_length
    rw [this, hdecr.2, sub32_of_le (by omega) (by omega), checkBufferSize_ok]
    omega
  by_cases hob : isObserve p.opts = true
  · have hobO : isObserve (oscorePkgGenerate p (redelta 0 (outerOpts p.opts)) v.ct v.opt).opts = true := by
      rw [isObserve_msgType hOrsp, hOty]; exact (isObserve_msgType hrsp).1 hob
    have hnew : v.new = true := by
      rw [hv.new]; unfold needsNewPiv
      rw [(isObserve_msgType hrsp).1 hob]; rfl
    obtain ⟨hpivS, _⟩ := hv.ifNew hnew
    have hmin := ssn2piv_minimal hpivS
    have hpln : o.piv.len ≠ 0 := by rw [hpl]; have := hmin.2.1; omega
    have hval : beVal v.piv = w.ctx.ssn := hmin.1.1
    have hps : piv2ssn v.piv = .ok w.ctx.ssn := by
      unfold piv2ssn; rw [if_neg (by have := hmin.2.2; omega), hval]
    refine ⟨{ cl with nonce := v.nonce, inter := t2, notifNum := w.ctx.ssn, notifInit := true }, ?_,
      fun h => absurd hob (by rw [h]; simp), fun _ => ⟨hkeep hob, rfl⟩, v.uri, v.rp, v.rk, ht2', hv.uri, hupdS, hssn',
      fun h => absurd hob (by rw [h]; simp), fun _ => ⟨(hv.ifNew hnew).2.2.2.2.2.1, by rw [hv.nonce', hkeep hob]⟩⟩
    refine oscore2coap_response (o := o) hssn hparse hopt hlen8 hOrsp ?_ hser
    unfold unprotectResponse
    rw [M.bind_get, hobO]
    simp only [if_true]
    rw [if_pos hpln, hpiv, M.bind_lift_ok]
    have hchk : checkNotification cl v.piv = .ok () := by
      unfold checkNotification
      rw [hps]
      simp only [R.ok_bind]
      rw [if_neg]
      rintro ⟨h1, h2⟩
      have := hnotif hob h1
      omega
    rw [hchk, M.bind_lift_ok, M.bind_ok (hoptE (some o) (by rw [if_pos hpln]))]
    simp only
    have hnu : notificationUpdate v.piv { cl with nonce := v.nonce, inter := t2 } =
        (.ok (), { cl with nonce := v.nonce, inter := t2, notifNum := w.ctx.ssn, notifInit := true }) := by
      unfold notificationUpdate
      rw [hps, M.bind_lift_ok]; rfl
    rw [M.bind_ok hnu]
    rfl
  · have hob' : isObserve p.opts = false := by simpa using hob
    have hobO : isObserve (oscorePkgGenerate p (redelta 0 (outerOpts p.opts)) v.ct v.opt).opts = false := by
      cases hx : isObserve (oscorePkgGenerate p (redelta 0 (outerOpts p.opts)) v.ct v.opt).opts with
      | false => rfl
      | true =>
        have := (isObserve_msgType hOrsp).1 hx
        rw [hOty] at this
        exact absurd ((isObserve_msgType hrsp).2 this) hob
    refine ⟨{ cl with nonce := v.nonce, inter := t2 }, ?_, fun _ => hcons hob', fun h => absurd h hob, v.uri, v.rp, v.rk,
      ht2', hv.uri, hupdS, hssn', fun _ => by rw [hv.nonce'], fun h => absurd h hob⟩
    refine oscore2coap_response (o := o) hssn hparse hopt hlen8 hOrsp ?_ hser
    unfold unprotectResponse
    rw [M.bind_get, hobO]
    simp only [Bool.false_eq_true, if_false]
    rw [M.bind_ok (hoptE _ rfl)]
    rfl

/-- The core of C23, with everything the client changes. -/
theorem response_recovered (cfg : Cfg) (C : Crypto) (hC : C.Lawful) (nvmW : Option Err)
    (inp b : Bytes) (cap cap' : Nat) (w w' : World) (cl : Ctx) (p : Pkt)
    (hsend : coap2oscore cfg C nvmW inp cap w = (.ok b, w'))
    (hp : coapDeserialize inp = .ok p) (hrsp : isRequest p = false)
    (hcar : Carriable cfg p) (hb : b.length < 65536)
    (hmir : Mirror w.ctx cl) (hssn : cl.ssn < 0x7FFFFF)
    (hd1 : Distinct w.ctx.inter) (hd2 : Distinct cl.inter)
    (hsame : SameRequest w.ctx.inter cl.inter p.token)
    (hnonce : w.ctx.echo = .verify ∨ isObserve p.opts = true ∨ cl.nonce = w.ctx.nonce)
    (hnotif : isObserve p.opts = true → cl.notifInit = true → cl.notifNum < w.ctx.ssn)
    (hcap : (encPkt (receivedResponse p)).length ≤ cap') :
    ∃ cl', oscore2coap cfg C b cap' cl = (.ok (encPkt (receivedResponse p)), cl') ∧
      (isObserve p.opts = false → ¬∃ r, Outstanding cl'.inter p.token r) ∧
      (isObserve p.opts = true → cl'.inter = cl.inter ∧ cl'.notifNum = w.ctx.ssn) ∧
      ∃ uri rp rk, updateWrapper cfg cl.inter (msgType p) p.token uri rp rk = .ok cl'.inter ∧
        updateWrapper cfg w.ctx.inter (msgType p) p.token uri rp rk = .ok w'.ctx.inter ∧
        (w'.ctx.ssn = w.ctx.ssn ∨ w'.ctx.ssn = w.ctx.ssn + 1) ∧
        (isObserve p.opts = false → cl' = { cl with nonce := w'.ctx.nonce, inter := cl'.inter }) ∧
        (isObserve p.opts = true → w'.ctx.ssn = w.ctx.ssn + 1 ∧
          cl' = { cl with nonce := w'.ctx.nonce, notifNum := w.ctx.ssn, notifInit := true }) := by
  have hack : ¬(p.type = 2 ∧ p.code = 0) := by
    rintro ⟨_, h0⟩
    unfold isRequest at hrsp
    rw [h0] at hrsp
    cases hrsp
  obtain ⟨v, hv⟩ := protect_ok hsend hp hack
  obtain ⟨cl', h1, h2, h3, uri, rp, rk, h4, h5, h6⟩ := response_recovered_builds cfg cfg C hC nvmW inp b cap cap' w w' cl p hsend hp hrsp hcar
    hcar.receivable v.uri hv.uri hb hmir hssn hd1 hd2 hsame hnonce hnotif hcap
  rw [hv.uri] at h5
  obtain rfl := R.ok.inj h5
  exact ⟨cl', h1, h2, h3, v.uri, rp, rk, h4, h6⟩

/-- **C23** If the server's `coap2oscore` returns `ok` for a response that can be carried without
loss, then the client's `oscore2coap` returns `ok` and delivers that response (with an empty Observe
value in a notification), provided both hold the same (PIV, KID) for the token, and
* the response has its own PIV (`w.ctx.echo = .verify`, or it is a notification) or the client still
  holds the nonce the server used;
* a notification's number is larger than the last one the client delivered.

`_partial`: the nonce condition can fail in reachable states (`C23_false_interleaved`), and the
carriability conditions are needed as for C22. -/
theorem C23_response_partial (cfg : Cfg) (C : Crypto) (hC : C.Lawful) (nvmW : Option Err)
    (inp b : Bytes) (cap cap' : Nat) (w w' : World) (cl : Ctx) (p : Pkt)
    (hsend : coap2oscore cfg C nvmW inp cap w = (.ok b, w'))
    (hp : coapDeserialize inp = .ok p) (hrsp : isRequest p = false)
    (hcar : Carriable cfg p) (hb : b.length < 65536)
    (hmir : Mirror w.ctx cl) (hssn : cl.ssn < 0x7FFFFF)
    (hd1 : Distinct w.ctx.inter) (hd2 : Distinct cl.inter)
    (hsame : SameRequest w.ctx.inter cl.inter p.token)
    (hnonce : w.ctx.echo = .verify ∨ isObserve p.opts = true ∨ cl.nonce = w.ctx.nonce)
    (hnotif : isObserve p.opts = true → cl.notifInit = true → cl.notifNum < w.ctx.ssn)
    (hcap : (encPkt (receivedResponse p)).length ≤ cap') :
    ∃ cl', oscore2coap cfg C b cap' cl = (.ok (encPkt (receivedResponse p)), cl') ∧
      (isObserve p.opts = false → ¬∃ r, Outstanding cl'.inter p.token r) ∧
      (isObserve p.opts = true → cl'.inter = cl.inter ∧ cl'.notifNum = w.ctx.ssn) := by
  obtain ⟨cl', h1, h2, h3, -⟩ := response_recovered cfg C hC nvmW inp b cap cap' w w' cl p hsend hp hrsp hcar hb hmir hssn
    hd1 hd2 hsame hnonce hnotif hcap
  exact ⟨cl', h1, h2, h3⟩

/-- **C23** (binding) Whatever response `oscore2coap` delivers, the AEAD accepted its ciphertext
under the AAD of an outstanding request with that token, with the nonce the packet determines (`Checked`). -/
theorem C23_bound_to_request (cfg : Cfg) (C : Crypto) (inp b : Bytes) (cap : Nat) (c c' : Ctx) (p : Pkt)
    (hp : coapDeserialize inp = .ok p) (hrsp : isRequest p = false)
    (h : oscore2coap cfg C inp cap c = (.ok b, c')) :
    ∃ r n pt, some r ∈ c.inter ∧ r.token = p.token ∧ Checked c inp n (Rfc8613.aad r.kid r.piv) p.payload ∧
      C.aeadDec c.recipientKey n (Rfc8613.aad r.kid r.piv) 8 p.payload = some pt := by
  have hty := msgType_response hrsp
  have key : ∀ {t o opt out pt c1}, coapParse inp = .ok (p, t) → oscoreOptionParser t = .ok o →
      (opt = if o.piv.len ≠ 0 then some o else none) → DecEffect cfg C opt p c (.ok (out, pt)) c1 →
      ∃ r n pt, some r ∈ c.inter ∧ r.token = p.token ∧ Checked c inp n (Rfc8613.aad r.kid r.piv) p.payload ∧
      C.aeadDec c.recipientKey n (Rfc8613.aad r.kid r.piv) 8 p.payload = some pt := by
    intro t o opt out pt c1 hpp ho hopt hdec
    generalize hr : (R.ok (out, pt) : R (Pkt × Bytes)) = r at hdec
    cases hdec with
    | unchanged hn => exact absurd hr.symm (hn _)
    | @auth rp rk nonce aad pt' t hread hnonce haad hpt _ =>
      obtain ⟨k1, k2⟩ := checked hpp ho (fun h => by rw [hrsp] at h; cases h) (fun _ => hopt) hread hnonce haad hpt
      unfold readWrapper at hread
      rw [if_pos hty] at hread
      obtain ⟨r, hr, hrr⟩ := R.bind_eq_ok.1 hread
      simp only [R.pure_eq, R.ok.injEq, Prod.mk.injEq] at hrr
      obtain ⟨rfl, rfl⟩ := hrr
      obtain ⟨m1, m2⟩ := get_outstanding hr
      exact ⟨r, nonce, pt', m1, m2, k1, k2⟩
  have hpp : ∀ {p' t}, coapParse inp = .ok (p', t) → p' = p := by
    intro p' t hpt
    unfold coapDeserialize at hp
    rw [hpt] at hp
    exact R.ok.inj hp
  have he := oscore2coap_effect cfg C inp cap c
  rw [h] at he
  simp only at he
  generalize hr : (R.ok b : R Bytes) = r at he
  cases he with
  | unchanged hn => exact absurd hr.symm (hn b)
  | reqFail _ _ _ _ _ _ _ _ hn => exact absurd hr.symm (hn b)
  | reqOk _ hp' _ hreq => obtain rfl := hpp hp'; rw [hrsp] at hreq; cases hreq
  | rspFail _ _ _ _ _ _ _ hn => exact absurd hr.symm (hn b)
  | notifOk _ hp' ho _ _ hl _ _ hd' => obtain rfl := hpp hp'; exact key hp' ho (by rw [if_pos hl]) hd'
  | rspOk _ hp' ho _ _ hopt hd' => obtain rfl := hpp hp'; exact key hp' ho hopt hd'

/-- **C22 + C23** (a whole exchange) Client and server with mirrored contexts: the client protects a
request, the server delivers it, the server protects a response with the same token, the client
delivers the response – exactly the response when it carries no Observe value. -/
theorem C23_exchange_partial (cfg : Cfg) (C : Crypto) (hC : C.Lawful) (nw1 nw2 : Option Err)
    (inp1 b1 inp2 b2 : Bytes) (c1 c2 c3 c4 : Nat) (w w' s' : World) (srv : Ctx) (p1 p2 : Pkt) (nvm : Nat)
    (log : List EncCall)
    (hmir : Mirror w.ctx srv) (hmir' : Mirror srv w.ctx)
    (hd1 : Distinct w.ctx.inter) (hd2 : Distinct srv.inter)
    -- the request
    (hsend : coap2oscore cfg C nw1 inp1 c1 w = (.ok b1, w'))
    (hp1 : coapDeserialize inp1 = .ok p1) (hreq : isRequest p1 = true) (hack : ¬(p1.type = 2 ∧ p1.code = 0))
    (hcar1 : Carriable cfg p1) (hb1 : b1.length < 65536) (hssn : srv.ssn < 0x7FFFFF)
    (hsync : srv.echo = .synchronized) (hfresh : srv.window.valid w.ctx.ssn = true)
    (hroom : HasRoom srv.inter p1.token) (hcap1 : (encPkt p1).length ≤ c2)
    -- the response, protected by the server after it received the request
    (hrsp : coap2oscore cfg C nw2 inp2 c3 ⟨(oscore2coap cfg C b1 c2 srv).2, nvm, log⟩ = (.ok b2, s'))
    (hp2 : coapDeserialize inp2 = .ok p2) (hr2 : isRequest p2 = false) (htok : p2.token = p1.token)
    (hcar2 : Carriable cfg p2) (hb2 : b2.length < 65536) (hssn2 : w'.ctx.ssn < 0x7FFFFF)
    (hnotif : isObserve p2.opts = true → w.ctx.notifInit = true → w.ctx.notifNum < srv.ssn)
    (hcap2 : (encPkt (receivedResponse p2)).length ≤ c4) :
    coapDeserialize (encPkt p1) = .ok p1 ∧
    (oscore2coap cfg C b1 c2 srv).1 = .ok (encPkt p1) ∧
    (oscore2coap cfg C b2 c4 w'.ctx).1 = .ok (encPkt (receivedResponse p2)) := by
  obtain ⟨out, srv', h1, h2, h3, h4, h5⟩ := C22_request_partial cfg C hC nw1 inp1 b1 c1 c2 w w' srv p1 hsend hp1
    hreq hack hcar1 hb1 hmir hssn hsync hfresh hroom hd1 hd2 hcap1
  have hf := oscore2coap_frame cfg C b1 c2 srv
  rw [h1] at hrsp hf
  simp only at hrsp hf
  have hfw := coap2oscore_frame cfg C nw1 inp1 c1 w
  rw [hsend] at hfw
  simp only at hfw
  have hdw : Distinct w'.ctx.inter := by
    have := (step_distinct cfg C w (.protect inp1 c1 nw1) hd1).1
    simp only [step] at this
    rw [hsend] at this; exact this
  have hds : Distinct srv'.inter := by
    have := (step_distinct cfg C ⟨srv, nvm, log⟩ (.unprotect b1 c2) hd2).1
    simp only [step] at this
    rw [h1] at this; exact this
  obtain ⟨r1, r2, ho1, ho2, he1, he2⟩ := h5
  obtain ⟨cl', hcl, _⟩ := C23_response_partial cfg C hC nw2 inp2 b2 c3 c4 ⟨srv', nvm, log⟩ s' w'.ctx p2 hrsp hp2 hr2
    hcar2 hb2 ⟨by rw [hfw.recipientId, hmir'.id, ← hf.senderId], by rw [hfw.recipientKey, hmir'.key, ← hf.senderKey],
      by rw [hfw.commonIv, hmir'.iv, ← hf.commonIv]⟩ hssn2 hds hdw
    (by rw [htok]; exact ⟨r2, r1, ho2, ho1, he1.symm, he2.symm⟩) (.inr (.inr h4.symm))
    (by intro ho hi
        rw [hfw.notifNum]
        simp only
        rw [hf.ssn]
        exact hnotif ho (by rw [← hfw.notifInit]; exact hi)) hcap2
  refine ⟨by rw [← h3]; exact h2, by rw [h1, h3], by rw [hcl]⟩

/-! ### non-vacuity -/

/-- POST with Uri-Host, Uri-Path, Content-Format, Uri-Query and a payload of ten bytes, token 0x4A -/
def exPost : Bytes :=
  [0x41, 0x02, 0x12, 0x34, 0x4A, 0x32, 0x68, 0x31, 0x82, 0x74, 0x76, 0x11, 0x2A, 0x33, 0x61, 0x3D, 0x31,
    0xFF, 0x30, 0x31, 0x32, 0x33, 0x34, 0x35, 0x36, 0x37, 0x38, 0x39]

def exPostPkt : Pkt := (coapDeserialize exPost).getD ⟨0, 0, 0, 0, [], [], []⟩

def exRspPkt : Pkt := (coapDeserialize exRsp).getD ⟨0, 0, 0, 0, [], [], []⟩

theorem exPost_parse : coapDeserialize exPost = .ok exPostPkt := R.eq_getD _ (by decide +kernel)
theorem exRsp_parse : coapDeserialize exRsp = .ok exRspPkt := R.eq_getD _ (by decide +kernel)

theorem exPost_carriable : Carriable exCfg exPostPkt := by
  constructor
  · constructor <;> decide +kernel
  all_goals decide +kernel

theorem exRsp_carriable : Carriable exCfg exRspPkt := by
  constructor
  · constructor <;> decide +kernel
  all_goals decide +kernel

/-- the hypotheses of `C23_exchange_partial` (hence of C22 and C23) are met by a concrete exchange of a
POST with public and confidential options and its response -/
example :
    let w' := afterSend exCfg (exW exClient) exPost
    let b1 := sendOf exCfg (exW exClient) exPost
    let s1 := afterRecv exCfg (exW exServer) b1
    let b2 := sendOf exCfg s1 exRsp
    (oscore2coap exCfg toyCrypto b1 256 exServer).1 = .ok (encPkt exPostPkt) ∧
    (oscore2coap exCfg toyCrypto b2 256 w'.ctx).1 = .ok (encPkt (receivedResponse exRspPkt)) := by
  intro w' b1 s1 b2
  have h := C23_exchange_partial exCfg toyCrypto toyCrypto_lawful none none exPost b1 exRsp b2 256 256 256 256
    (exW exClient) w' (afterSend exCfg s1 exRsp) exServer exPostPkt exRspPkt 0 []
    ⟨by decide +kernel, by decide +kernel, by decide +kernel⟩
    ⟨by decide +kernel, by decide +kernel, by decide +kernel⟩
    (distinct_init 3) (distinct_init 3) (by decide +kernel) exPost_parse (by decide +kernel) (by decide +kernel)
    exPost_carriable (by decide +kernel) (by decide +kernel) (by decide +kernel) (by decide +kernel)
    ⟨by decide +kernel, by intro r hr; simp [show exServer.inter = [none, none, none] by decide +kernel] at hr⟩
    (by decide +kernel) (by decide +kernel) exRsp_parse
    (by decide +kernel) (by decide +kernel) exRsp_carriable (by decide +kernel) (by decide +kernel)
    (by decide +kernel) (by decide +kernel)
  exact ⟨h.2.1, h.2.2⟩

/-! ### why the conditions are needed -/

/-- GET with Uri-Host, option 15 (Uri-Query), EDHOC, option 28 (Size2) and the one-byte payload "x":
the public options in between make the inner options longer than announced -/
def exDrop : Bytes :=
  [0x41, 0x01, 0x12, 0x34, 0x4A, 0x31, 0x68, 0xC1, 0x61, 0x60, 0x71, 0x01, 0xFF, 0x78]

/-- **C22 is false in general (1)**: a request whose payload is silently lost.  Client and server both
report `ok`; the server delivers the message without its payload. -/
theorem C22_false_payload_lost :
    (step exCfg toyCrypto (exW exClient) (.protect exDrop 256 none)).1.isOk = true ∧
    (oscore2coap exCfg toyCrypto (sendOf exCfg (exW exClient) exDrop) 256 exServer).1 =
      .ok (exDrop.take 12) := by
  decide +kernel

/-- a GET with eleven one-byte Uri-Path segments -/
def exEleven : Bytes :=
  [0x41, 0x01, 0x12, 0x34, 0x4A, 0xB1, 0x61] ++ (List.replicate 10 [0x01, 0x61]).flatten

/-- **C22 is false in general (2)**: a request with eleven confidential options is protected by the
client, but the server writes past its table of ten inner options (see `C16_false_inner`). -/
theorem C22_false_eleven_options :
    (step exCfg toyCrypto (exW exClient) (.protect exEleven 256 none)).1.isOk = true ∧
    (oscore2coap exCfg toyCrypto (sendOf exCfg (exW exClient) exEleven) 256 exServer).1 =
      .ub := by
  decide +kernel

/-- **C23 is false in general**: the nonce cache is global, so when the client sends a second request
before the response to the first one arrives, it cannot decrypt that response. -/
theorem C23_false_interleaved :
    let b1 := sendOf exCfg (exW exClient) exGet
    let w1 := afterSend exCfg (exW exClient) exGet
    let w2 := afterSend exCfg w1 exGet2
    let s1 := afterRecv exCfg (exW exServer) b1
    let rsp := sendOf exCfg s1 exRsp
    (step exCfg toyCrypto s1 (.protect exRsp 256 none)).1.isOk = true ∧
    (oscore2coap exCfg toyCrypto rsp 256 w1.ctx).1 = .ok exRsp ∧
    (oscore2coap exCfg toyCrypto rsp 256 w2.ctx).1 = .err .unexpected_result_from_ext_lib := by
  decide +kernel

end Verif
