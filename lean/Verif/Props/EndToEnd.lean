import Verif.Lemmas.EndToEnd
import Verif.Lemmas.Examples
import Verif.Props.PivNonce
/-
C22, C23: what one side protects, the other side recovers.
-/
namespace Verif

/-- `snd` sends, `rcv` receives: the receiver's Recipient ID and Key are the sender's Sender ID and
Key, the Common IVs agree (that is what `oscore_context_init` establishes, C27). -/
structure Mirror (snd rcv : Ctx) : Prop where
  id : rcv.recipientId = snd.senderId
  key : rcv.recipientKey = snd.senderKey
  iv : rcv.commonIv = snd.commonIv

/-- there is a free slot and the token is not in use -/
structure HasRoom (t : Table) (token : Bytes) : Prop where
  free : none ∈ t
  unused : ∀ r, some r ∈ t → r.token ≠ token

/-- The message can be carried without loss: options in order and not more than the library's
tables hold, no OSCORE option, no repeated public option, deltas outside the range 256..268 that the
parser cannot represent, and a payload that `plaintext_setup` cannot drop.  `cfg` has at most 255
bytes for options (the default has 100). -/
structure Carriable (cfg : Cfg) (p : Pkt) : Prop extends InnerOk cfg p where
  gaps : ∀ o ∈ p.opts, o.delta < 256 ∨ 269 ≤ o.delta
  optBytes : optBytesLen p.opts ≤ cfg.maxCoapOptions
  small : (encPkt p).length < 65536

theorem decryptWrapper_ok {cfg : Cfg} {C : Crypto} {opt : Option OscOpt} {p out : Pkt} {c : Ctx}
    {rp rk nonce aad pt uri : Bytes} {t : Table}
    (hread : readWrapper c.inter (msgType p) p.token (decPivKid opt) = .ok (rp, rk))
    (hnonce : decNonce c opt = .ok nonce)
    (haad : createAad rk rp = .ok aad)
    (hpt : coseDecrypt C p.payload nonce aad c.recipientKey = .ok pt)
    (hout : oCoapPkgGenerate pt p = .ok out)
    (huri : uriPathCreate out.opts cfg.uriMax = .ok uri)
    (ht : updateWrapper cfg c.inter (msgType out) p.token uri rp rk = .ok t) :
    decryptWrapper cfg C opt p c = (.ok (out, pt), { c with nonce := nonce, inter := t }) := by
  unfold decryptWrapper
  rw [M.bind_get, hread, M.bind_lift_ok]
  simp only
  rw [hnonce, M.bind_lift_ok, haad, M.bind_lift_ok, hpt, M.bind_lift_ok]
  have hst : ∀ (f : M Ctx (Pkt × Bytes)),
      (if opt.isSome = true then (M.modify (fun c : Ctx => { c with nonce := nonce }) >>= fun _ => f) else f) c =
        f { c with nonce := nonce } := by
    intro f
    cases opt with
    | some o => rfl
    | none =>
      simp only [decNonce, R.ok.injEq] at hnonce
      subst hnonce
      rfl
  rw [hst, hout, M.bind_lift_ok, huri, M.bind_lift_ok, ht, M.bind_lift_ok]
  rfl

theorem getObserve_protected (u : List Opt) (v : Bytes) :
    getObserveValue (redelta 0 (protectedOpts u v)) = getObserveValue u := by
  have h1 : getObserveValue (redelta 0 (protectedOpts u v)) = getObserveValue (protectedOpts u v) :=
    getObserve_map (redelta_num _ _)
  rw [h1]
  unfold getObserveValue protectedOpts
  congr 1
  conv => rhs; rw [← List.takeWhile_append_dropWhile (p := fun o : Opt => decide (o.num ≤ optOSCORE)) (l := u)]
  simp only [List.find?_append]
  simp [optOSCORE, optOBSERVE]

theorem outer_msgType_request {p : Pkt} {ct v : Bytes} (hr : isRequest p = true) :
    isRequest (oscorePkgGenerate p (redelta 0 (outerOpts p.opts)) ct v) = true ∧
    msgType (oscorePkgGenerate p (redelta 0 (outerOpts p.opts)) ct v) = msgType p := by
  have h1 : isRequest (oscorePkgGenerate p (redelta 0 (outerOpts p.opts)) ct v) = true := by
    unfold oscorePkgGenerate isRequest
    unfold isRequest at hr
    simp only [isRequest, hr, if_true]
    split <;> rfl
  refine ⟨h1, ?_⟩
  unfold msgType
  rw [h1, hr, oscorePkg_opts redelta_outer_le, getObserve_protected,
    getObserve_map (redelta_num _ _), getObserve_outer]

theorem outer_msgType_response {p : Pkt} {ct v : Bytes} (hr : isRequest p = false) :
    isRequest (oscorePkgGenerate p (redelta 0 (outerOpts p.opts)) ct v) = false ∧
    msgType (oscorePkgGenerate p (redelta 0 (outerOpts p.opts)) ct v) = msgType p := by
  have h1 : isRequest (oscorePkgGenerate p (redelta 0 (outerOpts p.opts)) ct v) = false := by
    unfold oscorePkgGenerate isRequest
    unfold isRequest at hr
    simp only [isRequest, hr]
    simp only [Bool.false_eq_true, if_false]
    split <;> rfl
  refine ⟨h1, ?_⟩
  unfold msgType
  rw [h1, hr, oscorePkg_opts redelta_outer_le, getObserve_protected,
    getObserve_map (redelta_num _ _), getObserve_outer]

theorem recovered_true (l : List Opt) : l.map (recovered true) = l := by
  rw [List.map_congr_left (g := id)]
  · exact List.map_id _
  · intro o _; unfold recovered; simp

theorem coseDecrypt_encrypt {C : Crypto} (hC : C.Lawful) {pt nonce aad key ct : Bytes}
    (h : coseEncrypt C pt nonce aad key = .ok ct) :
    coseDecrypt C ct nonce aad key = .ok pt ∧ ct.length = pt.length + 8 := by
  unfold coseEncrypt at h
  unfold coseDecrypt
  obtain ⟨a, ha, h⟩ := R.bind_eq_ok.1 h
  rw [ha]
  simp only [R.ok_bind]
  cases he : C.aeadEnc key nonce a tagLen pt with
  | none => rw [he] at h; cases h
  | some c =>
    rw [he] at h
    obtain rfl := R.ok.inj h
    rw [hC.dec_enc _ _ _ _ _ _ he]
    exact ⟨rfl, hC.enc_len _ _ _ _ _ _ he⟩

theorem findIdx_lt_of_mem {α} {l : List α} {p : α → Bool} {x : α} (h : x ∈ l) (hp : p x = true) :
    l.findIdx p < l.length := List.findIdx_lt_length_of_exists ⟨x, h, hp⟩

theorem findTok_none {t : Table} {token : Bytes} (h : ∀ r, some r ∈ t → r.token ≠ token) :
    t.findTok token = t.length := by
  unfold Table.findTok
  rw [List.findIdx_eq_length]
  intro x hx
  cases x with
  | none => rfl
  | some r => simpa using h r hx

theorem tableSet_lens {cfg : Cfg} {t t' : Table} {r : Rec} (h : t.set cfg r = .ok t') :
    ¬(r.token.length > 8 ∨ r.uri.length > cfg.uriMax ∨ r.piv.length > 5 ∨ r.kid.length > 8) := by
  intro hh
  unfold Table.set at h
  rw [if_pos hh] at h
  cases h

theorem tableSet_room {cfg : Cfg} {t : Table} {r : Rec}
    (hl : ¬(r.token.length > 8 ∨ r.uri.length > cfg.uriMax ∨ r.piv.length > 5 ∨ r.kid.length > 8))
    (hroom : HasRoom t r.token) : ∃ t', t.set cfg r = .ok t' := by
  unfold Table.set
  rw [if_neg hl]
  simp only
  have hfree : t.findFree < t.length := findIdx_lt_of_mem hroom.free rfl
  rw [findTok_none hroom.unused]
  generalize hs : (if t.findRes r.uri r.reqType ≥ t.length then t.findFree else t.findRes r.uri r.reqType) = slot
  have : slot < t.length := by
    rw [← hs]; split <;> omega
  rw [if_neg (by omega), if_neg (by omega)]
  exact ⟨_, rfl⟩

/-- The server's table accepts what the client's table accepted, when it has room. -/
theorem updateWrapper_room {cfg : Cfg} {t1 t1' t2 : Table} {ty : MsgType} {token uri rp rk : Bytes}
    (h : updateWrapper cfg t1 ty token uri rp rk = .ok t1')
    (hty : ty ≠ .response ∧ ty ≠ .notification) (hroom : HasRoom t2 token) :
    ∃ t2', updateWrapper cfg t2 ty token uri rp rk = .ok t2' := by
  unfold updateWrapper at h ⊢
  simp only at h ⊢
  generalize hk : (if ty = .cancellation then MsgType.registration else ty) = k at h ⊢
  have hreq : k = .request ∨ k = .registration := by
    subst hk; cases ty <;> simp_all
  rw [if_pos hreq] at h ⊢
  obtain ⟨a, ha, h⟩ := R.bind_eq_ok.1 h
  obtain ⟨b, hb, h⟩ := R.bind_eq_ok.1 h
  obtain ⟨c, hc, h⟩ := R.bind_eq_ok.1 h
  obtain ⟨d, hd, hset⟩ := R.bind_eq_ok.1 h
  rw [ha, R.ok_bind, hb, R.ok_bind, hc, R.ok_bind, hd, R.ok_bind]
  have hce := (memcpyS_ok.1 hc).1
  exact tableSet_room (tableSet_lens hset) (by rw [hce]; exact hroom)



theorem Carriable.pktOk {cfg : Cfg} {p : Pkt} (h : Carriable cfg p) (hr : PktRange p) : PktOk p := by
  refine ⟨hr.ver, hr.type, hr.mid, hr.token, hr.count, ?_, hr.nums⟩
  intro o ho
  have h1 := len_le_optBytesLen ho
  have h2 := h.optBytes
  have h3 := maxCoapOptions_le ⟨h.bufs.1, h.bufs.2.1⟩
  refine ⟨?_, .inl (by omega)⟩
  rcases h.gaps o ho with hd | hd
  · exact .inl hd
  · exact .inr ⟨hd, (hr.opts o ho).1⟩

/-- the value of the (first) Echo option (RFC 9175) -/
def echoOf (opts : List Opt) : Option Bytes := (opts.find? (fun o => o.num == 252)).map Opt.value

theorem innerOf_echo (r : Bool) (o : Opt) :
    ((innerOf r o).toList.find? (fun o => o.num == optECHO)).map Opt.value = if o.num = 252 then some o.value else none := by
  unfold innerOf
  by_cases h6 : o.num = optOBSERVE
  · rw [if_pos h6]
    have h9 : ¬ o.num = 252 := by rw [h6]; decide
    rw [if_neg h9]
    simp [h6, optOBSERVE, optECHO]
  · rw [if_neg h6]
    by_cases he : isClassE o.num = true
    · rw [if_pos he]
      by_cases h2 : o.num = 252
      · simp [h2, optECHO]
      · simp [h2, optECHO]
    · rw [if_neg he]
      have : o.num ≠ 252 := by
        intro h; rw [h] at he; exact he (by decide)
      simp [this]

theorem find_value_append (f : Opt → Bool) (l m : List Opt) :
    ((l ++ m).find? f).map Opt.value = ((l.find? f).map Opt.value).or ((m.find? f).map Opt.value) := by
  rw [List.find?_append]
  cases l.find? f <;> rfl

/-- the Echo option is an inner option -/
theorem echo_inner (r : Bool) (l : List Opt) :
    ((innerOpts r l).find? (fun o => o.num == optECHO)).map Opt.value = echoOf l := by
  induction l with
  | nil => rfl
  | cons o l ih =>
    rw [innerOpts_cons, find_value_append, innerOf_echo, ih]
    unfold echoOf
    by_cases h : o.num = 252
    · rw [if_pos h, List.find?_cons_of_pos (by simp [h])]; rfl
    · rw [if_neg h, List.find?_cons_of_neg (by simp [h])]; rfl

theorem echo_redelta (prev : Nat) (l : List Opt) :
    ((redelta prev l).find? (fun o => o.num == optECHO)).map Opt.value = (l.find? (fun o => o.num == optECHO)).map Opt.value := by
  induction l generalizing prev with
  | nil => rfl
  | cons o l ih =>
    rw [redelta]
    by_cases h : o.num = optECHO
    · rw [List.find?_cons_of_pos (by simp [h]), List.find?_cons_of_pos (by simp [h])]; rfl
    · rw [List.find?_cons_of_neg (by simp [h]), List.find?_cons_of_neg (by simp [h]), ih]

theorem echo_plain (r : Bool) (l : List Opt) :
    ((redelta 0 (innerOpts r l)).find? (fun o => o.num == optECHO)).map Opt.value = echoOf l := by
  rw [echo_redelta, echo_inner]

/-- What `oscore2coap` answers to a request it decrypted (RFC 8613, 7.5.2 and B.1.2): after a reboot the first one is
refused, then one with the Echo value of the challenge is waited for. -/
def requestAnswer (p : Pkt) (srv : Ctx) : R Bytes :=
  match srv.echo with
  | .reboot => .err .first_request_after_reboot
  | .verify => if echoOf p.opts = some srv.echoVal then .ok (encPkt p) else .err .echo_validation_failed
  | .synchronized => .ok (encPkt p)

/-- ... and the context afterwards; `ssn` is the number of the request, `x` the first byte of its PIV -/
def requestAfter (p : Pkt) (srv : Ctx) (nonce : Bytes) (t : Table) (ssn x : Nat) : Ctx :=
  match srv.echo with
  | .reboot => { srv with nonce := nonce, inter := t, echo := .verify }
  | .verify =>
    if echoOf p.opts = some srv.echoVal then
      { srv with nonce := nonce, inter := t, window := srv.window.reinit ssn, echo := .synchronized }
    else { srv with nonce := nonce, inter := t }
  | .synchronized => { srv with nonce := nonce, inter := t, window := (srv.window.update x).2 }

/-- The receiver's build can hold the message that the sender's build `cfg` could protect: its options and its plaintext. -/
structure Receivable (cfg cfgR : Cfg) (p : Pkt) : Prop where
  optBytes : optBytesLen p.opts ≤ cfgR.maxCoapOptions
  plain : ∀ n, n ≤ cfg.maxPlaintext → n ≤ 2 + (encOpts (redelta 0 (innerOpts (isRequest p) p.opts))).length + p.payload.length →
    n ≤ cfgR.maxPlaintext

theorem Carriable.receivable {cfg : Cfg} {p : Pkt} (h : Carriable cfg p) : Receivable cfg cfg p := ⟨h.optBytes, fun _ h _ => h⟩

theorem ProtOk.pt_length {cfg C nvmW p cap w b w' v} (h : ProtOk cfg C nvmW p cap w b w' v) :
    v.pt.length ≤ 2 + (encOpts (redelta 0 (innerOpts (isRequest p) p.opts))).length + p.payload.length := by
  have hp := h.pt
  unfold plaintextSetup at hp
  obtain ⟨ser, h1, hp⟩ := R.bind_eq_ok.1 hp
  obtain ⟨ser', h2, hp⟩ := R.bind_eq_ok.1 hp
  have e1 := (optionsSerialize_ok.1 h1).1
  have e2 := (memcpyS_ok.1 h2).1
  subst e1; subst e2
  split at hp
  · split at hp
    · cases hp
    · rw [← R.ok.inj hp, List.length_cons]; omega
  · split at hp
    · cases hp
    · obtain ⟨pl, h3, hp⟩ := R.bind_eq_ok.1 hp
      have e3 := (memcpyS_ok.1 h3).1
      subst e3
      simp only at hp
      split at hp
      · cases hp
      · split at hp
        · cases hp
        · rw [← R.ok.inj hp]
          refine Nat.le_trans (List.length_take_le' _ _) ?_
          simp only [List.length_append, List.length_cons, List.length_nil]
          omega

/-- The core of C22 for any Echo state of the server; the two sides may be built with different configurations. -/
theorem request_received_builds (cfg cfgR : Cfg) (C : Crypto) (hC : C.Lawful) (nvmW : Option Err)
    (inp b : Bytes) (cap cap' : Nat) (w w' : World) (srv : Ctx) (p : Pkt)
    (hsend : coap2oscore cfg C nvmW inp cap w = (.ok b, w'))
    (hp : coapDeserialize inp = .ok p) (hreq : isRequest p = true) (hack : ¬(p.type = 2 ∧ p.code = 0))
    (hcar : Carriable cfg p) (hR : Receivable cfg cfgR p) (hb : b.length < 65536)
    (hmir : Mirror w.ctx srv) (hssn : srv.ssn < 0x7FFFFF)
    (hfresh : srv.echo = .synchronized → srv.window.valid w.ctx.ssn = true)
    (hroom : ∀ uri rp rk t, uriPathCreate p.opts cfg.uriMax = .ok uri → ssn2piv w.ctx.ssn = .ok rp → rk = w.ctx.senderId →
      updateWrapper cfg w.ctx.inter (msgType p) p.token uri rp rk = .ok t →
      ∃ uriR t2, uriPathCreate p.opts cfgR.uriMax = .ok uriR ∧ updateWrapper cfgR srv.inter (msgType p) p.token uriR rp rk = .ok t2)
    (hcap : (encPkt p).length ≤ cap') :
    ∃ t2 uri uriR rp rk x l, oscore2coap cfgR C b cap' srv =
        (requestAnswer p srv, requestAfter p srv w'.ctx.nonce t2 w.ctx.ssn x.toNat) ∧
      coapDeserialize (encPkt p) = .ok p ∧ createAad rk rp = .ok (w'.log.head?.getD default).aad ∧
      updateWrapper cfgR srv.inter (msgType p) p.token uriR rp rk = .ok t2 ∧
      updateWrapper cfg w.ctx.inter (msgType p) p.token uri rp rk = .ok w'.ctx.inter ∧
      uriPathCreate p.opts cfg.uriMax = .ok uri ∧ uriPathCreate p.opts cfgR.uriMax = .ok uriR ∧ rk = w.ctx.senderId ∧ rp = x :: l ∧ ssn2piv w.ctx.ssn = .ok rp ∧
      w'.ctx.ssn = w.ctx.ssn + 1 := by
  obtain ⟨v, hv⟩ := protect_ok hsend hp hack
  have hcfg := maxCoapOptions_le ⟨hcar.bufs.1, hcar.bufs.2.1⟩
  obtain ⟨t, o, hparse, hopt, hpiv, hkid, _, hpl, hkl⟩ :=
    hv.parsed (by omega) hb hcar.outer hcar.noOscore
  obtain ⟨hOreq, hOty⟩ := outer_msgType_request (ct := v.ct) (v := v.opt) hreq
  have hty := msgType_request hreq
  have hnew : v.new = true := by
    rw [hv.new]; unfold needsNewPiv
    simp [hty.1]
  obtain ⟨hpivS, hkidS, hkctxS, hnonceS, _, hssn', _⟩ := hv.ifNew hnew
  have hread := hv.read
  have hnr : ¬(msgType p = .response ∨ msgType p = .notification) := by
    rintro (h | h)
    · exact hty.1 h
    · exact hty.2 h
  unfold readWrapper at hread
  rw [if_neg hnr] at hread
  simp only [R.ok.injEq, Prod.mk.injEq] at hread
  obtain ⟨hrp, hrk⟩ := hread
  have hdecr := coseDecrypt_encrypt hC hv.ct
  have hval : beVal v.piv = w.ctx.ssn := (ssn2piv_minimal hpivS).1.1
  have hreb := hv.rebuilt hcar.toInnerOk
  rw [hreq, recovered_true] at hreb
  obtain ⟨uriR, t2, huriR, ht2⟩ := hroom _ _ _ _ hv.uri (by rw [← hrp]; exact hpivS) (by rw [← hrk]; exact hkidS) hv.upd
  have hdec : decryptWrapper cfgR C (some o)
      (oscorePkgGenerate p (redelta 0 (outerOpts p.opts)) v.ct v.opt) srv =
      (.ok (p, v.pt), { srv with nonce := v.nonce, inter := t2 }) := by
    refine decryptWrapper_ok (rp := v.rp) (rk := v.rk) (aad := v.aad) (uri := uriR) ?_ ?_ hv.aad ?_ hreb huriR ht2
    · unfold readWrapper
      rw [hOty, if_neg hnr]
      simp only [decPivKid, OscOpt.read]
      rw [hpiv, hkid, ← hrp, ← hrk]; rfl
    · simp only [decNonce, OscOpt.read]
      rw [hpiv, hkid]
      simp only [R.ok_bind, R.pure_eq]
      rw [hmir.iv, hkidS]; exact hnonceS
    · rw [hmir.key]; exact hdecr.1
  have hser : coapSerialize cfgR p cap' = .ok (encPkt p) :=
    coapSerialize_ok.2 ⟨rfl, hcap, hR.optBytes⟩
  have hpivne : ∃ x l, v.piv = x :: l := by
    have := (ssn2piv_minimal hpivS).2.1
    cases hvp : v.piv with
    | nil => rw [hvp] at this; simp at this
    | cons x l => exact ⟨x, l, rfl⟩
  obtain ⟨x, l, hxl⟩ := hpivne
  have hplain := (hv.plain hcar.toInnerOk).1
  have hecho : echoValIsFresh srv.echoVal v.pt = .ok () ↔ echoOf p.opts = some srv.echoVal := by
    have he := echo_plain (isRequest p) p.opts
    unfold echoValIsFresh
    rw [hplain, R.ok_bind]
    simp only
    cases hf : (redelta 0 (innerOpts (isRequest p) p.opts)).find? (fun o => o.num == optECHO) with
    | none => rw [hf] at he; rw [← he]; simp
    | some q =>
      rw [hf] at he
      rw [← he]
      simp only [Option.map_some, Option.some.injEq]
      constructor
      · intro h
        split at h
        · rename_i hh; exact hh.2
        · cases h
      · intro h; rw [if_pos ⟨by rw [← h]; rfl, h⟩]
  have hecho' : echoOf p.opts ≠ some srv.echoVal → ∃ e, echoValIsFresh srv.echoVal v.pt = .err e := by
    intro hne
    have h1 := (not_congr hecho).2 hne
    unfold echoValIsFresh at h1 ⊢
    rw [hplain, R.ok_bind] at h1 ⊢
    simp only at h1 ⊢
    split
    · exact ⟨_, rfl⟩
    · split
      · rename_i h2 h3; rw [h2] at h1; simp only at h1; rw [if_pos h3] at h1; exact absurd rfl h1
      · exact ⟨_, rfl⟩
  have hafter : afterRequest o v.pt { srv with nonce := v.nonce, inter := t2 } =
      ((requestAnswer p srv) >>= fun _ => .ok (), requestAfter p srv v.nonce t2 w.ctx.ssn x.toNat) := by
    unfold afterRequest requestAnswer requestAfter
    rw [M.bind_get]
    cases hst : srv.echo with
    | reboot => rfl
    | verify =>
      simp only
      by_cases hq : echoOf p.opts = some srv.echoVal
      · rw [hecho.2 hq, if_pos hq, if_pos hq]
        simp only
        rw [hpiv, M.bind_lift_ok, hval]
        rfl
      · obtain ⟨e, he⟩ := hecho' hq
        rw [he, if_neg hq, if_neg hq]
        rfl
    | synchronized =>
      simp only
      rw [hpiv, M.bind_lift_ok, hxl]
      rfl
  refine ⟨t2, v.uri, uriR, v.rp, v.rk, x, l, ?_,
    deserialize_encPkt (hcar.pktOk hv.range) hcar.small, ?_, ht2, ?_,
    hv.uri, huriR, by rw [← hrk]; exact hkidS, by rw [← hrp]; exact hxl, by rw [← hrp]; exact hpivS, hssn'⟩
  · rw [hv.nonce']
    unfold oscore2coap
    rw [M.bind_get]
    have hfr : checkFreshness srv = .ok () := by
      unfold checkFreshness ssnOverflow; rw [if_neg (by omega)]
    rw [hfr, M.bind_lift_ok, hparse, M.bind_lift_ok]
    simp only
    rw [hopt, M.bind_lift_ok]
    have hpt := (hv.plain hcar.toInnerOk).2
    have hlen8 : checkBufferSize cfgR.maxPlaintext (sub32
        (oscorePkgGenerate p (redelta 0 (outerOpts p.opts)) v.ct v.opt).payload.length 8) = .ok () := by
      have : (oscorePkgGenerate p (redelta 0 (outerOpts p.opts)) v.ct v.opt).payload = v.ct := rfl
      have hbuf := hcar.bufs
      have hR1 := hR.plain _ hpt hv.pt_length
      rw [this, hdecr.2, sub32_of_le (by omega) (by omega), checkBufferSize_ok]
      omega
    rw [hlen8, M.bind_lift_ok, hOreq]
    simp only [if_true]
    rw [M.run_bind]
    have hun : unprotectRequest cfgR C o (oscorePkgGenerate p (redelta 0 (outerOpts p.opts)) v.ct v.opt) srv =
        ((requestAnswer p srv) >>= fun _ => .ok p, requestAfter p srv v.nonce t2 w.ctx.ssn x.toNat) := by
      unfold unprotectRequest
      rw [M.bind_get]
      have hk : kidMatches srv o = .ok true := by
        unfold kidMatches
        rw [hkl, hkidS, hmir.id, if_neg (by simp), hkid, hkidS]
        simp only [R.ok_bind, R.pure_eq, R.ok.injEq]
        exact arrayEquals_iff.2 rfl
      rw [hk, M.bind_lift_ok]
      rw [if_neg (by simp)]
      have hc : checkReplay srv o = .ok () := by
        unfold checkReplay
        by_cases hst : srv.echo = .synchronized
        · rw [if_pos hst, hpiv]
          simp only [R.ok_bind]
          rw [hval, if_pos (hfresh hst)]
        · rw [if_neg hst]
      rw [hc, M.bind_lift_ok, M.bind_ok hdec]
      simp only
      rw [M.run_bind, hafter]
      cases requestAnswer p srv <;> rfl
    rw [hun]
    have hA : requestAnswer p srv = .ok (encPkt p) ∨ ∃ e, requestAnswer p srv = .err e := by
      unfold requestAnswer
      cases srv.echo with
      | reboot => exact .inr ⟨_, rfl⟩
      | synchronized => exact .inl rfl
      | verify => simp only; split
                  · exact .inl rfl
                  · exact .inr ⟨_, rfl⟩
    rcases hA with hA | ⟨e, hA⟩
    · rw [hA]
      simp only [R.ok_bind, M.run_lift]
      rw [hser]
    · rw [hA]; rfl
  · rw [hv.log]; exact hv.aad
  · rw [hv.inter']; exact hv.upd

/-- The core of C22 for any Echo state of the server. -/
theorem request_received (cfg : Cfg) (C : Crypto) (hC : C.Lawful) (nvmW : Option Err)
    (inp b : Bytes) (cap cap' : Nat) (w w' : World) (srv : Ctx) (p : Pkt)
    (hsend : coap2oscore cfg C nvmW inp cap w = (.ok b, w'))
    (hp : coapDeserialize inp = .ok p) (hreq : isRequest p = true) (hack : ¬(p.type = 2 ∧ p.code = 0))
    (hcar : Carriable cfg p) (hb : b.length < 65536)
    (hmir : Mirror w.ctx srv) (hssn : srv.ssn < 0x7FFFFF)
    (hfresh : srv.echo = .synchronized → srv.window.valid w.ctx.ssn = true)
    (hroom : ∀ uri rp rk t, uriPathCreate p.opts cfg.uriMax = .ok uri → ssn2piv w.ctx.ssn = .ok rp → rk = w.ctx.senderId →
      updateWrapper cfg w.ctx.inter (msgType p) p.token uri rp rk = .ok t →
      ∃ t2, updateWrapper cfg srv.inter (msgType p) p.token uri rp rk = .ok t2)
    (hcap : (encPkt p).length ≤ cap') :
    ∃ t2 uri rp rk x l, oscore2coap cfg C b cap' srv =
        (requestAnswer p srv, requestAfter p srv w'.ctx.nonce t2 w.ctx.ssn x.toNat) ∧
      coapDeserialize (encPkt p) = .ok p ∧ createAad rk rp = .ok (w'.log.head?.getD default).aad ∧
      updateWrapper cfg srv.inter (msgType p) p.token uri rp rk = .ok t2 ∧
      updateWrapper cfg w.ctx.inter (msgType p) p.token uri rp rk = .ok w'.ctx.inter ∧
      uriPathCreate p.opts cfg.uriMax = .ok uri ∧ rk = w.ctx.senderId ∧ rp = x :: l ∧ ssn2piv w.ctx.ssn = .ok rp ∧
      w'.ctx.ssn = w.ctx.ssn + 1 := by
  obtain ⟨t2, uri, uriR, rp, rk, x, l, h1, h2, h3, h4, h5, h6, h7, h8⟩ :=
    request_received_builds cfg cfg C hC nvmW inp b cap cap' w w' srv p hsend hp hreq hack hcar hcar.receivable hb hmir hssn hfresh
      (fun uri rp rk t a1 a2 a3 a4 => (hroom uri rp rk t a1 a2 a3 a4).elim fun t2 ht => ⟨uri, t2, a1, ht⟩) hcap
  rw [h6] at h7
  obtain rfl := R.ok.inj h7
  exact ⟨t2, uri, rp, rk, x, l, h1, h2, h3, h4, h5, h6, h8⟩

/-- The core of C22 (stated for users as `C22_request_partial` in Props/Exchange.lean), with everything the
server changes. -/
theorem request_recovered_full (cfg : Cfg) (C : Crypto) (hC : C.Lawful) (nvmW : Option Err)
    (inp b : Bytes) (cap cap' : Nat) (w w' : World) (srv : Ctx) (p : Pkt)
    (hsend : coap2oscore cfg C nvmW inp cap w = (.ok b, w'))
    (hp : coapDeserialize inp = .ok p) (hreq : isRequest p = true) (hack : ¬(p.type = 2 ∧ p.code = 0))
    (hcar : Carriable cfg p) (hb : b.length < 65536)
    (hmir : Mirror w.ctx srv) (hssn : srv.ssn < 0x7FFFFF) (hsync : srv.echo = .synchronized)
    (hfresh : srv.window.valid w.ctx.ssn = true)
    (hroom : ∀ uri rp rk t, updateWrapper cfg w.ctx.inter (msgType p) p.token uri rp rk = .ok t →
      ∃ t2, updateWrapper cfg srv.inter (msgType p) p.token uri rp rk = .ok t2)
    (hcap : (encPkt p).length ≤ cap') :
    ∃ out srv', oscore2coap cfg C b cap' srv = (.ok out, srv') ∧
      out = encPkt p ∧ coapDeserialize out = .ok p ∧ srv'.nonce = w'.ctx.nonce ∧
      ∃ uri rp rk x l, createAad rk rp = .ok (w'.log.head?.getD default).aad ∧
        updateWrapper cfg srv.inter (msgType p) p.token uri rp rk = .ok srv'.inter ∧
        updateWrapper cfg w.ctx.inter (msgType p) p.token uri rp rk = .ok w'.ctx.inter ∧
        uriPathCreate p.opts cfg.uriMax = .ok uri ∧ rk = w.ctx.senderId ∧ rp = x :: l ∧ ssn2piv w.ctx.ssn = .ok rp ∧
        srv' = { srv with nonce := w'.ctx.nonce, inter := srv'.inter, window := (srv.window.update x.toNat).2 } ∧
        w'.ctx.ssn = w.ctx.ssn + 1 := by
  obtain ⟨t2, uri, rp, rk, x, l, h1, h2, h3, h4, h5, h6, h7, h8, h9, h10⟩ :=
    request_received cfg C hC nvmW inp b cap cap' w w' srv p hsend hp hreq hack hcar hb hmir hssn (fun _ => hfresh)
      (fun uri rp rk t _ _ _ h => hroom uri rp rk t h) hcap
  have hA : requestAnswer p srv = .ok (encPkt p) := by unfold requestAnswer; rw [hsync]
  have hB : requestAfter p srv w'.ctx.nonce t2 w.ctx.ssn x.toNat =
      { srv with nonce := w'.ctx.nonce, inter := t2, window := (srv.window.update x.toNat).2 } := by
    unfold requestAfter
    split
    · rename_i h; rw [hsync] at h; cases h
    · rename_i h; rw [hsync] at h; cases h
    · rfl
  rw [hA, hB] at h1
  exact ⟨_, _, h1, rfl, h2, rfl, uri, rp, rk, x, l, h3, h4, h5, h6, h7, h8, h9, rfl, h10⟩

/-- The core of C22 for a server with room for the token -/
theorem request_recovered (cfg : Cfg) (C : Crypto) (hC : C.Lawful) (nvmW : Option Err)
    (inp b : Bytes) (cap cap' : Nat) (w w' : World) (srv : Ctx) (p : Pkt)
    (hsend : coap2oscore cfg C nvmW inp cap w = (.ok b, w'))
    (hp : coapDeserialize inp = .ok p) (hreq : isRequest p = true) (hack : ¬(p.type = 2 ∧ p.code = 0))
    (hcar : Carriable cfg p) (hb : b.length < 65536)
    (hmir : Mirror w.ctx srv) (hssn : srv.ssn < 0x7FFFFF) (hsync : srv.echo = .synchronized)
    (hfresh : srv.window.valid w.ctx.ssn = true) (hroom : HasRoom srv.inter p.token)
    (hcap : (encPkt p).length ≤ cap') :
    ∃ out srv', oscore2coap cfg C b cap' srv = (.ok out, srv') ∧
      out = encPkt p ∧ coapDeserialize out = .ok p ∧ srv'.nonce = w'.ctx.nonce ∧
      ∃ uri rp rk, createAad rk rp = .ok (w'.log.head?.getD default).aad ∧
        updateWrapper cfg srv.inter (msgType p) p.token uri rp rk = .ok srv'.inter ∧
        updateWrapper cfg w.ctx.inter (msgType p) p.token uri rp rk = .ok w'.ctx.inter := by
  obtain ⟨out, srv', h1, h2, h3, h4, uri, rp, rk, x, l, h5, h6, h7, -⟩ :=
    request_recovered_full cfg C hC nvmW inp b cap cap' w w' srv p hsend hp hreq hack hcar hb hmir hssn hsync hfresh
      (fun _ _ _ _ h => updateWrapper_room h (msgType_request hreq) hroom) hcap
  exact ⟨out, srv', h1, h2, h3, h4, uri, rp, rk, h5, h6, h7⟩

end Verif
