import Verif.Spec.OscoreCborSpec
import Verif.Lemmas.CborLemmas
import Verif.Props.EndToEnd
import Verif.Lemmas.Examples
import Verif.Props.Hkdf
/-
C25 (AAD), C26 (ID lengths), C27 (mirrored contexts), C28 (HKDF info).
-/
namespace Verif
open Cbor

/-! ### C25 -/

/-- **C25** That encoding determines KID and PIV. -/
theorem C25_injective {kid piv kid' piv' : Bytes} (h1 : kid.length < 2 ^ 32) (h2 : piv.length < 2 ^ 32)
    (h3 : kid'.length < 2 ^ 32) (h4 : piv'.length < 2 ^ 32)
    (h : enc (oscoreEncStructure kid piv) = enc (oscoreEncStructure kid' piv')) :
    kid = kid' ∧ piv = piv' := by
  have ok : ∀ k p : Bytes, k.length < 2 ^ 32 → p.length < 2 ^ 32 → (aadArray k p).Ok := by
    intro k p hk hp
    have h10 : Item.int 10 = .uint 10 := rfl
    simp only [aadArray, h10, Item.Ok, OkList, List.length_cons, List.length_nil]; simp; omega
  have len : ∀ k p : Bytes, k.length < 2 ^ 32 → p.length < 2 ^ 32 → (enc (aadArray k p)).length < 2 ^ 64 := by
    intro k p hk hp
    have h10 : Item.int 10 = .uint 10 := rfl
    have b : ∀ n : Nat, (if n < 24 then 1 else if n < 2 ^ 8 then 2 else if n < 2 ^ 16 then 3
      else if n < 2 ^ 32 then 5 else 9) ≤ 9 := by intro n; repeat' split
                                                  all_goals omega
    have := b k.length
    have := b p.length
    simp only [aadArray, h10, enc, encList, List.length_append, head_length, List.length_cons,
      List.length_nil]
    generalize (if k.length < 24 then 1 else if k.length < 2 ^ 8 then 2 else if k.length < 2 ^ 16 then 3
      else if k.length < 2 ^ 32 then 5 else 9) = x at *
    generalize (if p.length < 24 then 1 else if p.length < 2 ^ 8 then 2 else if p.length < 2 ^ 16 then 3
      else if p.length < 2 ^ 32 then 5 else 9) = y at *
    simp; omega
  have ok2 : ∀ k p : Bytes, k.length < 2 ^ 32 → p.length < 2 ^ 32 → (oscoreEncStructure k p).Ok := by
    intro k p hk hp
    have hl : encrypt0.length = 8 := by decide +kernel
    have := len k p hk hp
    simp only [oscoreEncStructure, Item.Ok, OkList, List.length_cons, List.length_nil, hl]; simp; omega
  have e1 := enc_inj (ok2 _ _ h1 h2) (ok2 _ _ h3 h4) h
  simp only [oscoreEncStructure, Item.arr.injEq, List.cons.injEq, Item.bstr.injEq, and_true, true_and] at e1
  have e2 := enc_inj (ok _ _ h1 h2) (ok _ _ h3 h4) e1
  simpa [aadArray] using e2

theorem not_rsp_of_request {p : Pkt} (h : isRequest p = true) :
    ¬(msgType p = .response ∨ msgType p = .notification) := by
  obtain ⟨h1, h2⟩ := msgType_request h
  rintro (h | h)
  · exact h1 h
  · exact h2 h

/-- **C25** (sending) Whenever `coap2oscore` returns ok for a request, the payload on the wire is the
AEAD ciphertext under the RFC 8613 nonce and AAD of (Sender ID, PIV of this request): the result of the AEAD call of the
log. -/
theorem C25_request_sent {cfg : Cfg} {C : Crypto} {nvmW : Option Err} {inp b : Bytes} {cap : Nat}
    {w w' : World} {p : Pkt} (h : coap2oscore cfg C nvmW inp cap w = (.ok b, w'))
    (hp : coapDeserialize inp = .ok p) (hreq : isRequest p = true) (hack : ¬(p.type = 2 ∧ p.code = 0)) :
    ∃ piv e, beVal piv = w.ctx.ssn ∧ w'.log = e :: w.log ∧ e.key = w.ctx.senderKey ∧
      IsNonce w.ctx w.ctx.senderId piv e.nonce ∧
      ∃ out, b = encPkt out ∧
        C.aeadEnc w.ctx.senderKey e.nonce (enc (oscoreEncStructure w.ctx.senderId piv)) 8 e.pt = some out.payload := by
  obtain ⟨v, hv⟩ := protect_ok h hp hack
  have hty := not_rsp_of_request hreq
  have hn : v.new = true := by
    rw [hv.new]; unfold needsNewPiv
    have : (msgType p != .response) = true := by
      simp only [bne_iff_ne, ne_eq]; intro hh; exact hty (Or.inl hh)
    rw [this]; rfl
  have hr := hv.read
  unfold readWrapper at hr
  rw [if_neg hty] at hr
  simp only [R.ok.injEq, Prod.mk.injEq] at hr
  obtain ⟨hs, hk, _, hno, _⟩ := hv.ifNew hn
  obtain ⟨a, ha, hc⟩ := R.bind_eq_ok.1 hv.ct
  have hA := (C25_aad_rfc8613 hv.aad ha).2
  rw [hA, ← hr.1, ← hr.2, hk] at hc
  refine ⟨v.piv, _, (ssn2piv_minimal hs).1.1, hv.log, rfl, fun hiv => Rfc8613.nonce_eq hiv hno, _,
    (coapSerialize_ok.1 hv.out).1, ?_⟩
  show C.aeadEnc w.ctx.senderKey v.nonce _ 8 v.pt = some v.ct
  revert hc; unfold ofLib tagLen
  split <;> simp_all

/-- **C25** (receiving) Whenever `oscore2coap` delivers a request, the KID in its OSCORE option is the Recipient ID and the
AEAD accepted its payload under the RFC 8613 nonce and AAD of (KID, PIV) in the option. -/
theorem C25_request_received {cfg : Cfg} {C : Crypto} {inp b : Bytes} {cap : Nat} {c c' : Ctx} {p : Pkt}
    (h : oscore2coap cfg C inp cap c = (.ok b, c')) (hp : coapDeserialize inp = .ok p) (hreq : isRequest p = true) :
    ∃ piv n pt, HasOption inp p piv c.recipientId ∧ IsNonce c c.recipientId piv n ∧
      C.aeadDec c.recipientKey n (enc (oscoreEncStructure c.recipientId piv)) 8 p.payload = some pt := by
  have h1 := authentic_or_unchanged cfg C inp cap c
  rw [h] at h1
  have same : ∀ {p' t}, coapParse inp = .ok (p', t) → p' = p := by
    intro p' t hh; simpa [coapDeserialize, hh] using hp
  rcases h1 with ⟨h1, _⟩ | ⟨pt, n, a, ct, hc, hd⟩
  · exact absurd rfl (h1 b)
  · cases hc with
    | request ho hr hn =>
      have := ho
      obtain ⟨t, o, g, _⟩ := this
      obtain rfl := same g
      exact ⟨_, _, pt, ho, hn, hd⟩
    | ownPiv ho hr => obtain ⟨t, o, g, _⟩ := ho; obtain rfl := same g; rw [hreq] at hr; cases hr
    | samePiv g _ _ hr => obtain rfl := same g; rw [hreq] at hr; cases hr

/-! ### C26 -/

/-- **C26** (exact limit) The AAD can be built iff KID and PIV together have at most 7 bytes. -/
theorem C26_aad_iff {kid piv : Bytes} (hk : kid.length < 24) (hp : piv.length < 24) :
    (∃ a, (createAad kid piv >>= encStructure) = .ok a) ↔ kid.length + piv.length ≤ 7 := by
  have hl := aadArray_length hk hp
  simp only [R.bind_eq_ok, createAad_ok, encStructure_ok]
  constructor
  · rintro ⟨a, x, ⟨rfl, _⟩, _, h⟩; omega
  · intro h; exact ⟨_, _, ⟨rfl, by omega⟩, rfl, by omega⟩

/-- **C26** is false: when Sender ID and PIV together have more than 7 bytes no request can be
protected, whatever the message, the buffers and the state. -/
theorem C26_false {cfg : Cfg} {C : Crypto} {nvmW : Option Err} {inp : Bytes} {cap : Nat} {w : World}
    {p : Pkt} {piv : Bytes} (hp : coapDeserialize inp = .ok p) (hreq : isRequest p = true)
    (hack : ¬(p.type = 2 ∧ p.code = 0)) (hpiv : ssn2piv w.ctx.ssn = .ok piv)
    (hid : w.ctx.senderId.length < 24) (hlong : 7 < w.ctx.senderId.length + piv.length) :
    ∀ b, (coap2oscore cfg C nvmW inp cap w).1 ≠ .ok b := by
  intro b hb
  have h : coap2oscore cfg C nvmW inp cap w = (.ok b, (coap2oscore cfg C nvmW inp cap w).2) := by
    rw [← hb]
  obtain ⟨v, hv⟩ := protect_ok h hp hack
  have hty := not_rsp_of_request hreq
  have hn : v.new = true := by
    rw [hv.new]; unfold needsNewPiv
    have : (msgType p != .response) = true := by
      simp only [bne_iff_ne, ne_eq]; intro hh; exact hty (Or.inl hh)
    rw [this]; rfl
  have hr := hv.read
  unfold readWrapper at hr
  rw [if_neg hty] at hr
  simp only [R.ok.injEq, Prod.mk.injEq] at hr
  obtain ⟨hs, hk, _, _, _⟩ := hv.ifNew hn
  rw [hpiv] at hs
  have hs := R.ok.inj hs
  obtain ⟨a, ha, _⟩ := R.bind_eq_ok.1 hv.ct
  have h5 := (ssn2piv_minimal hpiv).2.2
  have := (C26_aad_iff (kid := v.rk) (piv := v.rp) (by rw [← hr.2, hk]; exact hid)
    (by rw [← hr.1, ← hs]; omega)).1 ⟨a, R.bind_eq_ok.2 ⟨_, hv.aad, ha⟩⟩
  rw [← hr.1, ← hr.2, hk, ← hs] at this
  omega

/-- **C26** is false for every Sender ID of 7 bytes, the longest RFC 8613 allows for this algorithm: not a
single request can be protected. -/
theorem C26_false_seven_bytes {cfg : Cfg} {C : Crypto} {nvmW : Option Err} {inp : Bytes} {cap : Nat}
    {w : World} {p : Pkt} (hp : coapDeserialize inp = .ok p) (hreq : isRequest p = true)
    (hack : ¬(p.type = 2 ∧ p.code = 0)) (hid : w.ctx.senderId.length = 7) :
    ∀ b, (coap2oscore cfg C nvmW inp cap w).1 ≠ .ok b := by
  intro b hb
  by_cases hs : w.ctx.ssn ≤ 2 ^ 40 - 1
  · obtain ⟨piv, hpiv⟩ : ∃ piv, ssn2piv w.ctx.ssn = .ok piv := by
      unfold ssn2piv maxPivValue; rw [if_neg (by omega)]; simp only; split <;> exact ⟨_, rfl⟩
    have := (ssn2piv_minimal hpiv).2.1
    exact C26_false hp hreq hack hpiv (by omega) (by omega) b hb
  · have h : coap2oscore cfg C nvmW inp cap w = (.ok b, (coap2oscore cfg C nvmW inp cap w).2) := by
      rw [← hb]
    obtain ⟨v, hv⟩ := protect_ok h hp hack
    have := hv.ssn
    omega

/-- non-vacuity of `C26_false_seven_bytes`: a context with a 7-byte Sender ID can be initialised -/
example : ∃ c, contextInit {} toyCrypto { exClientParams true with senderId := [1, 2, 3, 4, 5, 6, 7] }
    (.ok 0) (List.replicate 13 0) exJunk = .ok c ∧ c.senderId.length = 7 ∧
    ∃ p, coapDeserialize exGet = .ok p ∧ isRequest p = true ∧ ¬(p.type = 2 ∧ p.code = 0) := by
  refine ⟨initOr {} { exClientParams true with senderId := [1, 2, 3, 4, 5, 6, 7] } (.ok 0) exJunk, ?_, ?_,
    (coapDeserialize exGet).getD ⟨0, 0, 0, 0, [], [], []⟩, ?_⟩ <;> decide +kernel

theorem tableSet_any_ids {cfg : Cfg} {t t' : Table} {r : Rec} (h : t.set cfg r = .ok t') {piv kid : Bytes}
    (hp : piv.length ≤ 5) (hk : kid.length ≤ 8) :
    ∃ t'', t.set cfg { r with piv := piv, kid := kid } = .ok t'' := by
  unfold Table.set at h
  by_cases h1 : r.token.length > 8 ∨ r.uri.length > cfg.uriMax ∨ r.piv.length > 5 ∨ r.kid.length > 8
  · rw [if_pos h1] at h; cases h
  · rw [if_neg h1] at h
    unfold Table.set
    rw [if_neg (show ¬(r.token.length > 8 ∨ r.uri.length > cfg.uriMax ∨ piv.length > 5 ∨ kid.length > 8) by
      omega)]
    simp only at h ⊢
    generalize (if t.findRes r.uri r.reqType ≥ t.length then t.findFree else t.findRes r.uri r.reqType) = slot at *
    by_cases h2 : slot ≥ t.length
    · rw [if_pos h2] at h; cases h
    · rw [if_neg h2] at h ⊢
      by_cases h3 : t.findTok r.token < t.length ∧ t.findTok r.token ≠ slot
      · rw [if_pos h3] at h; cases h
      · rw [if_neg h3]; exact ⟨_, rfl⟩

theorem updateWrapper_any_ids {cfg : Cfg} {t t' : Table} {ty : MsgType} {tok uri : Bytes}
    (h : updateWrapper cfg t ty tok uri [] [] = .ok t') {piv kid : Bytes} (hp : piv.length ≤ 5)
    (hk : kid.length ≤ 8) : ∃ t'', updateWrapper cfg t ty tok uri piv kid = .ok t'' := by
  unfold updateWrapper at *
  simp only at *
  generalize (if ty = .cancellation then .registration else ty) = ty' at *
  by_cases hc : ty' = .request ∨ ty' = .registration
  · rw [if_pos hc] at h ⊢
    obtain ⟨a, ha, h⟩ := R.bind_eq_ok.1 h
    obtain ⟨b, hb, h⟩ := R.bind_eq_ok.1 h
    obtain ⟨c, hcc, h⟩ := R.bind_eq_ok.1 h
    obtain ⟨d, hd, hset⟩ := R.bind_eq_ok.1 h
    rw [memcpyS_ok.2 ⟨rfl, hp⟩, R.ok_bind, memcpyS_ok.2 ⟨rfl, hk⟩, R.ok_bind, hcc, R.ok_bind, hd, R.ok_bind]
    exact tableSet_any_ids hset hp hk
  · rw [if_neg hc] at h ⊢
    exact ⟨_, h⟩

/-- The AEAD encrypts every plaintext of less than 64 KiB under a 16-byte key and a 13-byte nonce, with an
8-byte tag, as AES-CCM-16-64-128 does (`realCrypto_aeadTotal`). -/
def AeadTotal (C : Crypto) : Prop := ∀ k n a p, k.length = 16 → n.length = 13 → a.length < 0xff00 → p.length < 65536 →
  (C.aeadEnc k n a 8 p).isSome

theorem encStructure_small {aad a : Bytes} (h : encStructure aad = .ok a) : a.length < 0xff00 := by
  obtain ⟨rfl, hl⟩ := encStructure_ok.1 h
  simp only [enc, encList, List.length_append, head_length, List.length_nil, if_pos (show aad.length < 24 by omega)]
  have : encrypt0.length = 8 := by decide +kernel
  rw [this]; simp; omega

theorem createNonce_total {id piv iv : Bytes} (h1 : id.length ≤ 7) (h2 : piv.length ≤ 5)
    (h3 : iv.length ≤ 13) : ∃ n, createNonce id piv iv = .ok n := by
  unfold createNonce leftPad
  rw [if_neg (by omega), if_neg (by omega)]
  simp only [R.ok_bind]
  rw [if_neg (by omega)]
  exact ⟨_, rfl⟩

/-- the encryption step succeeds when its parts do (new PIV, NVM write ok) -/
theorem encryptWrapper_succeeds {cfg : Cfg} {C : Crypto} {pt : Bytes} {p : Pkt} {w : World}
    {piv nonce opt rp rk aad ct uri : Bytes} {t : Table}
    (hn : needsNewPiv (msgType p) w.ctx.echo = true) (hpiv : ssn2piv w.ctx.ssn = .ok piv)
    (hnonce : createNonce w.ctx.senderId piv w.ctx.commonIv = .ok nonce)
    (hopt : oscoreOptionGenerate piv w.ctx.senderId w.ctx.idContext = .ok opt)
    (hread : readWrapper w.ctx.inter (msgType p) p.token (.ok (piv, w.ctx.senderId)) = .ok (rp, rk))
    (haad : createAad rk rp = .ok aad)
    (hct : coseEncrypt C pt nonce aad w.ctx.senderKey = .ok ct)
    (huri : uriPathCreate p.opts cfg.uriMax = .ok uri)
    (hupd : updateWrapper cfg w.ctx.inter (msgType p) p.token uri rp rk = .ok t) :
    ∃ w', encryptWrapper cfg C none pt p w = (.ok (ct, opt), w') := by
  unfold encryptWrapper pickNonce
  simp only [M.bind_get, hn, if_true, M.bind_assoc, hpiv, M.bind_lift_ok]
  have hg : (generateNewSsn cfg none w) = (.ok (), bumped cfg none w) := by
    rw [generateNewSsn_eq]; split <;> rfl
  rw [M.bind_ok hg]
  simp only [hnonce, M.bind_lift_ok, M.bind_assoc, M.bind_pure, hopt, hread, haad, hct, M.bind_modify, huri,
    hupd]
  exact ⟨_, rfl⟩

/-- `ssn2piv` never fails below 2^40, and below 2^24 it needs at most three bytes -/
theorem ssn2piv_short {n : Nat} (h : n < 2 ^ 24) : ∃ piv, ssn2piv n = .ok piv ∧ piv.length ≤ 3 := by
  obtain ⟨piv, hpiv, _, _, hmin, _⟩ := C14_ssn2piv n (by omega)
  refine ⟨piv, hpiv, ?_⟩
  have := hmin.shortest (q := be 3 n) (by simp [be]) (by rw [beVal_be, Nat.mod_eq_of_lt (by omega)])
  rw [be_length] at this
  exact this

/-- **C26** (what does hold) With a Sender ID of at most 4 bytes, a request that the message-dependent
steps accept (inner plaintext, URI path, free interaction slot, output buffer) is protected at every
sequence number below the overflow value. Missing with respect to C26: IDs of 5, 6 and 7 bytes, which
stop working when the PIV grows beyond 2, 1 and 0 bytes (`C26_false`). -/
theorem C26_short_ids_partial {cfg : Cfg} {C : Crypto} {inp : Bytes} {cap : Nat} {w : World} {p : Pkt}
    {pt uri : Bytes} {t : Table}
    (hid : w.ctx.senderId.length ≤ 4) (hctx : w.ctx.idContext.length ≤ 10)
    (hiv : w.ctx.commonIv.length ≤ 13) (hssn : w.ctx.ssn < 0x7FFFFF) (hecho : w.ctx.echo ≠ .verify)
    (haead : AeadTotal C) (hkey : w.ctx.senderKey.length = 16)
    (hp : coapDeserialize inp = .ok p) (hreq : isRequest p = true) (hack : ¬(p.type = 2 ∧ p.code = 0))
    (hcount : p.opts.length ≤ 20)
    (hlen : plaintextLen p (eBytes true p.opts % 65536) ≤ cfg.maxPlaintext)
    (hpt : plaintextSetup cfg p (redelta 0 (innerOpts true p.opts))
      (plaintextLen p (eBytes true p.opts % 65536)) = .ok pt) (hptl : pt.length < 65536)
    (huri : uriPathCreate p.opts cfg.uriMax = .ok uri)
    (hroom : updateWrapper cfg w.ctx.inter (msgType p) p.token uri [] [] = .ok t)
    (hout : ∀ ct opt : Bytes, opt.length ≤ 23 → (∃ k n a, C.aeadEnc k n a 8 pt = some ct) →
      ∃ b, coapSerialize cfg (oscorePkgGenerate p (redelta 0 (outerOpts p.opts)) ct opt) cap = .ok b) :
    ∃ b w', coap2oscore cfg C none inp cap w = (.ok b, w') := by
  have hty := not_rsp_of_request hreq
  have hn : needsNewPiv (msgType p) w.ctx.echo = true := by
    unfold needsNewPiv
    have : (msgType p != .response) = true := by
      simp only [bne_iff_ne, ne_eq]; intro hh; exact hty (Or.inl hh)
    rw [this]; rfl
  obtain ⟨piv, hpiv, hpl⟩ := ssn2piv_short (n := w.ctx.ssn) (by omega)
  obtain ⟨nonce, hnonce⟩ := createNonce_total (id := w.ctx.senderId) (piv := piv) (iv := w.ctx.commonIv)
    (by omega) (by omega) hiv
  obtain ⟨a, ha⟩ := (C26_aad_iff (kid := w.ctx.senderId) (piv := piv) (by omega) (by omega)).2 (by omega)
  obtain ⟨aad, haad, henc⟩ := R.bind_eq_ok.1 ha
  obtain ⟨ct, hct⟩ := Option.isSome_iff_exists.1 (haead w.ctx.senderKey nonce a pt hkey (createNonce_length hnonce) (encStructure_small henc) hptl)
  have hcose : coseEncrypt C pt nonce aad w.ctx.senderKey = .ok ct := by
    unfold coseEncrypt; rw [henc, R.ok_bind]; unfold tagLen; rw [hct]; rfl
  obtain ⟨t', ht'⟩ := updateWrapper_any_ids hroom (piv := piv) (kid := w.ctx.senderId) (by omega) (by omega)
  obtain ⟨opt, hopt, hol⟩ : ∃ opt, oscoreOptionGenerate piv w.ctx.senderId w.ctx.idContext = .ok opt ∧
      opt.length ≤ 23 := by
    have hle : oscoreOptValLen piv.length w.ctx.senderId.length w.ctx.idContext.length ≤ 23 := by
      unfold oscoreOptValLen; simp only; split <;> split <;> omega
    unfold oscoreOptionGenerate
    rw [checkBufferSize_ok (u := ()).2 hle, R.ok_bind]
    split
    · exact ⟨[], rfl, by simp⟩
    · refine ⟨_, rfl, ?_⟩
      rw [List.length_cons, List.length_append, List.length_append]
      split <;> simp only [List.length_nil, List.length_cons] <;> omega
  obtain ⟨w', hw'⟩ := encryptWrapper_succeeds (pt := pt) hn hpiv hnonce hopt
    (by unfold readWrapper; rw [if_neg hty]) haad hcose huri ht'
  obtain ⟨b, hb⟩ := hout ct opt hol ⟨_, _, _, hct⟩
  refine ⟨b, w', ?_⟩
  have hsplit : optionSplit p = .ok ⟨redelta 0 (innerOpts true p.opts), redelta 0 (outerOpts p.opts),
      eBytes true p.opts % 65536⟩ := by
    have hs : optionSplit p = .ok (splitGo (isRequest p) 0 0 0 0 p.opts) := by
      unfold optionSplit maxOptionCount; rw [if_neg (by omega)]
    have := (optionSplit_ok (coapDeserialize_wf hp).nums hs).2
    rw [hs, this, hreq]
  unfold coap2oscore
  rw [M.bind_get]
  have hf : checkFreshness w.ctx = .ok () := by
    unfold checkFreshness ssnOverflow; rw [if_neg (by omega)]
  rw [hf, M.bind_lift_ok, hp, M.bind_lift_ok, if_neg hack]
  unfold protectPkt
  rw [hsplit, M.bind_lift_ok]
  simp only
  rw [checkBufferSize_ok (u := ()).2 hlen, M.bind_lift_ok, hpt, M.bind_lift_ok]
  have hc : cacheEcho (redelta 0 (innerOpts true p.opts)) w = (.ok (), w) := by
    unfold cacheEcho; rw [M.bind_get, if_neg hecho]; rfl
  rw [M.bind_ok hc, M.bind_ok hw', M.run_lift, hb]

/-- a concrete request that meets the hypotheses of `C26_short_ids_partial` (at SSN 0 and at the last
usable SSN) -/
example : ((coap2oscore exCfg toyCrypto none exGet 256 ⟨exClient, 0, []⟩).1.isOk = true) ∧
    ((coap2oscore exCfg toyCrypto none exGet 256 ⟨{ exClient with ssn := 0x7FFFFE }, 0, []⟩).1.isOk = true) := by
  constructor <;> decide +kernel

/-! ### C28 -/

/-- the type string and output length of RFC 8613, 3.2.1 -/
def deriveString : DeriveType → String
  | .key => "Key"
  | .iv => "IV"

/-- the output length of RFC 8613, 3.2.1 -/
def deriveLen : DeriveType → Nat
  | .key => 16
  | .iv => 13

theorem hkdfInfo_ok {id ctx a : Bytes} {ty : DeriveType} : hkdfInfo id ctx ty = .ok a ↔
    a = enc (oscoreInfo id ctx (deriveString ty) (deriveLen ty)) ∧ a.length ≤ 50 := by
  have key : ∀ {x y : Bytes} {n : Nat} {e : Err}, x = y → (cborOut n e x = .ok a ↔ a = y ∧ a.length ≤ n) := by
    rintro x _ n e rfl
    rw [cborOut_ok]
    constructor
    · rintro ⟨rfl, h⟩; exact ⟨rfl, h⟩
    · rintro ⟨rfl, h⟩; exact ⟨rfl, h⟩
  unfold hkdfInfo
  apply key
  have hctx : (if ctx.length = 0 then cborNil else cborBstr ctx) =
      enc (if ctx = [] then .null else .bstr ctx) := by
    by_cases h : ctx = []
    · subst h; rfl
    · rw [if_neg h, if_neg (by simpa using h), cborBstr_eq]
  rw [hctx, cborInt_eq, cborBstr_eq]
  have hk : "Key".toUTF8.toList = [0x4B, 0x65, 0x79] := by decide +kernel
  have hv : "IV".toUTF8.toList = [0x49, 0x56] := by decide +kernel
  cases ty <;>
  · simp only [deriveString, deriveLen, oscoreInfo, hk, hv, cborTstr_eq, cborUint_eq, cborArr, cborHead_eq]
    simp only [enc, encList, List.append_assoc, List.append_nil]
    rfl

theorem oscoreInfo_lens {id ctx : Bytes} {ty : DeriveType}
    (h : (enc (oscoreInfo id ctx (deriveString ty) (deriveLen ty))).length ≤ 50) :
    id.length ≤ 50 ∧ ctx.length ≤ 50 := by
  simp only [oscoreInfo, enc, encList, List.length_append] at h
  refine ⟨by omega, ?_⟩
  by_cases hc : ctx = []
  · subst hc; simp
  · rw [if_neg hc, enc, List.length_append] at h; omega

/-- **C28** The HKDF `info` is the RFC 8613 structure (array of id, id_context or nil, algorithm, type, L). -/
theorem C28_info_rfc8613 {id ctx a : Bytes} {ty : DeriveType} (h : hkdfInfo id ctx ty = .ok a) :
    a = enc (oscoreInfo id ctx (deriveString ty) (deriveLen ty)) := (hkdfInfo_ok.1 h).1

/-- **C28** It is an injective function of (ID, ID context, type). -/
theorem C28_info_injective {id ctx id' ctx' a : Bytes} {ty ty' : DeriveType}
    (h : hkdfInfo id ctx ty = .ok a) (h' : hkdfInfo id' ctx' ty' = .ok a) :
    id = id' ∧ ctx = ctx' ∧ ty = ty' := by
  obtain ⟨h1, hl⟩ := hkdfInfo_ok.1 h
  obtain ⟨h2, _⟩ := hkdfInfo_ok.1 h'
  have l1 := oscoreInfo_lens (h1 ▸ hl)
  have l2 := oscoreInfo_lens (h2 ▸ hl)
  have ok : ∀ {i c : Bytes} {t : DeriveType}, i.length ≤ 50 ∧ c.length ≤ 50 →
      (oscoreInfo i c (deriveString t) (deriveLen t)).Ok := by
    intro i c t hl
    have h10 : Item.int 10 = .uint 10 := rfl
    have ht : (deriveString t).toUTF8.toList.length < 4 := by cases t <;> decide +kernel
    have hd : deriveLen t < 17 := by cases t <;> decide
    simp only [oscoreInfo, h10, Item.Ok, OkList, List.length_cons, List.length_nil]
    refine ⟨by omega, by omega, ?_, by omega, by omega, by omega, trivial⟩
    by_cases hc : c = []
    · rw [if_pos hc]; simp [Item.Ok]
    · rw [if_neg hc, Item.Ok]; omega
  have e := enc_inj (ok l1) (ok l2) (h1.symm.trans h2)
  simp only [oscoreInfo, Item.arr.injEq, List.cons.injEq, Item.bstr.injEq, and_true, true_and,
    Item.uint.injEq] at e
  refine ⟨e.1, ?_, ?_⟩
  · have e2 := e.2.1
    by_cases h3 : ctx = [] <;> by_cases h4 : ctx' = [] <;> simp_all
  · have := e.2.2.2
    cases ty <;> cases ty' <;> simp_all [deriveLen]

/-- RFC 8613, 3.2.1: HKDF(master salt, master secret, info, L) -/
def rfc8613Kdf (hmac : Bytes → Bytes → Bytes) (p : InitParams) (id : Bytes) (type : String) (L : Nat) : Bytes :=
  Hkdf.expand hmac (Hkdf.extract hmac p.masterSalt p.masterSecret) (enc (oscoreInfo id p.idContext type L)) L

theorem derive_ok {cfg : Cfg} {C : Crypto} (hC : C.Lawful) (hinfo : 50 ≤ cfg.infoMax) {p : InitParams} {id out : Bytes} {ty : DeriveType}
    (h : derive cfg C p id ty = .ok out) :
    out = rfc8613Kdf C.hmac p id (deriveString ty) (deriveLen ty) := by
  obtain ⟨i, hi, hh⟩ := R.bind_eq_ok.1 h
  obtain ⟨rfl, hl⟩ := hkdfInfo_ok.1 hi
  cases ty with
  | key => simp only at hh; rw [C37_hkdf hC _ _ _ (by omega) (by omega)] at hh; exact (R.ok.inj hh).symm
  | iv => simp only at hh; rw [C37_hkdf hC _ _ _ (by omega) (by omega)] at hh; exact (R.ok.inj hh).symm

/-- **C28** The keys and the IV of an initialised context are HKDF outputs (RFC 5869) for the RFC 8613
`info` structures of the Sender ID, the Recipient ID and the empty ID. -/
theorem C28_keys {cfg : Cfg} {C : Crypto} (hC : C.Lawful) (hinfo : 50 ≤ cfg.infoMax) {p : InitParams}
    {nv : R Nat} {jn je : Bytes} {c : Ctx} (h : contextInit cfg C p nv jn je = .ok c) :
    c.senderKey = rfc8613Kdf C.hmac p p.senderId "Key" 16 ∧
      c.recipientKey = rfc8613Kdf C.hmac p p.recipientId "Key" 16 ∧
      c.commonIv = rfc8613Kdf C.hmac p [] "IV" 13 := by
  obtain ⟨iv, rk, ssn, sk, _, _, hiv, hr, hrk, _, hsk, rfl⟩ := contextInit_ok h
  have h1 := derive_ok hC hinfo hsk
  have h2 := derive_ok hC hinfo hrk
  have h3 := derive_ok hC hinfo hiv
  simp only [deriveString, deriveLen] at h1 h2 h3
  exact ⟨h1, h2, h3⟩

/-- **C28** When the IDs differ, the two keys are derived from different HKDF inputs. -/
theorem C28_keys_separated {cfg : Cfg} {C : Crypto} {p : InitParams} {nv : R Nat} {jn je : Bytes} {c : Ctx}
    (h : contextInit cfg C p nv jn je = .ok c) (hne : p.senderId ≠ p.recipientId) :
    ∃ is ir iv, hkdfInfo p.senderId p.idContext .key = .ok is ∧
      hkdfInfo p.recipientId p.idContext .key = .ok ir ∧ hkdfInfo [] p.idContext .iv = .ok iv ∧
      is ≠ ir ∧ is ≠ iv ∧ ir ≠ iv := by
  obtain ⟨iv, rk, ssn, sk, _, _, hiv, hr, hrk, _, hsk, _⟩ := contextInit_ok h
  obtain ⟨a, ha, _⟩ := R.bind_eq_ok.1 hsk
  obtain ⟨b, hb, _⟩ := R.bind_eq_ok.1 hrk
  obtain ⟨d, hd, _⟩ := R.bind_eq_ok.1 hiv
  refine ⟨a, b, d, ha, hb, hd, ?_, ?_, ?_⟩
  · rintro rfl; exact hne (C28_info_injective ha hb).1
  · rintro rfl; cases (C28_info_injective ha hd).2.2
  · rintro rfl; cases (C28_info_injective hb hd).2.2

/-- a context is initialised only if its IDs and ID context are short (the HKDF info buffer has 50
bytes) -/
theorem init_id_lengths {cfg : Cfg} {C : Crypto} {p : InitParams} {nv : R Nat} {jn je : Bytes} {c : Ctx}
    (h : contextInit cfg C p nv jn je = .ok c) :
    p.senderId.length ≤ 50 ∧ p.recipientId.length ≤ 8 ∧ p.idContext.length ≤ 50 := by
  obtain ⟨iv, rk, ssn, sk, _, _, hiv, hr, hrk, _, hsk, _⟩ := contextInit_ok h
  obtain ⟨i, hi, _⟩ := R.bind_eq_ok.1 hsk
  obtain ⟨h1, hl⟩ := hkdfInfo_ok.1 hi
  have := oscoreInfo_lens (h1 ▸ hl)
  exact ⟨this.1, hr, this.2⟩

/-! ### C27 -/

/-- two parties' parameters: same secrets, swapped IDs -/
structure MirroredParams (p q : InitParams) : Prop where
  secret : q.masterSecret = p.masterSecret
  salt : q.masterSalt = p.masterSalt
  idContext : q.idContext = p.idContext
  sender : q.senderId = p.recipientId
  recipient : q.recipientId = p.senderId

/-- **C27** Mirrored parameters give mirrored contexts. -/
theorem C27_mirrored {cfg : Cfg} {C : Crypto} {p q : InitParams} {nv nv' : R Nat} {jn je jn' je' : Bytes}
    {a b : Ctx} (hm : MirroredParams p q) (ha : contextInit cfg C p nv jn je = .ok a)
    (hb : contextInit cfg C q nv' jn' je' = .ok b) :
    a.senderKey = b.recipientKey ∧ a.recipientKey = b.senderKey ∧ a.commonIv = b.commonIv ∧
      a.senderId = b.recipientId ∧ a.recipientId = b.senderId ∧ a.idContext = b.idContext := by
  obtain ⟨iv, rk, ssn, sk, _, _, hiv, _, hrk, _, hsk, rfl⟩ := contextInit_ok ha
  obtain ⟨iv', rk', ssn', sk', _, _, hiv', _, hrk', _, hsk', rfl⟩ := contextInit_ok hb
  have hd : ∀ id ty, derive cfg C q id ty = derive cfg C p id ty := by
    intro id ty; unfold derive; rw [hm.secret, hm.salt, hm.idContext]
  rw [hd] at hiv' hrk' hsk'
  rw [hm.recipient] at hrk'
  rw [hm.sender] at hsk'
  refine ⟨?_, ?_, ?_, hm.recipient.symm, hm.sender.symm, hm.idContext.symm⟩
  · exact R.ok.inj (hsk.symm.trans hrk')
  · exact R.ok.inj (hrk.symm.trans hsk')
  · exact R.ok.inj (hiv.symm.trans hiv')

/-- **C27** and if one side can initialise a fresh context, so can the other (IDs of at most 8 bytes). -/
theorem C27_mirrored_init {cfg : Cfg} {C : Crypto} {p q : InitParams} {nv nv' : R Nat}
    {jn je jn' je' : Bytes} {a : Ctx} (hm : MirroredParams p q)
    (ha : contextInit cfg C p nv jn je = .ok a) (hq : q.aeadAlg = 10 ∧ q.hkdf = -10)
    (hf : q.fresh = true) (hid : p.senderId.length ≤ 8) :
    ∃ b, contextInit cfg C q nv' jn' je' = .ok b := by
  obtain ⟨iv, rk, ssn, sk, _, _, hiv, _, hrk, _, hsk, rfl⟩ := contextInit_ok ha
  have hd : ∀ id ty, derive cfg C q id ty = derive cfg C p id ty := by
    intro id ty; unfold derive; rw [hm.secret, hm.salt, hm.idContext]
  unfold contextInit
  rw [if_neg (by simp [hq.1]), if_neg (by simp [hq.2]), hd, hiv, R.ok_bind, hm.recipient,
    if_neg (by omega), hd, hsk, R.ok_bind, hf]
  simp only [ssnInit, if_true, R.ok_bind, hd, hm.sender, hrk]
  exact ⟨_, rfl⟩

/-- the example client and server are mirrored -/
example : MirroredParams (exClientParams true) (exServerParams true) ∧
    exClient.senderKey = exServer.recipientKey ∧ exClient.senderKey ≠ exClient.recipientKey := by
  refine ⟨⟨rfl, rfl, rfl, rfl, rfl⟩, ?_, ?_⟩ <;> decide +kernel

end Verif
