import Verif.Props.Conversation
import Verif.Props.Delivered
/-
C74: responses and notifications belong to a request of the history that is still open.
-/
namespace Verif

/-! ### specification -/

/-- The call handles a request with this token, KID and PIV: it protects one (the KID is the Sender ID, the
PIV the next sequence number) or receives one (KID and PIV are those of the packet, the KID is the Recipient ID,
and the AEAD accepts the packet with the nonce and the AAD of that KID and PIV). -/
def Requests (C : Crypto) (w : World) (op : Op) (token kid piv : Bytes) : Prop :=
  match op with
  | .protect inp _ _ => ∃ p, coapDeserialize inp = .ok p ∧ isRequest p = true ∧ p.token = token ∧
      kid = w.ctx.senderId ∧ beVal piv = w.ctx.ssn
  | .unprotect inp _ => ∃ p, HasOption inp p piv kid ∧ isRequest p = true ∧ p.token = token ∧ kid = w.ctx.recipientId ∧
      ∃ n pt, IsNonce w.ctx kid piv n ∧ C.aeadDec w.ctx.recipientKey n (Rfc8613.aad kid piv) 8 p.payload = some pt

/-- The call leaves the exchange with this token open: if it succeeds for the token, the message is a
notification (or an empty acknowledgement, which is not protected).  A received packet may also be marked as a
response while the message in it is a request; see `C61_response_was_sent_partial`: it is the request of this
exchange once more. -/
def Keeps (cfg : Cfg) (C : Crypto) (w : World) (op : Op) (token : Bytes) : Prop :=
  match op with
  | .protect inp cap nvmW => ∀ p b, coapDeserialize inp = .ok p → p.token = token →
      (step cfg C w (.protect inp cap nvmW)).1 = .ok b →
        (p.type = 2 ∧ p.code = 0) ∨ (isRequest p = false ∧ isObserve p.opts = true)
  | .unprotect inp cap => ∀ p b, coapDeserialize inp = .ok p → p.token = token →
      (step cfg C w (.unprotect inp cap)).1 = .ok b →
        ∃ q, b = encPkt q ∧ ((isRequest q = false ∧ isObserve q.opts = true) ∨
          (isRequest p = false ∧ isRequest q = true))

/-- The exchange with this token, KID and PIV is open after the history: some call handled the request, and no
call after that finished it or replaced it by another one with the same token. -/
def OpenAfter (cfg : Cfg) (C : Crypto) (w₀ : World) (h : List Op) (token kid piv : Bytes) : Prop :=
  ∃ h₁ op h₂, h = h₁ ++ op :: h₂ ∧ Requests C (run cfg C w₀ h₁) op token kid piv ∧
    ∀ g₁ op' g₂, h₂ = g₁ ++ op' :: g₂ → Keeps cfg C (run cfg C w₀ (h₁ ++ op :: g₁)) op' token

/-! ### the table and the history -/

/-- what a call can do to the table of interactions -/
inductive TableStep (cfg : Cfg) (C : Crypto) (w : World) (op : Op) (t' : Table) : Prop
  | same (h : t' = w.ctx.inter)
  | sent {inp cap nvmW p uri rp rk} (hop : op = .protect inp cap nvmW) (hp : coapDeserialize inp = .ok p)
      (huri : uriPathCreate p.opts cfg.uriMax = .ok uri)
      (hreq : isRequest p = true → rk = w.ctx.senderId ∧ ssn2piv w.ctx.ssn = .ok rp)
      (hupd : updateWrapper cfg w.ctx.inter (msgType p) p.token uri rp rk = .ok t')
  | got {inp cap p t o opt out pt uri rp rk nonce} (hop : op = .unprotect inp cap)
      (hp : coapParse inp = .ok (p, t)) (ho : oscoreOptionParser t = .ok o)
      (hreq : isRequest p = true → opt = some o ∧ kidMatches w.ctx o = .ok true)
      (hread : readWrapper w.ctx.inter (msgType p) p.token (decPivKid opt) = .ok (rp, rk))
      (hchk : Checked w.ctx inp nonce (Rfc8613.aad rk rp) p.payload)
      (hpt : C.aeadDec w.ctx.recipientKey nonce (Rfc8613.aad rk rp) 8 p.payload = some pt)
      (hout : oCoapPkgGenerate pt p = .ok out)
      (huri : uriPathCreate out.opts cfg.uriMax = .ok uri)
      (hupd : updateWrapper cfg w.ctx.inter (msgType out) p.token uri rp rk = .ok t')

theorem DecEffect.table {cfg C opt p c r c' inp t o} (hp : coapParse inp = .ok (p, t)) (ho : oscoreOptionParser t = .ok o)
    (hreq : isRequest p = true → opt = some o ∧ kidMatches c o = .ok true)
    (hrsp : isRequest p = false → opt = if o.piv.len ≠ 0 then some o else none) (h : DecEffect cfg C opt p c r c') :
    c'.inter = c.inter ∨ ∃ out pt uri rp rk nonce,
      readWrapper c.inter (msgType p) p.token (decPivKid opt) = .ok (rp, rk) ∧
      Checked c inp nonce (Rfc8613.aad rk rp) p.payload ∧
      C.aeadDec c.recipientKey nonce (Rfc8613.aad rk rp) 8 p.payload = some pt ∧ oCoapPkgGenerate pt p = .ok out ∧
      uriPathCreate out.opts cfg.uriMax = .ok uri ∧
      updateWrapper cfg c.inter (msgType out) p.token uri rp rk = .ok c'.inter := by
  cases h with
  | unchanged _ => exact .inl rfl
  | auth hread hnonce haad hpt hres =>
    rcases hres with ⟨out, uri, _, h1, h2, h3⟩ | ⟨_, ht⟩
    · obtain ⟨k1, k2⟩ := Verif.checked hp ho hreq hrsp hread hnonce haad hpt
      exact .inr ⟨out, _, uri, _, _, _, hread, k1, k2, h1, h2, h3⟩
    · exact .inl ht

theorem step_table (cfg : Cfg) (C : Crypto) (w : World) (op : Op) :
    TableStep cfg C w op (step cfg C w op).2.ctx.inter := by
  cases op with
  | protect inp cap nvmW =>
    have h := coap2oscore_effect cfg C nvmW inp cap w
    simp only [step]
    generalize (coap2oscore cfg C nvmW inp cap w).1 = r at h
    generalize (coap2oscore cfg C nvmW inp cap w).2 = w' at h
    cases h with
    | unchanged _ => exact .same rfl
    | emptyAck => exact .same rfl
    | @enc p s pt ev r w' hf hp hack hs hlen hpt hev henc =>
      cases henc with
      | unchanged _ => exact .same rfl
      | consumed _ _ => exact .same rfl
      | @fresh piv nonce rp rk aad ct opt t hn hw hpiv hnonce hopt hread haad hct hres =>
        rcases hres with ⟨_, uri, hu, ht⟩ | ⟨_, ht⟩
        · refine .sent rfl hp hu ?_ ht
          intro hreq
          have hm := msgType_request hreq
          unfold readWrapper at hread
          rw [if_neg (by rintro (e | e); exact hm.1 e; exact hm.2 e)] at hread
          obtain ⟨rfl, rfl⟩ := Prod.mk.inj (R.ok.inj hread)
          exact ⟨rfl, hpiv⟩
        · exact .same ht
      | @reuse rp rk aad ct opt t hn hopt hread haad hct hres =>
        rcases hres with ⟨_, uri, hu, ht⟩ | ⟨_, ht⟩
        · refine .sent rfl hp hu ?_ ht
          intro hreq
          have hm := msgType_request hreq
          unfold needsNewPiv at hn
          simp [hm.1] at hn
        · exact .same ht
  | unprotect inp cap =>
    have h := oscore2coap_effect cfg C inp cap w.ctx
    simp only [step]
    generalize (oscore2coap cfg C inp cap w.ctx).1 = r at h
    generalize (oscore2coap cfg C inp cap w.ctx).2 = c' at h
    cases h with
    | unchanged _ => exact .same rfl
    | reqFail _ hp ho hreq hkid _ hdec =>
      rcases hdec.table hp ho (fun _ => ⟨rfl, hkid⟩) (fun h => by rw [hreq] at h; cases h) with e | ⟨out, pt, uri, rp, rk, nonce, h1, h2, h3, h4, h5, h6⟩
      · exact .same e
      · exact .got rfl hp ho (fun _ => ⟨rfl, hkid⟩) h1 h2 h3 h4 h5 h6
    | reqOk _ hp ho hreq hkid _ hdec ha =>
      rw [ha.frame.2.2.2.2]
      rcases hdec.table hp ho (fun _ => ⟨rfl, hkid⟩) (fun h => by rw [hreq] at h; cases h) with e | ⟨out, pt, uri, rp, rk, nonce, h1, h2, h3, h4, h5, h6⟩
      · exact .same e
      · exact .got rfl hp ho (fun _ => ⟨rfl, hkid⟩) h1 h2 h3 h4 h5 h6
    | rspFail _ hp ho hreq hopt hdec =>
      rcases hdec.table hp ho (fun h => by rw [hreq] at h; cases h) (fun _ => hopt) with e | ⟨out, pt, uri, rp, rk, nonce, h1, h2, h3, h4, h5, h6⟩
      · exact .same e
      · exact .got rfl hp ho (fun hr => by rw [hreq] at hr; cases hr) h1 h2 h3 h4 h5 h6
    | notifOk _ hp ho hreq _ hl _ _ hdec =>
      rcases hdec.table hp ho (fun h => by rw [hreq] at h; cases h) (fun _ => by rw [if_pos hl]) with e | ⟨out, pt, uri, rp, rk, nonce, h1, h2, h3, h4, h5, h6⟩
      · exact .same e
      · exact .got rfl hp ho (fun hr => by rw [hreq] at hr; cases hr) h1 h2 h3 h4 h5 h6
    | rspOk _ hp ho hreq _ hopt hdec =>
      rcases hdec.table hp ho (fun h => by rw [hreq] at h; cases h) (fun _ => hopt) with e | ⟨out, pt, uri, rp, rk, nonce, h1, h2, h3, h4, h5, h6⟩
      · exact .same e
      · exact .got rfl hp ho (fun hr => by rw [hreq] at hr; cases hr) h1 h2 h3 h4 h5 h6

/-- the records after an update: the new one or an old one -/
theorem updateWrapper_mem {cfg : Cfg} {t t' : Table} {ty : MsgType} {token uri rp rk : Bytes}
    (hd : Distinct t) (h : updateWrapper cfg t ty token uri rp rk = .ok t') (r : Rec) (hr : some r ∈ t') :
    some r ∈ t ∨ (r.token = token ∧ r.piv = rp ∧ r.kid = rk ∧ ty ≠ .response ∧ ty ≠ .notification) := by
  unfold updateWrapper at h
  simp only at h
  generalize hk : (if ty = .cancellation then MsgType.registration else ty) = k at h
  split at h
  · rename_i hty
    obtain ⟨a, ha, h⟩ := R.bind_eq_ok.1 h
    obtain ⟨b, hb, h⟩ := R.bind_eq_ok.1 h
    obtain ⟨c, hc, h⟩ := R.bind_eq_ok.1 h
    obtain ⟨d, hd', h⟩ := R.bind_eq_ok.1 h
    have h29 := (C29_set cfg _ _ _ hd h).2.2 r
    rcases h29.1 hr with rfl | ⟨h1, _⟩
    · right
      refine ⟨(memcpyS_ok.1 hc).1.symm ▸ rfl, (memcpyS_ok.1 ha).1.symm ▸ rfl, (memcpyS_ok.1 hb).1.symm ▸ rfl, ?_, ?_⟩
      · rintro rfl; simp only [reduceCtorEq, if_false] at hk; subst hk; simp at hty
      · rintro rfl; simp only [reduceCtorEq, if_false] at hk; subst hk; simp at hty
    · exact .inl h1
  · split at h
    · have hl : token.length ≤ 8 := by
        unfold Table.remove at h
        split at h
        · cases h
        · omega
      by_cases hex : ∃ r, Outstanding t token r
      · obtain ⟨t2, h2, _, _, h4⟩ := (C29_remove t token hl hd).2 hex
        rw [h2] at h
        obtain rfl := R.ok.inj h
        exact .inl ((h4 r).1 hr).1
      · rw [(C29_remove t token hl hd).1 hex] at h; cases h
    · obtain rfl := R.ok.inj h
      exact .inl hr

theorem updateWrapper_new {cfg : Cfg} {t t' : Table} {p : Pkt} {token uri rp rk : Bytes} (hreq : isRequest p = true)
    (hd : Distinct t) (h : updateWrapper cfg t (msgType p) token uri rp rk = .ok t') :
    ∃ r, some r ∈ t' ∧ r.token = token ∧ r.piv = rp ∧ r.kid = rk := by
  unfold updateWrapper at h
  simp only at h
  rw [observation_type hreq] at h
  rw [if_pos (by cases observation p.opts <;> simp)] at h
  obtain ⟨a, ha, h⟩ := R.bind_eq_ok.1 h
  obtain ⟨b, hb, h⟩ := R.bind_eq_ok.1 h
  obtain ⟨c, hc, h⟩ := R.bind_eq_ok.1 h
  obtain ⟨d, hd', h⟩ := R.bind_eq_ok.1 h
  have h29 := (C29_set cfg _ _ _ hd h).2.2
  clear h
  obtain ⟨rfl, _⟩ := memcpyS_ok.1 ha
  obtain ⟨rfl, _⟩ := memcpyS_ok.1 hb
  obtain ⟨rfl, _⟩ := memcpyS_ok.1 hc
  exact ⟨_, (h29 _).2 (.inl rfl), rfl, rfl, rfl⟩

theorem kid_of_matches {c : Ctx} {o : OscOpt} {piv kid : Bytes} (hk : kidMatches c o = .ok true)
    (ho : o.read = .ok (piv, kid)) : kid = c.recipientId := by
  unfold OscOpt.read at ho
  obtain ⟨x, hx, ho⟩ := R.bind_eq_ok.1 ho
  obtain ⟨y, hy, ho⟩ := R.bind_eq_ok.1 ho
  obtain ⟨rfl, rfl⟩ := Prod.mk.inj (R.ok.inj ho)
  unfold kidMatches at hk
  split at hk
  · cases hk
  · rw [hy] at hk
    simp only [R.ok_bind, R.pure_eq, R.ok.injEq] at hk
    exact (arrayEquals_iff.1 hk).symm

theorem requests_sent {C : Crypto} {w : World} {inp : Bytes} {cap : Nat} {nvmW : Option Err} {p : Pkt}
    {rp rk : Bytes} (hp : coapDeserialize inp = .ok p) (hr : isRequest p = true) (h1 : rk = w.ctx.senderId)
    (h2 : ssn2piv w.ctx.ssn = .ok rp) : Requests C w (.protect inp cap nvmW) p.token rk rp :=
  ⟨p, hp, hr, rfl, h1, (ssn2piv_minimal h2).1.1⟩

theorem requests_got {C : Crypto} {w : World} {inp : Bytes} {cap : Nat} {p : Pkt} {t : List (Opt × Bytes)}
    {o : OscOpt} {rp rk nonce pt : Bytes} (hp : coapParse inp = .ok (p, t)) (hr : isRequest p = true)
    (ho : oscoreOptionParser t = .ok o) (hk : kidMatches w.ctx o = .ok true)
    (hread : readWrapper w.ctx.inter (msgType p) p.token (decPivKid (some o)) = .ok (rp, rk))
    (hc : Checked w.ctx inp nonce (Rfc8613.aad rk rp) p.payload)
    (hpt : C.aeadDec w.ctx.recipientKey nonce (Rfc8613.aad rk rp) 8 p.payload = some pt) :
    Requests C w (.unprotect inp cap) p.token rk rp := by
  have hm := msgType_request hr
  unfold readWrapper at hread
  rw [if_neg (by rintro (e | e); exact hm.1 e; exact hm.2 e)] at hread
  have hkid := kid_of_matches hk hread
  have same : ∀ {p' t'}, coapParse inp = .ok (p', t') → p' = p ∧ t' = t := by
    intro p' t' hh; rw [hp] at hh; cases hh; exact ⟨rfl, rfl⟩
  refine ⟨p, ⟨t, o, hp, ho, hread⟩, hr, rfl, hkid, nonce, pt, ?_, hpt⟩
  generalize hct : p.payload = ct at hc
  generalize haa : Rfc8613.aad rk rp = aa at hc
  cases hc with
  | request h1 hreq hn =>
    obtain ⟨t', o', g1, g2, g3⟩ := h1
    obtain ⟨rfl, rfl⟩ := same g1
    rw [ho] at g2; cases g2
    unfold decPivKid at hread
    dsimp only at hread
    rw [g3] at hread
    cases hread
    exact hn
  | ownPiv h1 hrsp => obtain ⟨t', o', g1, _⟩ := h1; obtain ⟨rfl, rfl⟩ := same g1; rw [hr] at hrsp; cases hrsp
  | samePiv g1 _ _ hrsp => obtain ⟨rfl, rfl⟩ := same g1; rw [hr] at hrsp; cases hrsp

/-- what is known after a delivery -/
theorem unprotect_ok {cfg : Cfg} {C : Crypto} {inp b : Bytes} {cap : Nat} {c c' : Ctx} {p : Pkt} {t : List (Opt × Bytes)}
    (hp : coapParse inp = .ok (p, t)) (h : oscore2coap cfg C inp cap c = (.ok b, c')) :
    ∃ o opt out pt uri rp rk nonce, oscoreOptionParser t = .ok o ∧ b = encPkt out ∧
      (isRequest p = true → opt = some o ∧ kidMatches c o = .ok true) ∧
      readWrapper c.inter (msgType p) p.token (decPivKid opt) = .ok (rp, rk) ∧
      Checked c inp nonce (Rfc8613.aad rk rp) p.payload ∧
      C.aeadDec c.recipientKey nonce (Rfc8613.aad rk rp) 8 p.payload = some pt ∧ oCoapPkgGenerate pt p = .ok out ∧
      uriPathCreate out.opts cfg.uriMax = .ok uri ∧
      updateWrapper cfg c.inter (msgType out) p.token uri rp rk = .ok c'.inter := by
  have hdec : ∀ {o opt c1 out pt}, oscoreOptionParser t = .ok o →
      (isRequest p = true → opt = some o ∧ kidMatches c o = .ok true) →
      (isRequest p = false → opt = if o.piv.len ≠ 0 then some o else none) →
      DecEffect cfg C opt p c (.ok (out, pt)) c1 →
      ∃ uri rp rk nonce,
      readWrapper c.inter (msgType p) p.token (decPivKid opt) = .ok (rp, rk) ∧
      Checked c inp nonce (Rfc8613.aad rk rp) p.payload ∧
      C.aeadDec c.recipientKey nonce (Rfc8613.aad rk rp) 8 p.payload = some pt ∧ oCoapPkgGenerate pt p = .ok out ∧
      uriPathCreate out.opts cfg.uriMax = .ok uri ∧
      updateWrapper cfg c.inter (msgType out) p.token uri rp rk = .ok c1.inter := by
    intro o opt c1 out pt ho hreq hrsp h
    generalize hr : (R.ok (out, pt) : R (Pkt × Bytes)) = r at h
    cases h with
    | unchanged hn => exact absurd hr.symm (hn _)
    | auth hread hnonce haad hpt hres =>
      rcases hres with ⟨out', uri, h1, h2, h3, hu⟩ | ⟨h1, _⟩
      · rw [h1] at hr
        obtain ⟨rfl, rfl⟩ := Prod.mk.inj (R.ok.inj hr)
        obtain ⟨k1, k2⟩ := checked hp ho hreq hrsp hread hnonce haad hpt
        exact ⟨uri, _, _, _, hread, k1, k2, h2, h3, hu⟩
      · exact absurd hr.symm (h1 _)
  have he := oscore2coap_effect cfg C inp cap c
  rw [h] at he
  simp only at he
  generalize hr : (R.ok b : R Bytes) = r at he
  cases he with
  | unchanged hn => exact absurd hr.symm (hn b)
  | reqFail _ _ _ _ _ _ _ _ hn => exact absurd hr.symm (hn b)
  | @reqOk p' t' o out pt c1 r2 _ _ hp' ho hreq hk _ hd' ha =>
    rw [hp] at hp'; obtain ⟨rfl, rfl⟩ := Prod.mk.inj (R.ok.inj hp')
    obtain ⟨_, _, hs⟩ := R.bind_eq_ok.1 hr.symm
    obtain ⟨uri, rp, rk, nonce, h1, h2, h3, h4, h5, h6⟩ := hdec ho (fun _ => ⟨rfl, hk⟩) (fun h => by rw [hreq] at h; cases h) hd'
    refine ⟨o, some o, out, pt, uri, rp, rk, nonce, ho, (coapSerialize_ok.1 hs).1, fun _ => ⟨rfl, hk⟩, h1, h2, h3, h4, h5, ?_⟩
    rw [ha.frame.2.2.2.2]; exact h6
  | rspFail _ _ _ _ _ _ _ hn => exact absurd hr.symm (hn b)
  | @notifOk p' t' o out pt c1 piv _ hp' ho hreq _ hl _ _ hd' =>
    rw [hp] at hp'; obtain ⟨rfl, rfl⟩ := Prod.mk.inj (R.ok.inj hp')
    obtain ⟨uri, rp, rk, nonce, h1, h2, h3, h4, h5, h6⟩ := hdec ho (fun h => by rw [hreq] at h; cases h) (fun _ => by rw [if_pos hl]) hd'
    exact ⟨o, some o, out, pt, uri, rp, rk, nonce, ho, (coapSerialize_ok.1 hr.symm).1,
      fun hh => (by rw [hreq] at hh; cases hh), h1, h2, h3, h4, h5, h6⟩
  | @rspOk p' t' o opt out pt c1 _ hp' ho hreq _ hopt hd' =>
    rw [hp] at hp'; obtain ⟨rfl, rfl⟩ := Prod.mk.inj (R.ok.inj hp')
    obtain ⟨uri, rp, rk, nonce, h1, h2, h3, h4, h5, h6⟩ := hdec ho (fun h => by rw [hreq] at h; cases h) (fun _ => hopt) hd'
    exact ⟨o, opt, out, pt, uri, rp, rk, nonce, ho, (coapSerialize_ok.1 hr.symm).1,
      fun hh => (by rw [hreq] at hh; cases hh), h1, h2, h3, h4, h5, h6⟩

theorem parse_of_deserialize {inp : Bytes} {p : Pkt} (hp : coapDeserialize inp = .ok p) :
    ∃ t, coapParse inp = .ok (p, t) := by
  unfold coapDeserialize at hp
  obtain ⟨⟨p', t⟩, h1, h2⟩ := R.bind_eq_ok.1 hp
  obtain rfl := R.ok.inj h2
  exact ⟨t, h1⟩

theorem msgType_obs {p : Pkt} (hrsp : isRequest p = false) (hm : msgType p ≠ .response) : isObserve p.opts = true := by
  unfold msgType at hm
  rw [hrsp] at hm
  cases hg : getObserveValue p.opts with
  | none => rw [hg] at hm; exact absurd rfl hm
  | some x =>
    unfold getObserveValue at hg
    obtain ⟨o, ho, _⟩ := Option.map_eq_some_iff.1 hg
    unfold isObserve
    exact List.any_eq_true.2 ⟨o, List.mem_of_find?_eq_some ho, List.find?_some (p := fun o : Opt => o.num == optOBSERVE) ho⟩

/-- a response without Observe removes the record -/
theorem updateWrapper_gone {cfg : Cfg} {t t' : Table} {token uri rp rk : Bytes} (hd : Distinct t)
    (h : updateWrapper cfg t .response token uri rp rk = .ok t') (r : Rec) (hr : some r ∈ t') : r.token ≠ token := by
  unfold updateWrapper at h
  simp only [reduceCtorEq, if_false, or_self, if_true] at h
  have hl : token.length ≤ 8 := by
    unfold Table.remove at h
    split at h
    · cases h
    · omega
  by_cases hex : ∃ r, Outstanding t token r
  · obtain ⟨t2, h2, _, _, h4⟩ := (C29_remove t token hl hd).2 hex
    rw [h2] at h
    obtain rfl := R.ok.inj h
    exact ((h4 r).1 hr).2
  · rw [(C29_remove t token hl hd).1 hex] at h; cases h

/-- Whatever record there is under a token after a call: it is the one of a request this call handled, or the
call left the exchange open. -/
theorem record_step (cfg : Cfg) (C : Crypto) (w : World) (op : Op) (hd : Distinct w.ctx.inter) (r : Rec)
    (hr : some r ∈ (step cfg C w op).2.ctx.inter) :
    Requests C w op r.token r.kid r.piv ∨
      (Keeps cfg C w op r.token ∧ ∃ s, some s ∈ w.ctx.inter ∧ s.token = r.token ∧ s.kid = r.kid ∧ s.piv = r.piv) := by
  have hd' := (step_distinct cfg C w op hd).1
  have uniq : ∀ s, some s ∈ (step cfg C w op).2.ctx.inter → s.token = r.token → s = r := by
    intro s hs ht
    obtain ⟨i, hi⟩ := mem_iff_get.1 hs
    obtain ⟨j, hj⟩ := mem_iff_get.1 hr
    have := hd'.token _ _ _ _ hi hj ht
    subst this
    rw [hi] at hj
    simpa using hj
  by_cases hnew : Requests C w op r.token r.kid r.piv
  · exact .inl hnew
  refine .inr ⟨?_, ?_⟩
  · cases op with
    | protect inp cap nvmW =>
      intro p b hp ht hok
      by_cases hack : p.type = 2 ∧ p.code = 0
      · exact .inl hack
      refine .inr ?_
      have hst : coap2oscore cfg C nvmW inp cap w = (.ok b, (step cfg C w (.protect inp cap nvmW)).2) :=
        Prod.ext hok rfl
      cases hreq : isRequest p with
      | true =>
        exfalso
        obtain ⟨v, hv⟩ := protect_ok hst hp hack
        have hm := msgType_request hreq
        have hn : v.new = true := by rw [hv.new]; unfold needsNewPiv; simp [hm.1]
        obtain ⟨h1, h2, -⟩ := hv.ifNew hn
        have hread := hv.read
        unfold readWrapper at hread
        rw [if_neg (by rintro (e | e); exact hm.1 e; exact hm.2 e)] at hread
        obtain ⟨e1, e2⟩ := Prod.mk.inj (R.ok.inj hread)
        obtain ⟨s, hs, s1, s2, s3⟩ := updateWrapper_new hreq hd hv.upd
        rw [← hv.inter'] at hs
        obtain rfl := uniq s hs (by rw [s1, ht])
        apply hnew
        rw [s1, s2, s3, ← e1, ← e2]
        exact requests_sent hp hreq h2 h1
      | false =>
        refine ⟨rfl, ?_⟩
        cases hobs : isObserve p.opts with
        | true => rfl
        | false =>
          exact absurd ⟨r, hr, ht.symm⟩ (C30_protect_consumes cfg C nvmW inp b cap w _ p hst hp hreq hobs hd)
    | unprotect inp cap =>
      intro p b hp ht hok
      have hst : oscore2coap cfg C inp cap w.ctx = (.ok b, (step cfg C w (.unprotect inp cap)).2.ctx) :=
        Prod.ext hok rfl
      obtain ⟨t, hpt⟩ := parse_of_deserialize hp
      obtain ⟨o, opt, out, pt, uri, rp, rk, nonce, ho, hb, hk, h1, h2, h3, h4, h5, h6⟩ := unprotect_ok hpt hst
      refine ⟨out, hb, ?_⟩
      cases hro : isRequest out with
      | true =>
        cases hreq : isRequest p with
        | false => exact .inr ⟨rfl, rfl⟩
        | true =>
          exfalso
          obtain ⟨s, hs, s1, s2, s3⟩ := updateWrapper_new hro hd h6
          obtain rfl := uniq s hs (by rw [s1, ht])
          apply hnew
          rw [s1, s2, s3]
          obtain ⟨rfl, hkm⟩ := hk hreq
          exact requests_got hpt hreq ho hkm h1 h2 h3
      | false =>
        refine .inl ⟨rfl, msgType_obs hro ?_⟩
        intro hm
        rw [hm] at h6
        exact updateWrapper_gone hd h6 r hr ht.symm
  · cases step_table cfg C w op with
    | same h => rw [h] at hr; exact ⟨r, hr, rfl, rfl, rfl⟩
    | @sent inp cap nvmW p uri rp rk hop hp huri hreq hupd =>
      rcases updateWrapper_mem hd hupd r hr with h | ⟨s1, s2, s3, n1, n2⟩
      · exact ⟨r, h, rfl, rfl, rfl⟩
      · exfalso
        cases hrq : isRequest p with
        | false => rcases msgType_response hrq with e | e; exact n1 e; exact n2 e
        | true =>
          obtain ⟨e1, e2⟩ := hreq hrq
          apply hnew
          rw [s1, s2, s3, hop]
          exact requests_sent hp hrq e1 e2
    | @got inp cap p t o opt out pt uri rp rk nonce hop hp ho hreq hread hchk hpt hout huri hupd =>
      rcases updateWrapper_mem hd hupd r hr with h | ⟨s1, s2, s3, n1, n2⟩
      · exact ⟨r, h, rfl, rfl, rfl⟩
      · cases hrq : isRequest p with
        | true =>
          obtain ⟨rfl, hkm⟩ := hreq hrq
          exfalso
          apply hnew
          rw [s1, s2, s3, hop]
          exact requests_got hp hrq ho hkm hread hchk hpt
        | false =>
          unfold readWrapper at hread
          rw [if_pos (msgType_response hrq)] at hread
          obtain ⟨s, hs, he⟩ := R.bind_eq_ok.1 hread
          obtain ⟨e1, e2⟩ := Prod.mk.inj (R.ok.inj he)
          obtain ⟨g1, g2⟩ := get_outstanding hs
          exact ⟨s, g1, by rw [g2, s1], by rw [s3, e2], by rw [s2, e1]⟩

theorem init_table {cfg : Cfg} {C : Crypto} {prm : InitParams} {nv : R Nat} {jn je : Bytes} {c : Ctx}
    (hinit : contextInit cfg C prm nv jn je = .ok c) : c.inter = Table.init cfg.interactions := by
  obtain ⟨_, _, _, _, _, _, _, _, _, _, _, rfl⟩ := contextInit_ok hinit
  rfl

/-- every record belongs to an open exchange of the history -/
theorem record_open (cfg : Cfg) (C : Crypto) (w₀ : World) (h0 : w₀.ctx.inter = Table.init cfg.interactions)
    (h : List Op) : ∀ r, some r ∈ (run cfg C w₀ h).ctx.inter → OpenAfter cfg C w₀ h r.token r.kid r.piv := by
  have hdist : ∀ g, Distinct (run cfg C w₀ g).ctx.inter := fun g =>
    run_induction (P := fun w => Distinct w.ctx.inter) (fun w op hh => (step_distinct cfg C w op hh).1)
      (by rw [h0]; exact distinct_init _) g
  generalize hn : h.length = n
  induction n generalizing h with
  | zero =>
    obtain rfl := List.length_eq_zero_iff.1 hn
    intro r hr
    have hr' : some r ∈ w₀.ctx.inter := hr
    rw [h0] at hr'
    unfold Table.init at hr'
    cases (List.mem_replicate.1 hr').2
  | succ n ih =>
    rcases List.eq_nil_or_concat h with rfl | ⟨g, op, rfl⟩
    · cases hn
    have hg : g.length = n := by simpa using hn
    intro r hr
    rw [List.concat_eq_append] at *
    have hrun : run cfg C w₀ (g ++ [op]) = (step cfg C (run cfg C w₀ g) op).2 := by rw [run_append]; rfl
    rw [hrun] at hr
    rcases record_step cfg C _ op (hdist g) r hr with hq | ⟨hk, s, hs, e1, e2, e3⟩
    · refine ⟨g, op, [], rfl, hq, ?_⟩
      intro g₁ op' g₂ he
      exact absurd he (by simp)
    · obtain ⟨h₁, op₁, h₂, hh, hq, hkk⟩ := ih g hg s hs
      rw [e1, e2, e3] at hq
      refine ⟨h₁, op₁, h₂ ++ [op], by rw [hh]; simp, hq, ?_⟩
      intro g₁ op' g₂ he
      rcases List.eq_nil_or_concat g₂ with rfl | ⟨g₃, x, rfl⟩
      · obtain ⟨he1, he2⟩ := List.append_inj' he rfl
        obtain rfl : op = op' := by simpa using he2
        rw [← he1, ← hh]; exact hk
      · rw [List.concat_eq_append, ← List.cons_append, ← List.append_assoc] at he
        obtain ⟨he1, _⟩ := List.append_inj' he rfl
        rw [← e1]
        exact hkk g₁ op' g₃ he1

/-! ### C74 -/

/-- **C74** (sending) Take any context after initialisation and any history of calls.  If `coap2oscore` then
protects a response or a notification, there is an open exchange with its token in the history, and the AAD of the
protected message is that of the exchange's request. -/
theorem C74_protected_for_open (cfg : Cfg) (C : Crypto) (prm : InitParams) (nv : R Nat) (jn je : Bytes) (c : Ctx)
    (nvm : Nat) (log : List EncCall) (hinit : contextInit cfg C prm nv jn je = .ok c) (h : List Op)
    (inp b : Bytes) (cap : Nat) (nvmW : Option Err) (w' : World) (p : Pkt) (hp : coapDeserialize inp = .ok p)
    (hrsp : isRequest p = false)
    (hok : step cfg C (run cfg C ⟨c, nvm, log⟩ h) (.protect inp cap nvmW) = (.ok b, w')) :
    ∃ kid piv e, OpenAfter cfg C ⟨c, nvm, log⟩ h p.token kid piv ∧
      w'.log = e :: (run cfg C ⟨c, nvm, log⟩ h).log ∧ createAad kid piv = .ok e.aad := by
  have hack : ¬(p.type = 2 ∧ p.code = 0) := by
    rintro ⟨_, h0⟩
    unfold isRequest at hrsp
    rw [h0] at hrsp
    cases hrsp
  obtain ⟨v, hv⟩ := protect_ok hok hp hack
  have hread := hv.read
  unfold readWrapper at hread
  rw [if_pos (msgType_response hrsp)] at hread
  obtain ⟨s, hs, he⟩ := R.bind_eq_ok.1 hread
  obtain ⟨e1, e2⟩ := Prod.mk.inj (R.ok.inj he)
  obtain ⟨g1, g2⟩ := get_outstanding hs
  have := record_open cfg C ⟨c, nvm, log⟩ (init_table hinit) h s g1
  rw [g2] at this
  exact ⟨s.kid, s.piv, _, this, hv.log, by rw [e1, e2]; exact hv.aad⟩

/-- **C74** (receiving) If `oscore2coap` delivers the contents of a packet that is marked as a response or a
notification, there is an open exchange with its token in the history, and the AEAD accepted the packet with the
AAD of the exchange's request (and the nonce the packet determines, see `Checked`). -/
theorem C74_delivered_for_open (cfg : Cfg) (C : Crypto) (prm : InitParams) (nv : R Nat) (jn je : Bytes) (c : Ctx)
    (nvm : Nat) (log : List EncCall) (hinit : contextInit cfg C prm nv jn je = .ok c) (h : List Op)
    (inp b : Bytes) (cap : Nat) (p : Pkt) (hp : coapDeserialize inp = .ok p) (hrsp : isRequest p = false)
    (hok : (step cfg C (run cfg C ⟨c, nvm, log⟩ h) (.unprotect inp cap)).1 = .ok b) :
    ∃ kid piv n pt, OpenAfter cfg C ⟨c, nvm, log⟩ h p.token kid piv ∧
      Checked (run cfg C ⟨c, nvm, log⟩ h).ctx inp n (Rfc8613.aad kid piv) p.payload ∧
      C.aeadDec (run cfg C ⟨c, nvm, log⟩ h).ctx.recipientKey n (Rfc8613.aad kid piv) 8 p.payload = some pt := by
  obtain ⟨r, n, pt, h1, h2, h3, h4⟩ := C23_bound_to_request cfg C inp b cap
    (run cfg C ⟨c, nvm, log⟩ h).ctx _ p hp hrsp (Prod.ext hok rfl)
  have := record_open cfg C ⟨c, nvm, log⟩ (init_table hinit) h r h1
  rw [h2] at this
  exact ⟨r.kid, r.piv, n, pt, this, h3, h4⟩

/-! ### how long an exchange stays open -/

/-- the resource a request is about, and whether it registers (or cancels) an observation of it -/
abbrev Resource := Bytes × Bool

/-- the message asks for the resource -/
def AsksFor (q : Pkt) (x : Resource) : Prop :=
  isRequest q = true ∧ Spec.uriPath q.opts = x.1 ∧ observation q.opts = x.2

/-- The call is not about the exchange with this token for this resource: the message it handles is neither a
request for the same resource of the same kind nor a response (other than a notification) with that token.  For a
received packet: the message that the AEAD yields from it, if any, is not. -/
def Unrelated (C : Crypto) (w : World) (op : Op) (token : Bytes) (x : Resource) : Prop :=
  match op with
  | .protect inp _ _ => ∀ p, coapDeserialize inp = .ok p →
      ¬AsksFor p x ∧ (isRequest p = false → p.token = token → isObserve p.opts = true)
  | .unprotect inp _ => ∀ p pt q, coapDeserialize inp = .ok p → Authentic C w.ctx inp pt → oCoapPkgGenerate pt p = .ok q →
      ¬AsksFor q x ∧ (isRequest q = false → p.token = token → isObserve q.opts = true)

/-- the record of an open exchange -/
def HasExchange (t : Table) (token kid piv : Bytes) (x : Resource) : Prop :=
  ∃ r, some r ∈ t ∧ r.token = token ∧ r.kid = kid ∧ r.piv = piv ∧ r.uri = x.1 ∧
    r.reqType = if x.2 then .registration else .request

theorem uri_ok {opts : List Opt} {max : Nat} {uri : Bytes} (hmax : 0 < max) (h : uriPathCreate opts max = .ok uri) :
    uri = Spec.uriPath opts := by
  rcases Nat.lt_trichotomy (Spec.uriPathRoom opts) max with hl | he | hg
  · rw [(C33_uri_path_partial opts max hmax).1 hl] at h
    exact (R.ok.inj h).symm
  · rw [C33_false_exact_fit opts max he] at h; cases h
  · rw [(C33_uri_path_partial opts max hmax).2 hg] at h; cases h

theorem updateWrapper_made {cfg : Cfg} {t t' : Table} {p : Pkt} {token rp rk uri : Bytes} (hreq : isRequest p = true)
    (hmax : 0 < cfg.uriMax) (hmax' : cfg.uriMax ≤ 255)
    (hu : uriPathCreate p.opts cfg.uriMax = .ok uri)
    (hd : Distinct t) (h : updateWrapper cfg t (msgType p) token uri rp rk = .ok t') :
    HasExchange t' token rk rp (Spec.uriPath p.opts, observation p.opts) ∧
    ∀ s, some s ∈ t → ¬(s.uri = Spec.uriPath p.opts ∧
      s.reqType = if observation p.opts then .registration else .request) → some s ∈ t' := by
  obtain rfl := uri_ok hmax hu
  unfold updateWrapper at h
  simp only at h
  rw [observation_type hreq] at h
  rw [if_pos (by cases observation p.opts <;> simp)] at h
  obtain ⟨a, ha, h⟩ := R.bind_eq_ok.1 h
  obtain ⟨b, hb, h⟩ := R.bind_eq_ok.1 h
  obtain ⟨c, hc, h⟩ := R.bind_eq_ok.1 h
  obtain ⟨d, hd', h⟩ := R.bind_eq_ok.1 h
  obtain ⟨rfl, _⟩ := memcpyS_ok.1 ha
  obtain ⟨rfl, _⟩ := memcpyS_ok.1 hb
  obtain ⟨rfl, _⟩ := memcpyS_ok.1 hc
  obtain ⟨rfl, hdl⟩ := memcpyS_ok.1 hd'
  have hset := (C29_set cfg _ _ _ hd h).2.2
  have htake : (Spec.uriPath p.opts).take ((Spec.uriPath p.opts).length % 256) = Spec.uriPath p.opts := by
    rw [Nat.mod_eq_of_lt (by omega), List.take_length]
  refine ⟨⟨_, (hset _).2 (.inl rfl), rfl, rfl, rfl, htake, rfl⟩, ?_⟩
  intro s hs hn
  refine (hset s).2 (.inr ⟨hs, ?_⟩)
  simp only [htake]
  exact hn

theorem updateWrapper_keeps {cfg : Cfg} {t t' : Table} {q : Pkt} {tok uri rp rk token kid piv : Bytes} {x : Resource}
    (hmax : 0 < cfg.uriMax) (hmax' : cfg.uriMax ≤ 255)
    (hu : uriPathCreate q.opts cfg.uriMax = .ok uri) (hd : Distinct t)
    (h : updateWrapper cfg t (msgType q) tok uri rp rk = .ok t')
    (hn : ¬AsksFor q x) (hr : isRequest q = false → tok = token → isObserve q.opts = true)
    (hx : HasExchange t token kid piv x) : HasExchange t' token kid piv x := by
  obtain ⟨s, hs, h1, h2, h3, h4, h5⟩ := hx
  refine ⟨s, ?_, h1, h2, h3, h4, h5⟩
  cases hq : isRequest q with
  | true =>
    refine (updateWrapper_made hq hmax hmax' hu hd h).2 s hs ?_
    rintro ⟨e1, e2⟩
    apply hn
    refine ⟨hq, by rw [← h4, e1], ?_⟩
    rw [h5] at e2
    cases hx2 : x.2 <;> cases ho : observation q.opts <;> simp_all
  | false =>
    rcases msgType_response hq with hm | hm
    · rw [hm] at h
      unfold updateWrapper at h
      simp only [reduceCtorEq, if_false, or_self, if_true] at h
      have hl : tok.length ≤ 8 := by
        unfold Table.remove at h
        split at h
        · cases h
        · omega
      by_cases hex : ∃ r, Outstanding t tok r
      · obtain ⟨t2, e2, _, _, e4⟩ := (C29_remove t tok hl hd).2 hex
        rw [e2] at h
        obtain rfl := R.ok.inj h
        refine (e4 s).2 ⟨hs, ?_⟩
        intro e
        have ho := hr hq (by rw [← e, h1])
        unfold isObserve at ho
        obtain ⟨o, ho1, ho2⟩ := List.any_eq_true.1 ho
        unfold msgType at hm
        rw [hq] at hm
        cases hg : getObserveValue q.opts with
        | some v => rw [hg] at hm; cases hm
        | none =>
          unfold getObserveValue at hg
          rw [Option.map_eq_none_iff, List.find?_eq_none] at hg
          exact hg o ho1 ho2
      · rw [(C29_remove t tok hl hd).1 hex] at h; cases h
    · rw [hm] at h
      unfold updateWrapper at h
      simp only [reduceCtorEq, if_false, or_self] at h
      obtain rfl := R.ok.inj h
      exact hs

theorem step_keeps (cfg : Cfg) (C : Crypto) (w : World) (op : Op) (hmax : 0 < cfg.uriMax) (hmax' : cfg.uriMax ≤ 255)
    (hd : Distinct w.ctx.inter) (token kid piv : Bytes) (x : Resource) (hu : Unrelated C w op token x)
    (hx : HasExchange w.ctx.inter token kid piv x) : HasExchange (step cfg C w op).2.ctx.inter token kid piv x := by
  cases step_table cfg C w op with
  | same h => rw [h]; exact hx
  | sent hop hp huri hreq hupd =>
    subst hop
    obtain ⟨u1, u2⟩ := hu _ hp
    exact updateWrapper_keeps hmax hmax' huri hd hupd u1 u2 hx
  | @got inp cap p t o opt out pt uri rp rk nonce hop hp ho hreq hread hchk hpt hout huri hupd =>
    subst hop
    obtain ⟨u1, u2⟩ := hu p pt out (by unfold coapDeserialize; rw [hp]; rfl) ⟨_, _, _, hchk, hpt⟩ hout
    exact updateWrapper_keeps hmax hmax' huri hd hupd u1 u2 hx

/-- all calls of the history, each in the state it is made in, are unrelated to the exchange -/
def AllUnrelated (cfg : Cfg) (C : Crypto) : World → List Op → Bytes → Resource → Prop
  | _, [], _, _ => True
  | w, op :: ops, token, x => Unrelated C w op token x ∧ AllUnrelated cfg C (step cfg C w op).2 ops token x

theorem run_keeps (cfg : Cfg) (C : Crypto) (hmax : 0 < cfg.uriMax) (hmax' : cfg.uriMax ≤ 255) (token kid piv : Bytes)
    (x : Resource) (h : List Op) : ∀ w : World, Distinct w.ctx.inter → AllUnrelated cfg C w h token x →
      HasExchange w.ctx.inter token kid piv x → HasExchange (run cfg C w h).ctx.inter token kid piv x := by
  induction h with
  | nil => intro w _ _ hx; exact hx
  | cons op h ih =>
    intro w hd hu hx
    exact ih _ (step_distinct cfg C w op hd).1 hu.2 (step_keeps cfg C w op hmax hmax' hd token kid piv x hu.1 hx)

/-- **C74** (an exchange stays open, client) Once `coap2oscore` protected a request, the request stays outstanding
through every further history of unrelated calls – forged packets, other exchanges, notifications of this one –
with the Sender ID and the sequence number it was protected with. -/
theorem C74_sent_stays_open (cfg : Cfg) (C : Crypto) (hmax : 0 < cfg.uriMax) (hmax' : cfg.uriMax ≤ 255)
    (prm : InitParams) (nv : R Nat) (jn je : Bytes) (c : Ctx) (nvm : Nat) (log : List EncCall)
    (hinit : contextInit cfg C prm nv jn je = .ok c) (h₁ h₂ : List Op) (inp b : Bytes) (cap : Nat)
    (nvmW : Option Err) (p : Pkt) (w' : World) (hp : coapDeserialize inp = .ok p) (hreq : isRequest p = true)
    (hack : ¬(p.type = 2 ∧ p.code = 0))
    (hok : step cfg C (run cfg C ⟨c, nvm, log⟩ h₁) (.protect inp cap nvmW) = (.ok b, w'))
    (hun : AllUnrelated cfg C w' h₂ p.token (Spec.uriPath p.opts, observation p.opts)) :
    ∃ r, Outstanding (run cfg C ⟨c, nvm, log⟩ (h₁ ++ .protect inp cap nvmW :: h₂)).ctx.inter p.token r ∧
      r.kid = (run cfg C ⟨c, nvm, log⟩ h₁).ctx.senderId ∧ beVal r.piv = (run cfg C ⟨c, nvm, log⟩ h₁).ctx.ssn := by
  have hd := (C29_history cfg C prm nv jn je c hinit nvm log h₁).1
  obtain ⟨v, hv⟩ := protect_ok hok hp hack
  have hm := msgType_request hreq
  have hn : v.new = true := by rw [hv.new]; unfold needsNewPiv; simp [hm.1]
  obtain ⟨e1, e2, -⟩ := hv.ifNew hn
  have hread := hv.read
  unfold readWrapper at hread
  rw [if_neg (by rintro (e | e); exact hm.1 e; exact hm.2 e)] at hread
  obtain ⟨e3, e4⟩ := Prod.mk.inj (R.ok.inj hread)
  have hx := (updateWrapper_made hreq hmax hmax' hv.uri hd hv.upd).1
  rw [← hv.inter'] at hx
  have hd' : Distinct w'.ctx.inter := by
    have := (step_distinct cfg C (run cfg C ⟨c, nvm, log⟩ h₁) (.protect inp cap nvmW) hd).1
    rw [hok] at this; exact this
  obtain ⟨r, hr, r1, r2, r3, -, -⟩ := run_keeps cfg C hmax hmax' _ _ _ _ h₂ w' hd' hun hx
  have hrun : run cfg C ⟨c, nvm, log⟩ (h₁ ++ .protect inp cap nvmW :: h₂) = run cfg C w' h₂ := by
    rw [run_append, run_cons, hok]
  refine ⟨r, ⟨by rw [hrun]; exact hr, r1⟩, by rw [r2, ← e4, e2], ?_⟩
  rw [r3, ← e3]
  exact (ssn2piv_minimal e1).1.1

/-- **C74** (an exchange stays open, server) Once `oscore2coap` delivered a request, the request stays outstanding
through every further history of unrelated calls, with the KID and the PIV of the packet. -/
theorem C74_received_stays_open (cfg : Cfg) (C : Crypto) (hmax : 0 < cfg.uriMax) (hmax' : cfg.uriMax ≤ 255)
    (prm : InitParams) (nv : R Nat) (jn je : Bytes) (c : Ctx) (nvm : Nat) (log : List EncCall)
    (hinit : contextInit cfg C prm nv jn je = .ok c) (h₁ h₂ : List Op) (inp b : Bytes) (cap : Nat)
    (p : Pkt) (t : List (Opt × Bytes)) (w' : World) (hp : coapParse inp = .ok (p, t)) (hreq : isRequest p = true)
    (hok : step cfg C (run cfg C ⟨c, nvm, log⟩ h₁) (.unprotect inp cap) = (.ok b, w')) :
    ∃ q o kid piv, b = encPkt q ∧ oscoreOptionParser t = .ok o ∧ o.read = .ok (piv, kid) ∧
      (isRequest q = true → AllUnrelated cfg C w' h₂ p.token (Spec.uriPath q.opts, observation q.opts) →
        ∃ r, Outstanding (run cfg C ⟨c, nvm, log⟩ (h₁ ++ .unprotect inp cap :: h₂)).ctx.inter p.token r ∧
          r.kid = kid ∧ r.piv = piv) := by
  have hd := (C29_history cfg C prm nv jn je c hinit nvm log h₁).1
  have hst : oscore2coap cfg C inp cap (run cfg C ⟨c, nvm, log⟩ h₁).ctx = (.ok b, w'.ctx) := by
    have h1 := congrArg Prod.fst hok
    have h2 := congrArg (fun x => x.2.ctx) hok
    exact Prod.ext h1 h2
  obtain ⟨o, opt, out, pt, uri, rp, rk, nonce, ho, hb, hk, g1, g2, g3, g4, g5, g6⟩ := unprotect_ok hp hst
  obtain ⟨rfl, hkm⟩ := hk hreq
  have hm := msgType_request hreq
  unfold readWrapper at g1
  rw [if_neg (by rintro (e | e); exact hm.1 e; exact hm.2 e)] at g1
  refine ⟨out, o, rk, rp, hb, ho, g1, ?_⟩
  intro hro hun
  have hx := (updateWrapper_made hro hmax hmax' g5 hd g6).1
  have hd' : Distinct w'.ctx.inter := by
    have := (step_distinct cfg C (run cfg C ⟨c, nvm, log⟩ h₁) (.unprotect inp cap) hd).1
    rw [hok] at this; exact this
  obtain ⟨r, hr, r1, r2, r3, -, -⟩ := run_keeps cfg C hmax hmax' _ _ _ _ h₂ w' hd' hun hx
  have hrun : run cfg C ⟨c, nvm, log⟩ (h₁ ++ .unprotect inp cap :: h₂) = run cfg C w' h₂ := by
    rw [run_append, run_cons, hok]
  exact ⟨r, ⟨by rw [hrun]; exact hr, r1⟩, r2, r3⟩

/-- **C74** (replacement) A protected request – a repeated registration, a cancellation, a new GET – takes the place
of the earlier one for the same resource of the same kind: afterwards only responses to the new request are
accepted for it. -/
theorem C74_replaced (cfg : Cfg) (C : Crypto) (hmax : 0 < cfg.uriMax) (hmax' : cfg.uriMax ≤ 255)
    (prm : InitParams) (nv : R Nat) (jn je : Bytes) (c : Ctx) (nvm : Nat) (log : List EncCall)
    (hinit : contextInit cfg C prm nv jn je = .ok c) (h : List Op) (inp b : Bytes) (cap : Nat)
    (nvmW : Option Err) (p : Pkt) (w' : World) (hp : coapDeserialize inp = .ok p) (hreq : isRequest p = true)
    (hack : ¬(p.type = 2 ∧ p.code = 0))
    (hok : step cfg C (run cfg C ⟨c, nvm, log⟩ h) (.protect inp cap nvmW) = (.ok b, w')) (r : Rec)
    (hr : some r ∈ w'.ctx.inter)
    (hsame : r.token = p.token ∨ (r.uri = Spec.uriPath p.opts ∧
      r.reqType = if observation p.opts then .registration else .request)) :
    r.token = p.token ∧ r.kid = (run cfg C ⟨c, nvm, log⟩ h).ctx.senderId ∧
      beVal r.piv = (run cfg C ⟨c, nvm, log⟩ h).ctx.ssn := by
  have hd := (C29_history cfg C prm nv jn je c hinit nvm log h).1
  obtain ⟨v, hv⟩ := protect_ok hok hp hack
  have hm := msgType_request hreq
  have hn : v.new = true := by rw [hv.new]; unfold needsNewPiv; simp [hm.1]
  obtain ⟨e1, e2, -⟩ := hv.ifNew hn
  have hread := hv.read
  unfold readWrapper at hread
  rw [if_neg (by rintro (e | e); exact hm.1 e; exact hm.2 e)] at hread
  obtain ⟨e3, e4⟩ := Prod.mk.inj (R.ok.inj hread)
  obtain ⟨s, hs, s1, s2, s3, s4, s5⟩ := (updateWrapper_made hreq hmax hmax' hv.uri hd hv.upd).1
  rw [← hv.inter'] at hs
  have hd' : Distinct w'.ctx.inter := by
    have := (step_distinct cfg C (run cfg C ⟨c, nvm, log⟩ h) (.protect inp cap nvmW) hd).1
    rw [hok] at this; exact this
  have : r = s := by
    obtain ⟨i, hi⟩ := mem_iff_get.1 hr
    obtain ⟨j, hj⟩ := mem_iff_get.1 hs
    have hij : i = j := by
      rcases hsame with h1 | ⟨h1, h2⟩
      · exact hd'.token _ _ _ _ hi hj (by rw [h1, s1])
      · exact hd'.resource _ _ _ _ hi hj (by rw [h1, s4]) (by rw [h2, s5])
    subst hij
    rw [hi] at hj
    simpa using hj
  subst this
  exact ⟨s1, by rw [s2, ← e4, e2], by rw [s3, ← e3]; exact (ssn2piv_minimal e1).1.1⟩

/-- **C74** (an observation survives) A client registers an observation; the request reaches the server.  After that
both sides go on with any histories of calls that are unrelated to the observation: forged and replayed packets, other
exchanges in both directions, failing calls, earlier notifications of this very observation.  Then a notification that
the server protects is delivered to the client with its contents, provided its number is newer than the last one the
client accepted (C05). -/
theorem C74_notification_delivered (cfg : Cfg) (C : Crypto) (hC : C.Lawful) (hmax : 0 < cfg.uriMax)
    (hmax' : cfg.uriMax ≤ 255) (prm prm' : InitParams) (hmir : MirroredParams prm prm') (nv nv' : R Nat)
    (jn je jn' je' : Bytes) (c s : Ctx) (hc : contextInit cfg C prm nv jn je = .ok c)
    (hs : contextInit cfg C prm' nv' jn' je' = .ok s) (nvmC nvmS : Nat) (logC logS : List EncCall)
    (hC₁ hC₂ hS₁ hS₂ : List Op)
    -- the client protects the registration `p` in the state `wc` and is then in the state `wc'`
    (wc wc' ws ws' : World) (hwc : wc = run cfg C ⟨c, nvmC, logC⟩ hC₁) (hws : ws = run cfg C ⟨s, nvmS, logS⟩ hS₁)
    (inp pkt : Bytes) (cap cap' : Nat) (nvmW : Option Err) (p : Pkt) (hp : coapDeserialize inp = .ok p)
    (hreq : isRequest p = true) (hack : ¬(p.type = 2 ∧ p.code = 0)) (hcar : Carriable cfg p)
    (hsent : step cfg C wc (.protect inp cap nvmW) = (.ok pkt, wc')) (hlen : pkt.length < 65536)
    -- the server can take it in the state `ws` (C22) and is then in the state `ws'`
    (hssn : ws.ctx.ssn < 0x7FFFFF) (hsync : ws.ctx.echo = .synchronized)
    (hfresh : ws.ctx.window.valid wc.ctx.ssn = true) (hroom : HasRoom ws.ctx.inter p.token)
    (hcap : (encPkt p).length ≤ cap') (hgot : ws' = (step cfg C ws (.unprotect pkt cap')).2)
    -- anything else happens on both sides
    (hunC : AllUnrelated cfg C wc' hC₂ p.token (Spec.uriPath p.opts, observation p.opts))
    (hunS : AllUnrelated cfg C ws' hS₂ p.token (Spec.uriPath p.opts, observation p.opts))
    -- the server protects the notification `n`
    (inpN pktN : Bytes) (capN capN' : Nat) (nvmN : Option Err) (n : Pkt) (hn : coapDeserialize inpN = .ok n)
    (hrsp : isRequest n = false) (hobs : isObserve n.opts = true) (htok : n.token = p.token)
    (hcarN : Carriable cfg n) (hsentN : (step cfg C (run cfg C ws' hS₂) (.protect inpN capN nvmN)).1 = .ok pktN)
    (hlenN : pktN.length < 65536)
    (hssnC : (run cfg C wc' hC₂).ctx.ssn < 0x7FFFFF)
    (hnew : (run cfg C wc' hC₂).ctx.notifInit = true → (run cfg C wc' hC₂).ctx.notifNum < (run cfg C ws' hS₂).ctx.ssn)
    (hcapN : (encPkt (receivedResponse n)).length ≤ capN') :
    (step cfg C (run cfg C wc' hC₂) (.unprotect pktN capN')).1 = .ok (encPkt (receivedResponse n)) := by
  subst hwc hws hgot
  obtain ⟨k1, k2, k3, k4, k5, -⟩ := C27_mirrored hmir hc hs
  have idC := run_identity cfg C ⟨c, nvmC, logC⟩ hC₁
  have idS := run_identity cfg C ⟨s, nvmS, logS⟩ hS₁
  have hM : Mirror (run cfg C ⟨c, nvmC, logC⟩ hC₁).ctx (run cfg C ⟨s, nvmS, logS⟩ hS₁).ctx := by
    refine ⟨?_, ?_, ?_⟩
    · rw [idC.senderId, idS.recipientId]; exact k4.symm
    · rw [idC.senderKey, idS.recipientKey]; exact k1.symm
    · rw [idC.commonIv, idS.commonIv]; exact k3.symm
  obtain ⟨out, srv', h1, -, -, -, uri, rp, rk, x, l, -, h6, h7, h8, -⟩ :=
    request_recovered_full cfg C hC nvmW inp pkt cap cap' _ wc' _ p hsent hp hreq hack hcar hlen hM hssn hsync hfresh
      (fun _ _ _ _ h => updateWrapper_room h (msgType_request hreq) hroom) hcap
  have hdC := (C29_history cfg C prm nv jn je c hc nvmC logC hC₁).1
  have hdS := (C29_history cfg C prm' nv' jn' je' s hs nvmS logS hS₁).1
  have hdC' : Distinct wc'.ctx.inter := by
    have := (step_distinct cfg C _ (.protect inp cap nvmW) hdC).1
    rw [hsent] at this; exact this
  have hdS' := (step_distinct cfg C _ (.unprotect pkt cap') hdS).1
  have hxC := (updateWrapper_made hreq hmax hmax' h8 hdC h7).1
  have hsS : (step cfg C (run cfg C ⟨s, nvmS, logS⟩ hS₁) (.unprotect pkt cap')).2.ctx = srv' := by
    show (oscore2coap cfg C pkt cap' _).2 = srv'
    rw [h1]
  have hxS := (updateWrapper_made hreq hmax hmax' h8 hdS h6).1
  rw [← hsS] at hxS
  obtain ⟨r, hr, r1, r2, r3, -, -⟩ := run_keeps cfg C hmax hmax' _ _ _ _ hC₂ _ hdC' hunC hxC
  obtain ⟨r', hr', r1', r2', r3', -, -⟩ := run_keeps cfg C hmax hmax' _ _ _ _ hS₂ _ hdS' hunS hxS
  have idC2 := (step_identity cfg C (run cfg C ⟨c, nvmC, logC⟩ hC₁) (.protect inp cap nvmW))
  rw [hsent] at idC2
  have idC3 := run_identity cfg C wc' hC₂
  have idS2 := step_identity cfg C (run cfg C ⟨s, nvmS, logS⟩ hS₁) (.unprotect pkt cap')
  have idS3 := run_identity cfg C (step cfg C (run cfg C ⟨s, nvmS, logS⟩ hS₁) (.unprotect pkt cap')).2 hS₂
  have hM' : Mirror (run cfg C (step cfg C (run cfg C ⟨s, nvmS, logS⟩ hS₁) (.unprotect pkt cap')).2 hS₂).ctx
      (run cfg C wc' hC₂).ctx := by
    refine ⟨?_, ?_, ?_⟩
    · rw [idC3.recipientId, idC2.recipientId, idC.recipientId, idS3.senderId, idS2.senderId, idS.senderId]
      exact k5
    · rw [idC3.recipientKey, idC2.recipientKey, idC.recipientKey, idS3.senderKey, idS2.senderKey,
        idS.senderKey]
      exact k2
    · rw [idC3.commonIv, idC2.commonIv, idC.commonIv, idS3.commonIv, idS2.commonIv, idS.commonIv]
      exact k3
  have keepD : ∀ (h : List Op) (w : World), Distinct w.ctx.inter → Distinct (run cfg C w h).ctx.inter := fun h w hw =>
    run_induction (P := fun w => Distinct w.ctx.inter) (fun w op hh => (step_distinct cfg C w op hh).1) hw h
  obtain ⟨cl', e, -⟩ := response_recovered cfg C hC nvmN inpN pktN capN capN' _ _ (run cfg C wc' hC₂).ctx n
    (Prod.ext hsentN rfl) hn hrsp hcarN hlenN hM' hssnC (keepD _ _ hdS') (keepD _ _ hdC')
    ⟨r', r, ⟨hr', by rw [r1', htok]⟩, ⟨hr, by rw [r1, htok]⟩, by rw [r3, r3'], by rw [r2, r2']⟩
    (.inr (.inl hobs)) (fun _ hni => hnew hni) hcapN
  show (oscore2coap cfg C pktN capN' _).1 = _
  rw [e]

/-! ### non-vacuity -/

/-- the check of `Unrelated` for the AEAD of the examples, which yields the same text under every nonce and AAD -/
def toyUnrelated (op : Op) (token : Bytes) (x : Resource) : Bool :=
  let ok (q : Pkt) (tok : Bytes) : Bool :=
    !(isRequest q && Spec.uriPath q.opts == x.1 && observation q.opts == x.2) &&
      (isRequest q || tok != token || isObserve q.opts)
  match op with
  | .protect inp _ _ => match coapDeserialize inp with
    | .ok p => ok p p.token
    | _ => true
  | .unprotect inp _ => match coapDeserialize inp with
    | .ok p => match oCoapPkgGenerate (p.payload.take (p.payload.length - tagLen)) p with
      | .ok q => ok q p.token
      | _ => true
    | _ => true

theorem toyUnrelated_sound {w : World} {op : Op} {token : Bytes} {x : Resource} (h : toyUnrelated op token x = true) :
    Unrelated toyCrypto w op token x := by
  cases op with
  | protect inp cap nvmW =>
    intro p hp
    unfold toyUnrelated at h
    simp only [hp] at h
    unfold AsksFor
    simp at h
    refine ⟨fun ⟨a, b, c⟩ => ?_, fun a b => ?_⟩
    · rw [a] at h
      rcases h.1 with (h | h) | h
      · cases h
      · exact h b
      · exact h c
    rcases h.2 with (h | h) | h
    · rw [a] at h; cases h
    · exact absurd b h
    · exact h
  | unprotect inp cap =>
    rintro p pt q hp ⟨nonce, a, ct, hck, hdec⟩ hq
    rw [hck.payload hp] at hdec
    unfold toyUnrelated at h
    simp only [hp] at h
    have hpt : pt = p.payload.take (p.payload.length - tagLen) := by
      simp only [toyCrypto] at hdec
      split at hdec
      · exact (Option.some.inj hdec).symm
      · cases hdec
    rw [← hpt, hq] at h
    unfold AsksFor
    simp at h
    refine ⟨fun ⟨a, b, c⟩ => ?_, fun a b => ?_⟩
    · rw [a] at h
      rcases h.1 with (h | h) | h
      · cases h
      · exact h b
      · exact h c
    rcases h.2 with (h | h) | h
    · rw [a] at h; cases h
    · exact absurd b h
    · exact h

theorem toyAllUnrelated {token : Bytes} {x : Resource} (h : List Op) (hh : h.all (toyUnrelated · token x) = true) :
    ∀ w, AllUnrelated exCfg toyCrypto w h token x := by
  induction h with
  | nil => intro w; trivial
  | cons op h ih =>
    intro w
    rw [List.all_cons, Bool.and_eq_true] at hh
    exact ⟨toyUnrelated_sound hh.1, ih hh.2 _⟩

/-- the registration of the client and the server that got it -/
def exObsPkt : Bytes := sendOf exCfg (exW exClient) exObs
/-- the client after the registration -/
def exObsC : World := afterSend exCfg (exW exClient) exObs
/-- the server after the registration -/
def exObsS : World := afterRecv exCfg (exW exServer) exObsPkt

/-- What the client does in between: another GET, a notification, a forgery of it, garbage. -/
def exObsHistC : List Op :=
  let n1 := sendOf exCfg exObsS exNotif
  [.protect exGet2 256 none, .unprotect n1 256, .unprotect (n1.dropLast ++ [0]) 256, .unprotect [1, 2, 3] 256]

/-- What the server does in between: a notification, the other GET of the client and the answer to it, a replay of
the registration as a request of its own. -/
def exObsHistS : List Op :=
  [.protect exNotif 256 none, .unprotect (sendOf exCfg exObsC exGet2) 256, .protect exRsp2 256 none]

/-- the registration -/
def exObsP : Pkt := (coapDeserialize exObs).getD ⟨0, 0, 0, 0, [], [], []⟩
/-- the notification -/
def exNotifP : Pkt := (coapDeserialize exNotif).getD ⟨0, 0, 0, 0, [], [], []⟩

/-- non-vacuity of `C74_sent_stays_open`, `C74_received_stays_open`, `C74_notification_delivered`: two notifications
reach the client, with other exchanges and forgeries in between -/
example :
    coapDeserialize exObs = .ok exObsP ∧ isRequest exObsP = true ∧ ¬(exObsP.type = 2 ∧ exObsP.code = 0) ∧
    Spec.uriPath exObsP.opts = [0x74, 0x76] ∧ observation exObsP.opts = true ∧
    (step exCfg toyCrypto (exW exClient) (.protect exObs 256 none)).1 = .ok exObsPkt ∧
    (step exCfg toyCrypto (exW exServer) (.unprotect exObsPkt 256)).1 = .ok exObs ∧
    AllUnrelated exCfg toyCrypto exObsC exObsHistC exObsP.token (Spec.uriPath exObsP.opts, observation exObsP.opts) ∧
    AllUnrelated exCfg toyCrypto exObsS exObsHistS exObsP.token (Spec.uriPath exObsP.opts, observation exObsP.opts) ∧
    coapDeserialize exNotif = .ok exNotifP ∧ isRequest exNotifP = false ∧ isObserve exNotifP.opts = true ∧
    exNotifP.token = exObsP.token ∧
    (step exCfg toyCrypto (run exCfg toyCrypto exObsS exObsHistS) (.protect exNotif 256 none)).1.isOk = true ∧
    (run exCfg toyCrypto exObsC exObsHistC).ctx.notifInit = true ∧
    (run exCfg toyCrypto exObsC exObsHistC).ctx.notifNum < (run exCfg toyCrypto exObsS exObsHistS).ctx.ssn ∧
    (step exCfg toyCrypto (run exCfg toyCrypto exObsC exObsHistC) (.unprotect
      (sendOf exCfg (run exCfg toyCrypto exObsS exObsHistS) exNotif) 256)).1 =
        .ok (encPkt (receivedResponse exNotifP)) := by
  refine ⟨R.eq_getD _ (by decide +kernel), by decide +kernel, by decide +kernel, by decide +kernel, by decide +kernel,
    by decide +kernel, by decide +kernel, toyAllUnrelated _ (by decide +kernel) _, toyAllUnrelated _ (by decide +kernel) _,
    R.eq_getD _ (by decide +kernel), by decide +kernel, by decide +kernel, by decide +kernel, by decide +kernel,
    by decide +kernel, by decide +kernel, by decide +kernel⟩

theorem exObs_carriable : Carriable exCfg exObsP ∧ Carriable exCfg exNotifP := by
  constructor <;> constructor <;> first | decide +kernel | (constructor <;> decide +kernel)

/-- non-vacuity of `C74_protected_for_open` and `C74_delivered_for_open`: the server answers, the client gets it -/
example :
    (step exCfg toyCrypto (run exCfg toyCrypto (exW exServer) [.unprotect exObsPkt 256]) (.protect exNotif 256 none)).1.isOk
      = true ∧
    (step exCfg toyCrypto (run exCfg toyCrypto (exW exClient) [.protect exObs 256 none])
      (.unprotect (sendOf exCfg exObsS exNotif) 256)).1 = .ok (encPkt (receivedResponse exNotifP)) := by
  decide +kernel

/-! ### why the conditions are needed -/

/-- PUT for the resource of `exGet`, token 0x4C, payload "on" -/
def exPutTv : Bytes := [0x41, 0x03, 0x12, 0x36, 0x4C, 0xB2, 0x74, 0x76, 0xFF, 0x6F, 0x6E]
/-- GET for the resource of `exGet` with another token, 0x4D -/
def exGetTv2 : Bytes := [0x41, 0x01, 0x12, 0x37, 0x4D, 0xB2, 0x74, 0x76]

/-- **A PUT makes the answer to an outstanding GET undeliverable.**  The client has a GET for /tv outstanding and
sends a PUT to the same path.  The server answers the GET first; the client rejects the answer: the record of the GET
was replaced, although the methods differ and both requests are legitimately outstanding. -/
theorem C74_false_put_replaces_get :
    let get := sendOf exCfg (exW exClient) exGet
    let answer := sendOf exCfg (afterRecv exCfg (exW exServer) get) exRsp
    (step exCfg toyCrypto (afterSend exCfg (exW exClient) exGet) (.unprotect answer 256)).1 = .ok exRsp ∧
    (step exCfg toyCrypto (afterSend exCfg (afterSend exCfg (exW exClient) exGet) exPutTv)
      (.unprotect answer 256)).1 = .err .oscore_interaction_not_found := by
  decide +kernel

/-- **A request of the peer makes the answer to an own request undeliverable.**  Both endpoints ask for /tv of the
other one, which RFC 8613 allows (both have client and server roles).  After the peer's request arrived the answer to
the own one is rejected: requests of both directions share one table, keyed by the path. -/
theorem C74_false_directions :
    let a := afterSend exCfg (exW exClient) exGet
    let get := sendOf exCfg (exW exClient) exGet
    let get' := sendOf exCfg (exW exServer) exGetTv2
    let b := afterSend exCfg (exW exServer) exGetTv2
    (step exCfg toyCrypto a (.unprotect get' 256)).1 = .ok exGetTv2 ∧
    (step exCfg toyCrypto b (.unprotect get 256)).1 = .ok exGet ∧
    (step exCfg toyCrypto (afterRecv exCfg a get') (.unprotect (sendOf exCfg (afterRecv exCfg (exW exServer) get) exRsp) 256)).1 =
      .err .oscore_interaction_not_found := by
  decide +kernel

/-- **A response that does not fit the application's buffer is lost for good**: the call fails, but the exchange is
already closed, so handing in the packet again with a larger buffer fails too. -/
theorem C74_false_small_buffer :
    let get := sendOf exCfg (exW exClient) exGet
    let answer := sendOf exCfg (afterRecv exCfg (exW exServer) get) exRsp
    let c := afterSend exCfg (exW exClient) exGet
    (step exCfg toyCrypto c (.unprotect answer 256)).1 = .ok exRsp ∧
    (step exCfg toyCrypto c (.unprotect answer 7)).1 = .err .buffer_to_small ∧
    (step exCfg toyCrypto (step exCfg toyCrypto c (.unprotect answer 7)).2 (.unprotect answer 256)).1 =
      .err .oscore_interaction_not_found := by
  decide +kernel

/-- Observe registration for /t2, token 0x4B -/
def exObs2 : Bytes := [0x41, 0x01, 0x12, 0x35, 0x4B, 0x60, 0x52, 0x74, 0x32]
/-- 2.05 notification (Observe 5), token 0x4B, payload "ho" -/
def exNotif2 : Bytes := [0x61, 0x45, 0x12, 0x35, 0x4B, 0x61, 0x05, 0xFF, 0x68, 0x6F]

/-- **The notification number is kept per context, not per observation**: two observations are open; a notification
of the first one overtaken by one of the second is rejected as a replay, although it is the only notification of its
observation so far (RFC 8613, 7.4.1: the notification number is associated with the observation). -/
theorem C74_false_reordered :
    let c := afterSend exCfg (afterSend exCfg (exW exClient) exObs) exObs2
    let s := afterRecv exCfg (afterRecv exCfg (exW exServer) exObsPkt)
      (sendOf exCfg (afterSend exCfg (exW exClient) exObs) exObs2)
    let n1 := sendOf exCfg s exNotif
    let n2 := sendOf exCfg (afterSend exCfg s exNotif) exNotif2
    (step exCfg toyCrypto c (.unprotect n1 256)).1 = .ok (encPkt (receivedResponse exNotifP)) ∧
    (step exCfg toyCrypto c (.unprotect n2 256)).1.isOk = true ∧
    (step exCfg toyCrypto (afterRecv exCfg c n2) (.unprotect n1 256)).1 = .err .oscore_replay_notification_protection_error := by
  decide +kernel

end Verif
