import Verif.Props.Conversation
/-
C93: two parties whose libraries are built with different configurations (buffer sizes, number of interactions, replay
window, storage) understand each other.
-/
namespace Verif
open Verif

/-! ### specification -/

/-- The message fits both builds: the sender's can protect it (`Sendable`), the receiver's has room for its options, its
plaintext (code, encrypted options, payload marker, payload) and its path. -/
structure FitsBoth (cfgS cfgR : Cfg) (p : Pkt) (capS capR : Nat) : Prop extends Sendable cfgS p capS capR where
  rOpts : (p.opts.map (fun o => 5 + o.value.length)).sum ≤ cfgR.maxCoapOptions
  rPlain : 2 + (encOpts (redelta 0 (innerOpts (isRequest p) p.opts))).length + p.payload.length ≤ cfgR.maxPlaintext
  rUri : Spec.uriPathRoom p.opts < cfgR.uriMax

/-- protected by a party with build `cfgS` and handed to one with build `cfgR` -/
def transfer2 (cfgS cfgR : Cfg) (C : Crypto) (m : CMsg) (snd rcv : World) : R Bytes × World × World :=
  match step cfgS C snd (.protect m.inp m.capS none) with
  | (.ok b, snd') => ((step cfgR C rcv (.unprotect b m.capR)).1, snd', (step cfgR C rcv (.unprotect b m.capR)).2)
  | (r, snd') => (r, snd', rcv)

/-- what the receivers of the messages get, one after the other; A is built with `cfgA`, B with `cfgB` -/
def converse2 (cfgA cfgB : Cfg) (C : Crypto) : World → World → List CMsg → List (R Bytes)
  | _, _, [] => []
  | a, b, m :: ms =>
    if m.fromA then
      (transfer2 cfgA cfgB C m a b).1 ::
        converse2 cfgA cfgB C (transfer2 cfgA cfgB C m a b).2.1 (transfer2 cfgA cfgB C m a b).2.2 ms
    else
      (transfer2 cfgB cfgA C m b a).1 ::
        converse2 cfgA cfgB C (transfer2 cfgB cfgA C m b a).2.2 (transfer2 cfgB cfgA C m b a).2.1 ms

/-- every message of the conversation may be sent when its turn comes: it fits both builds, and so do the outstanding
requests -/
def Proper2 (cfgA cfgB : Cfg) : List Exch → List CMsg → Prop
  | _, [] => True
  | S, m :: ms => ∃ p, coapDeserialize m.inp = .ok p ∧
      (if m.fromA then FitsBoth cfgA cfgB p m.capS m.capR else FitsBoth cfgB cfgA p m.capS m.capR) ∧
      ∃ S', outstandingAfter (min cfgA.interactions cfgB.interactions) S p = some S' ∧ Proper2 cfgA cfgB S' ms

/-! ### one message -/

theorem FitsBoth.receivable {cfgS cfgR : Cfg} {p : Pkt} {capS capR : Nat} (h : FitsBoth cfgS cfgR p capS capR) :
    Receivable cfgS cfgR p := ⟨h.rOpts, fun _ _ hn => Nat.le_trans hn h.rPlain⟩

theorem uriPathCreate_eq {p : Pkt} {max : Nat} (h : Spec.uriPathRoom p.opts < max) :
    uriPathCreate p.opts max = .ok (Spec.uriPath p.opts) := (C33_uri_path_partial p.opts max (by omega)).1 h

theorem outstandingAfter_mono {n m : Nat} (h : n ≤ m) {S S' : List Exch} {p : Pkt} (ho : outstandingAfter n S p = some S') :
    outstandingAfter m S p = some S' := by
  unfold outstandingAfter at ho ⊢
  split
  · rename_i hr
    rw [if_pos hr] at ho
    simp only at ho ⊢
    split at ho
    · rename_i hc
      rw [if_pos ⟨by omega, hc.2⟩]; exact ho
    · cases ho
  · rename_i hr
    rw [if_neg hr] at ho; exact ho

/-- the records of the table after a message: those there were, and the one of the message -/
theorem updateWrapper_old {cfg : Cfg} {t t' : Table} {ty : MsgType} {token uri rp rk : Bytes} (htok : token.length ≤ 8)
    (hd : Distinct t) (h : updateWrapper cfg t ty token uri rp rk = .ok t') {r : Rec} (hr : some r ∈ t') :
    some r ∈ t ∨ (ty ≠ .response ∧ ty ≠ .notification ∧ r.token = token ∧ r.piv = rp ∧ r.kid = rk) := by
  unfold updateWrapper at h
  simp only at h
  generalize hk : (if ty = .cancellation then MsgType.registration else ty) = k at h
  by_cases hreq : k = .request ∨ k = .registration
  · rw [if_pos hreq] at h
    obtain ⟨a, ha, h⟩ := R.bind_eq_ok.1 h
    obtain ⟨b, hb, h⟩ := R.bind_eq_ok.1 h
    obtain ⟨c, hc, h⟩ := R.bind_eq_ok.1 h
    obtain ⟨d, hd', hset⟩ := R.bind_eq_ok.1 h
    have ha' := (memcpyS_ok.1 ha).1
    have hb' := (memcpyS_ok.1 hb).1
    have hc' := (memcpyS_ok.1 hc).1
    rcases ((C29_set cfg t t' _ hd hset).2.2 r).1 hr with rfl | ⟨h1, -⟩
    · refine .inr ⟨?_, ?_, hc', ha', hb'⟩ <;>
      · rintro rfl; subst hk; simp at hreq
    · exact .inl h1
  · rw [if_neg hreq] at h
    split at h
    · rename_i e
      by_cases hO : ∃ r, Outstanding t token r
      · obtain ⟨t2, h1, -, -, h4⟩ := (C29_remove t token htok hd).2 hO
        rw [h] at h1
        rw [R.ok.inj h1] at hr
        exact .inl ((h4 r).1 hr).1
      · rw [(C29_remove t token htok hd).1 hO] at h; cases h
    · rw [R.ok.inj h]; exact .inl hr

/-- the records of the two tables agree -/
def SameRecords (t1 t2 : Table) : Prop := ∀ r s, some r ∈ t1 → some s ∈ t2 → r.token = s.token → r.piv = s.piv ∧ r.kid = s.kid

theorem SameRecords.update {cfgA cfgB : Cfg} {t1 t2 t1' t2' : Table} {ty : MsgType} {token u1 u2 rp rk : Bytes} (htok : token.length ≤ 8)
    (h : SameRecords t1 t2) (d1 : Distinct t1) (d2 : Distinct t2) (d1' : Distinct t1') (d2' : Distinct t2')
    (h1 : updateWrapper cfgA t1 ty token u1 rp rk = .ok t1') (h2 : updateWrapper cfgB t2 ty token u2 rp rk = .ok t2') :
    SameRecords t1' t2' := by
  have uniq : ∀ {t : Table} {r s : Rec}, Distinct t → some r ∈ t → some s ∈ t → r.token = s.token → r = s := by
    intro t r s hd hr hs e
    obtain ⟨i, hi⟩ := mem_iff_get.1 hr
    obtain ⟨j, hj⟩ := mem_iff_get.1 hs
    have := hd.token i j r s hi hj e
    subst this
    rw [hi] at hj
    simpa using hj
  intro r s hr hs e
  rcases updateWrapper_old htok d1 h1 hr with h3 | ⟨n1, n2, e1, e2, e3⟩
  · rcases updateWrapper_old htok d2 h2 hs with h4 | ⟨n1, n2, f1, f2, f3⟩
    · exact h r s h3 h4 e
    · obtain ⟨r', ho, g1, g2⟩ := updateWrapper_outstanding d1 h1 ⟨n1, n2⟩
      have := uniq d1' hr ho.1 (by rw [ho.2, e, f1])
      subst this
      exact ⟨by rw [g1, f2], by rw [g2, f3]⟩
  · rcases updateWrapper_old htok d2 h2 hs with h4 | ⟨-, -, f1, f2, f3⟩
    · obtain ⟨s', ho, g1, g2⟩ := updateWrapper_outstanding d2 h2 ⟨n1, n2⟩
      have := uniq d2' hs ho.1 (by rw [ho.2, ← e, e1])
      subst this
      exact ⟨by rw [g1, e2], by rw [g2, e3]⟩
    · exact ⟨by rw [e2, f2], by rw [e3, f3]⟩

/-- **C93** A request that fits both builds: what the server's build makes of a request protected by the client's build is
exactly the request (the hypotheses are those of C22, for two configurations). -/
theorem C93_request_partial (cfgC cfgS : Cfg) (C : Crypto) (hC : C.Lawful) (nvmW : Option Err)
    (inp b : Bytes) (cap cap' : Nat) (w w' : World) (srv : Ctx) (p : Pkt)
    (hsend : coap2oscore cfgC C nvmW inp cap w = (.ok b, w'))
    (hp : coapDeserialize inp = .ok p) (hreq : isRequest p = true)
    (hfit : FitsBoth cfgC cfgS p cap cap') (hb : b.length < 65536)
    (hmir : Mirror w.ctx srv) (hssn : srv.ssn < 0x7FFFFF) (hsync : srv.echo = .synchronized)
    (hfresh : srv.window.valid w.ctx.ssn = true)
    (S S' : List Exch) (htrack : Tracks cfgS.interactions srv.inter S) (ho : outstandingAfter cfgS.interactions S p = some S')
    (hmax : cfgS.uriMax ≤ 255) (hid : w.ctx.senderId.length ≤ 4) :
    ∃ srv', oscore2coap cfgS C b cap' srv = (.ok (encPkt p), srv') ∧ coapDeserialize (encPkt p) = .ok p ∧
      srv'.nonce = w'.ctx.nonce ∧ Tracks cfgS.interactions srv'.inter S' := by
  have hu := uriPathCreate_eq hfit.rUri
  have hlow : w.ctx.ssn < 0x7FFFFF := by
    obtain ⟨v, hv⟩ := protect_ok hsend hp hfit.notAck
    exact hv.ssn
  have hq : ∀ rp, ssn2piv w.ctx.ssn = .ok rp → rp.length ≤ 3 := by
    intro rp h
    obtain ⟨q, hq, hql⟩ := ssn2piv_short (n := w.ctx.ssn) (by omega)
    rw [hq] at h
    rw [← R.ok.inj h]; exact hql
  obtain ⟨t2, uri, uriR, rp, rk, x, l, h1, h2, h3, h4, h5, h6, h7, h8, h9, h10, h11⟩ :=
    request_received_builds cfgC cfgS C hC nvmW inp b cap cap' w w' srv p hsend hp hreq hfit.notAck hfit.car hfit.receivable hb hmir
      hssn (fun _ => hfresh) (fun uri rp rk t _ hrp hrk _ => by
        obtain ⟨t', ht', -⟩ := htrack.request (cfg := cfgS) hreq ho hfit.rUri hmax hfit.token (hq rp hrp) (kid := rk) (by rw [hrk]; exact hid)
        exact ⟨_, t', hu, ht'⟩) hfit.rcv
  rw [hu] at h7
  obtain rfl := R.ok.inj h7
  obtain ⟨t', ht', htk⟩ := htrack.request (cfg := cfgS) hreq ho hfit.rUri hmax hfit.token (hq rp h10) (kid := rk) (by rw [h8]; exact hid)
  rw [h4] at ht'
  obtain rfl := R.ok.inj ht'
  refine ⟨requestAfter p srv w'.ctx.nonce t2 w.ctx.ssn x.toNat, h1.trans ?_, h2, ?_, ?_⟩
  · unfold requestAnswer; rw [hsync]
  · unfold requestAfter; rw [hsync]
  · unfold requestAfter; rw [hsync]; exact htk

/-- **C93** The same for a response: the client's build delivers what the server's build protected (hypotheses of C23). -/
theorem C93_response_partial (cfgS cfgC : Cfg) (C : Crypto) (hC : C.Lawful) (nvmW : Option Err)
    (inp b : Bytes) (cap cap' : Nat) (w w' : World) (cl : Ctx) (p : Pkt)
    (hsend : coap2oscore cfgS C nvmW inp cap w = (.ok b, w'))
    (hp : coapDeserialize inp = .ok p) (hrsp : isRequest p = false)
    (hfit : FitsBoth cfgS cfgC p cap cap') (hb : b.length < 65536)
    (hmir : Mirror w.ctx cl) (hssn : cl.ssn < 0x7FFFFF)
    (hd1 : Distinct w.ctx.inter) (hd2 : Distinct cl.inter)
    (hsame : SameRequest w.ctx.inter cl.inter p.token)
    (hnonce : w.ctx.echo = .verify ∨ isObserve p.opts = true ∨ cl.nonce = w.ctx.nonce)
    (hnotif : isObserve p.opts = true → cl.notifInit = true → cl.notifNum < w.ctx.ssn) :
    ∃ cl', oscore2coap cfgC C b cap' cl = (.ok (encPkt (receivedResponse p)), cl') ∧
      (isObserve p.opts = false → ¬∃ r, Outstanding cl'.inter p.token r) ∧
      (isObserve p.opts = true → cl'.inter = cl.inter ∧ cl'.notifNum = w.ctx.ssn) := by
  obtain ⟨cl', h1, h2, h3, -⟩ := response_recovered_builds cfgS cfgC C hC nvmW inp b cap cap' w w' cl p hsend hp hrsp hfit.car
    hfit.receivable _ (uriPathCreate_eq hfit.rUri) hb hmir hssn hd1 hd2 hsame hnonce hnotif
    (Nat.le_trans (encPkt_recovered false p) hfit.rcv)
  exact ⟨cl', h1, h2, h3⟩

/-- **C93** The configuration does not show on the wire: if two builds protect the same message with contexts of the same
identity, number, nonce and outstanding request, they send the same packet. -/
theorem C93_same_packet (cfg1 cfg2 : Cfg) (C : Crypto) (n1 n2 : Option Err) (inp b1 b2 : Bytes) (cap1 cap2 : Nat)
    (w1 w2 w1' w2' : World) (p : Pkt) (hp : coapDeserialize inp = .ok p)
    (h1 : coap2oscore cfg1 C n1 inp cap1 w1 = (.ok b1, w1')) (h2 : coap2oscore cfg2 C n2 inp cap2 w2 = (.ok b2, w2'))
    (hid : w1.ctx.senderId = w2.ctx.senderId ∧ w1.ctx.senderKey = w2.ctx.senderKey ∧ w1.ctx.commonIv = w2.ctx.commonIv ∧
      w1.ctx.idContext = w2.ctx.idContext)
    (hst : w1.ctx.ssn = w2.ctx.ssn ∧ w1.ctx.nonce = w2.ctx.nonce ∧ w1.ctx.echo = w2.ctx.echo)
    (hag : SameRecords w1.ctx.inter w2.ctx.inter) : b1 = b2 := by
  by_cases hack : p.type = 2 ∧ p.code = 0
  · have key : ∀ {cfg n cap w b w'}, coap2oscore cfg C n inp cap w = (.ok b, w') → b = inp := by
      intro cfg n cap w b w' h
      have he := coap2oscore_effect cfg C n inp cap w
      rw [h] at he
      simp only at he
      generalize hr : (R.ok b : R Bytes) = r at he
      cases he with
      | unchanged hn => exact absurd hr.symm (hn b)
      | emptyAck hf hp' hack' hcap => exact R.ok.inj hr
      | enc hf hp' hack' => rw [hp] at hp'; obtain rfl := R.ok.inj hp'; exact absurd hack hack'
    rw [key h1, key h2]
  · obtain ⟨v1, p1⟩ := protect_ok h1 hp hack
    obtain ⟨v2, p2⟩ := protect_ok h2 hp hack
    obtain ⟨i1, i2, i3, i4⟩ := hid
    obtain ⟨s1, s2, s3⟩ := hst
    have hpt : v1.pt = v2.pt := by
      have a := p1.pt
      have b := p2.pt
      unfold plaintextSetup at a b
      obtain ⟨x1, a1, a⟩ := R.bind_eq_ok.1 a
      obtain ⟨y1, a2, a⟩ := R.bind_eq_ok.1 a
      obtain ⟨x2, c1, b⟩ := R.bind_eq_ok.1 b
      obtain ⟨y2, c2, b⟩ := R.bind_eq_ok.1 b
      obtain rfl := (optionsSerialize_ok.1 a1).1
      obtain rfl := (optionsSerialize_ok.1 c1).1
      obtain rfl := (memcpyS_ok.1 a2).1
      obtain rfl := (memcpyS_ok.1 c2).1
      split at a
      · rename_i hpl
        rw [if_pos hpl] at b
        split at a
        · cases a
        · split at b
          · cases b
          · exact (R.ok.inj a).symm.trans (R.ok.inj b)
      · rename_i hpl
        rw [if_neg hpl] at b
        split at a
        · cases a
        · split at b
          · cases b
          · obtain ⟨z1, a3, a⟩ := R.bind_eq_ok.1 a
            obtain ⟨z2, c3, b⟩ := R.bind_eq_ok.1 b
            obtain rfl := (memcpyS_ok.1 a3).1
            obtain rfl := (memcpyS_ok.1 c3).1
            simp only at a b
            split at a
            · cases a
            · split at b
              · cases b
              · split at a
                · cases a
                · split at b
                  · cases b
                  · exact (R.ok.inj a).symm.trans (R.ok.inj b)
    have hnew : v1.new = v2.new := by rw [p1.new, p2.new, s3]
    have hval : v1.piv = v2.piv ∧ v1.kid = v2.kid ∧ v1.kctx = v2.kctx ∧ v1.nonce = v2.nonce := by
      cases hn : v1.new with
      | true =>
        obtain ⟨a1, a2, a3, a4, -⟩ := p1.ifNew hn
        obtain ⟨c1, c2, c3, c4, -⟩ := p2.ifNew (hnew ▸ hn)
        rw [s1, c1] at a1
        have e := (R.ok.inj a1).symm
        rw [i1, i3, e, c4] at a4
        exact ⟨e, by rw [a2, c2, i1], by rw [a3, c3, i4], (R.ok.inj a4).symm⟩
      | false =>
        obtain ⟨a1, a2, a3, a4, -⟩ := p1.ifReuse hn
        obtain ⟨c1, c2, c3, c4, -⟩ := p2.ifReuse (hnew ▸ hn)
        exact ⟨by rw [a1, c1], by rw [a2, c2], by rw [a3, c3], by rw [a4, c4, s2]⟩
    obtain ⟨e1, e2, e3, e4⟩ := hval
    have hopt : v1.opt = v2.opt := by
      have := p1.opt
      rw [e1, e2, e3, p2.opt] at this
      exact (R.ok.inj this).symm
    have hrd : v1.rp = v2.rp ∧ v1.rk = v2.rk := by
      have a := p1.read
      have b := p2.read
      unfold readWrapper at a b
      split at a
      · rename_i hm
        rw [if_pos hm] at b
        obtain ⟨r, hr, ha⟩ := R.bind_eq_ok.1 a
        obtain ⟨s, hs, hb⟩ := R.bind_eq_ok.1 b
        simp only [R.pure_eq, R.ok.injEq, Prod.mk.injEq] at ha hb
        obtain ⟨m1, m2⟩ := get_outstanding hr
        obtain ⟨n1, n2⟩ := get_outstanding hs
        have := hag r s m1 n1 (by rw [m2, n2])
        rw [← ha.1, ← ha.2, ← hb.1, ← hb.2]; exact this
      · rename_i hm
        rw [if_neg hm] at b
        simp only [R.ok.injEq, Prod.mk.injEq] at a b
        rw [← a.1, ← a.2, ← b.1, ← b.2]; exact ⟨e1, e2⟩
    have haad : v1.aad = v2.aad := by
      have := p1.aad
      rw [hrd.1, hrd.2, p2.aad] at this
      exact (R.ok.inj this).symm
    have hct : v1.ct = v2.ct := by
      have := p1.ct
      rw [hpt, e4, haad, i2, p2.ct] at this
      exact (R.ok.inj this).symm
    have o1 := (coapSerialize_ok.1 p1.out).1
    have o2 := (coapSerialize_ok.1 p2.out).1
    rw [o1, o2, hct, hopt]

/-! ### conversations -/

/-- the contexts of two parties with different builds between two messages -/
structure Conv2 (cfgA cfgB : Cfg) (S : List Exch) (a b : Ctx) : Prop where
  ab : Mirror a b
  ba : Mirror b a
  idsA : IdsOk a
  idsB : IdsOk b
  syncA : a.echo = .synchronized
  syncB : b.echo = .synchronized
  agree : SameRecords a.inter b.inter
  trackA : Tracks cfgA.interactions a.inter S
  trackB : Tracks cfgB.interactions b.inter S
  winA : WinBelow a.window b.ssn
  winB : WinBelow b.window a.ssn
  nonce : S ≠ [] → a.nonce = b.nonce ∧ b.nonce.length = 13
  notifA : a.notifInit = true → a.notifNum < b.ssn
  notifB : b.notifInit = true → b.notifNum < a.ssn

theorem Conv2.swap {cfgA cfgB : Cfg} {S : List Exch} {a b : Ctx} (h : Conv2 cfgA cfgB S a b) : Conv2 cfgB cfgA S b a :=
  ⟨h.ba, h.ab, h.idsB, h.idsA, h.syncB, h.syncA, fun r s hr hs e => ⟨((h.agree s r hs hr e.symm).1).symm, ((h.agree s r hs hr e.symm).2).symm⟩,
    h.trackB, h.trackA, h.winB, h.winA, fun e => ⟨(h.nonce e).1.symm, by rw [(h.nonce e).1]; exact (h.nonce e).2⟩, h.notifB, h.notifA⟩

theorem conv2_transfer {cfgA cfgB : Cfg} {C : Crypto} (hC : C.Lawful) (ha : AeadTotal C) (hmaxA : cfgA.uriMax ≤ 255) (hmaxB : cfgB.uriMax ≤ 255)
    {m : CMsg} {a b : World} {S S' : List Exch} {p : Pkt} (h : Conv2 cfgA cfgB S a.ctx b.ctx) (hA : a.ctx.ssn < 0x7FFFFF)
    (hB : b.ctx.ssn < 0x7FFFFF) (hp : coapDeserialize m.inp = .ok p) (hs : FitsBoth cfgA cfgB p m.capS m.capR)
    (ho : outstandingAfter (min cfgA.interactions cfgB.interactions) S p = some S') :
    Delivered m (transfer2 cfgA cfgB C m a b).1 ∧
      Conv2 cfgA cfgB S' (transfer2 cfgA cfgB C m a b).2.1.ctx (transfer2 cfgA cfgB C m a b).2.2.ctx ∧
      (transfer2 cfgA cfgB C m a b).2.1.ctx.ssn ≤ a.ctx.ssn + 1 ∧ (transfer2 cfgA cfgB C m a b).2.2.ctx.ssn = b.ctx.ssn := by
  have hoA := outstandingAfter_mono (Nat.min_le_left _ _) ho
  have hoB := outstandingAfter_mono (Nat.min_le_right _ _) ho
  have hout13 : isRequest p = false → a.ctx.nonce.length = 13 := by
    intro hr
    obtain ⟨⟨r, hor⟩, -⟩ := h.trackA.response (cfg := cfgA) hr hoA hs.token
    have hS : S ≠ [] := by
      rintro rfl
      cases (h.trackA.mem _).2 ⟨r, hor.1, rfl⟩
    rw [(h.nonce hS).1]; exact (h.nonce hS).2
  obtain ⟨x, a', hsend, hxl⟩ := protect_succeeds hC ha h.idsA hA h.syncA hmaxA hp hs.toSendable hout13 h.trackA hoA
  obtain ⟨v, hv⟩ := protect_ok hsend hp hs.notAck
  have h13 : a'.ctx.nonce.length = 13 := by
    rw [hv.nonce']
    cases hn : v.new with
    | true => exact createNonce_length (hv.ifNew hn).2.2.2.1
    | false =>
      rw [(hv.ifReuse hn).2.2.2.1]
      refine hout13 ?_
      cases hr : isRequest p with
      | false => rfl
      | true =>
        have := (msgType_request hr).1
        have hn' := hv.new.symm.trans hn
        unfold needsNewPiv at hn'
        simp only [Bool.or_eq_false_iff, bne_eq_false_iff_eq] at hn'
        exact absurd hn'.1 this
  have hfr := coap2oscore_frame cfgA C none m.inp m.capS a
  rw [hsend] at hfr
  simp only at hfr
  have hself : coapDeserialize (encPkt p) = .ok p := deserialize_encPkt (hs.car.pktOk hv.range) hs.car.small
  have htr : transfer2 cfgA cfgB C m a b = ((oscore2coap cfgB C x m.capR b.ctx).1, a', { b with ctx := (oscore2coap cfgB C x m.capR b.ctx).2 }) := by
    unfold transfer2
    simp only [step, hsend]
  rw [htr]
  simp only
  have hM : Mirror a'.ctx b.ctx := ⟨by rw [hfr.senderId]; exact h.ab.id, by rw [hfr.senderKey]; exact h.ab.key, by rw [hfr.commonIv]; exact h.ab.iv⟩
  have hM' : Mirror b.ctx a'.ctx := ⟨by rw [hfr.recipientId]; exact h.ba.id, by rw [hfr.recipientKey]; exact h.ba.key, by rw [hfr.commonIv]; exact h.ba.iv⟩
  have hI : IdsOk a'.ctx := ⟨by rw [hfr.senderId]; exact h.idsA.id, by rw [hfr.idContext]; exact h.idsA.ctx, by rw [hfr.commonIv]; exact h.idsA.iv, by rw [hfr.senderKey]; exact h.idsA.key⟩
  have hu := uriPathCreate_eq hs.uri
  have huR := uriPathCreate_eq hs.rUri
  cases hr : isRequest p with
  | true =>
    have hq : ∀ rp, ssn2piv a.ctx.ssn = .ok rp → rp.length ≤ 3 := by
      intro rp h
      obtain ⟨q, hq, hql⟩ := ssn2piv_short (n := a.ctx.ssn) (by omega)
      rw [hq] at h
      rw [← R.ok.inj h]; exact hql
    obtain ⟨t2, uri, uriR, rp, rk, y, l, h1, h2, h3, h4, h5, h6, h7, h8, h9, h10, h11⟩ :=
      request_received_builds cfgA cfgB C hC none m.inp x m.capS m.capR a a' b.ctx p hsend hp hr hs.notAck hs.car hs.receivable hxl h.ab hB
        (fun _ => h.winB.valid) (fun uri rp rk t _ hrp hrk _ => by
          obtain ⟨t', ht', -⟩ := h.trackB.request (cfg := cfgB) hr hoB hs.rUri hmaxB hs.token (hq rp hrp) (kid := rk) (by rw [hrk]; exact h.idsA.id)
          exact ⟨_, t', huR, ht'⟩) hs.rcv
    rw [hu] at h6; rw [huR] at h7
    obtain rfl := R.ok.inj h6
    rw [← R.ok.inj h7] at h4
    have hkl : rk.length ≤ 4 := by rw [h8]; exact h.idsA.id
    obtain ⟨tA, htA, htkA⟩ := h.trackA.request (cfg := cfgA) hr hoA hs.uri hmaxA hs.token (hq rp h10) hkl
    obtain ⟨tB, htB, htkB⟩ := h.trackB.request (cfg := cfgB) hr hoB hs.rUri hmaxB hs.token (hq rp h10) hkl
    rw [h5] at htA; rw [h4] at htB
    obtain rfl := R.ok.inj htB
    rw [← R.ok.inj htA] at htkA
    have hag := h.agree.update hs.token h.trackA.distinct h.trackB.distinct htkA.distinct htkB.distinct h5 h4
    have hy : y.toNat ≤ a.ctx.ssn := by
      have hval := (ssn2piv_minimal h10).1.1
      rw [h9] at hval
      rw [← hval]; exact beVal_head_le y l
    have e1 : requestAnswer p b.ctx = .ok (encPkt p) := by unfold requestAnswer; rw [h.syncB]
    have e2 : requestAfter p b.ctx a'.ctx.nonce t2 a.ctx.ssn y.toNat =
        { b.ctx with nonce := a'.ctx.nonce, inter := t2, window := (b.ctx.window.update y.toNat).2 } := by unfold requestAfter; simp only [h.syncB]
    rw [h1, e1, e2]
    refine ⟨⟨p, hp, by rw [hr, recovered_true], fun _ => ⟨rfl, hself⟩⟩, ?_, by omega, rfl⟩
    exact ⟨⟨hM.id, hM.key, hM.iv⟩, ⟨hM'.id, hM'.key, hM'.iv⟩, hI, ⟨h.idsB.id, h.idsB.ctx, h.idsB.iv, h.idsB.key⟩, by rw [hfr.echo]; exact h.syncA,
      h.syncB, hag, htkA, htkB, by rw [hfr.window]; exact h.winA, by rw [h11]; exact h.winB.update hy, fun _ => ⟨rfl, h13⟩,
      by rw [hfr.notifInit, hfr.notifNum]; exact h.notifA, fun e => by rw [h11]; exact Nat.lt_succ_of_lt (h.notifB e)⟩
  | false =>
    obtain ⟨⟨r, hor⟩, hupA⟩ := h.trackA.response (cfg := cfgA) hr hoA hs.token
    obtain ⟨⟨s, hos⟩, hupB⟩ := h.trackB.response (cfg := cfgB) hr hoB hs.token
    have hS : S ≠ [] := by
      rintro rfl
      cases (h.trackA.mem _).2 ⟨r, hor.1, rfl⟩
    have hrs := h.agree r s hor.1 hos.1 (by rw [hor.2, hos.2])
    obtain ⟨cl', h1, -, -, uri, rp, rk, h2, h2u, h3, h4, h5, h6⟩ :=
      response_recovered_builds cfgA cfgB C hC none m.inp x m.capS m.capR a a' b.ctx p hsend hp hr hs.car hs.receivable _ huR hxl h.ab hB
        h.trackA.distinct h.trackB.distinct ⟨r, s, hor, hos, hrs.1, hrs.2⟩ (.inr (.inr (h.nonce hS).1.symm))
        (fun _ e => h.notifB e) (Nat.le_trans (encPkt_recovered false p) hs.rcv)
    rw [h1]
    simp only
    obtain ⟨tA, htA, htkA⟩ := hupA uri rp rk
    obtain ⟨tB, htB, htkB⟩ := hupB (Spec.uriPath p.opts) rp rk
    rw [h3] at htA; rw [h2] at htB
    rw [← R.ok.inj htA] at htkA
    rw [← R.ok.inj htB] at htkB
    have hag := h.agree.update hs.token h.trackA.distinct h.trackB.distinct htkA.distinct htkB.distinct h3 h2
    refine ⟨⟨p, hp, by rw [hr]; rfl, fun e => ?_⟩, ?_, by omega, ?_⟩
    · rcases e with e | e
      · rw [hr] at e; cases e
      · rw [receivedResponse_eq (fun o hom e6 => ?_)]
        · exact ⟨rfl, hself⟩
        · exfalso
          rw [List.any_eq_false] at e
          exact e o hom (by simp [e6])
    · cases hobs : isObserve p.opts with
      | false =>
        rw [h5 hobs]
        exact ⟨⟨hM.id, hM.key, hM.iv⟩, ⟨hM'.id, hM'.key, hM'.iv⟩, hI, ⟨h.idsB.id, h.idsB.ctx, h.idsB.iv, h.idsB.key⟩, by rw [hfr.echo]; exact h.syncA,
          h.syncB, hag, htkA, htkB, by rw [hfr.window]; exact h.winA, h.winB.mono (by omega), fun _ => ⟨rfl, h13⟩,
          by rw [hfr.notifInit, hfr.notifNum]; exact h.notifA, fun e => by have := h.notifB e; simp only; omega⟩
      | true =>
        obtain ⟨h7, h8⟩ := h6 hobs
        rw [h8] at htkB hag ⊢
        exact ⟨⟨hM.id, hM.key, hM.iv⟩, ⟨hM'.id, hM'.key, hM'.iv⟩, hI, ⟨h.idsB.id, h.idsB.ctx, h.idsB.iv, h.idsB.key⟩, by rw [hfr.echo]; exact h.syncA,
          h.syncB, hag, htkA, htkB, by rw [hfr.window]; exact h.winA, h.winB.mono (by omega), fun _ => ⟨rfl, h13⟩,
          by rw [hfr.notifInit, hfr.notifNum]; exact h.notifA, fun e => by simp only; omega⟩
    · cases hobs : isObserve p.opts with
      | false => rw [h5 hobs]
      | true => rw [(h6 hobs).2]

theorem converse2_delivered {cfgA cfgB : Cfg} {C : Crypto} (hC : C.Lawful) (ha : AeadTotal C) (hmaxA : cfgA.uriMax ≤ 255) (hmaxB : cfgB.uriMax ≤ 255)
    (ms : List CMsg) :
    ∀ (S : List Exch) (a b : World), Conv2 cfgA cfgB S a.ctx b.ctx → Proper2 cfgA cfgB S ms →
      a.ctx.ssn + ms.length ≤ 0x7FFFFF → b.ctx.ssn + ms.length ≤ 0x7FFFFF →
      (converse2 cfgA cfgB C a b ms).length = ms.length ∧ ∀ x ∈ ms.zip (converse2 cfgA cfgB C a b ms), Delivered x.1 x.2 := by
  induction ms with
  | nil => intro S a b _ _ _ _; exact ⟨rfl, fun x hx => by cases hx⟩
  | cons m ms ih =>
    intro S a b h hp hA hB
    obtain ⟨p, hp1, hs, S', ho, hp'⟩ := hp
    rw [List.length_cons] at hA hB
    unfold converse2
    cases hf : m.fromA with
    | true =>
      rw [hf] at hs
      simp only [if_true] at hs ⊢
      obtain ⟨h1, h2, h3, h4⟩ := conv2_transfer hC ha hmaxA hmaxB h (by omega) (by omega) hp1 hs ho
      obtain ⟨i1, i2⟩ := ih S' _ _ h2 hp' (by omega) (by omega)
      refine ⟨by rw [List.length_cons, List.length_cons, i1], ?_⟩
      rw [List.zip_cons_cons]
      rintro x hx
      rcases List.mem_cons.1 hx with rfl | hx
      · exact h1
      · exact i2 x hx
    | false =>
      rw [hf] at hs
      simp only [Bool.false_eq_true, if_false] at hs ⊢
      obtain ⟨h1, h2, h3, h4⟩ := conv2_transfer hC ha hmaxB hmaxA h.swap (by omega) (by omega) hp1 hs (by rw [Nat.min_comm]; exact ho)
      obtain ⟨i1, i2⟩ := ih S' _ _ h2.swap hp' (by omega) (by omega)
      refine ⟨by rw [List.length_cons, List.length_cons, i1], ?_⟩
      rw [List.zip_cons_cons]
      rintro x hx
      rcases List.mem_cons.1 hx with rfl | hx
      · exact h1
      · exact i2 x hx

/-- **C93** Mirrored parameters give mirrored contexts on differently configured builds. -/
theorem C93_mirrored {cfgA cfgB : Cfg} {C : Crypto} (hC : C.Lawful) (hiA : 50 ≤ cfgA.infoMax) (hiB : 50 ≤ cfgB.infoMax)
    {p q : InitParams} {nv nv' : R Nat} {jn je jn' je' : Bytes} {a b : Ctx} (hm : MirroredParams p q)
    (ha : contextInit cfgA C p nv jn je = .ok a) (hb : contextInit cfgB C q nv' jn' je' = .ok b) :
    a.senderKey = b.recipientKey ∧ a.recipientKey = b.senderKey ∧ a.commonIv = b.commonIv ∧
      a.senderId = b.recipientId ∧ a.recipientId = b.senderId ∧ a.idContext = b.idContext := by
  obtain ⟨k1, k2, k3⟩ := C28_keys hC hiA ha
  obtain ⟨l1, l2, l3⟩ := C28_keys hC hiB hb
  have hk : ∀ id s n, rfc8613Kdf C.hmac q id s n = rfc8613Kdf C.hmac p id s n := by
    intro id s n; unfold rfc8613Kdf; rw [hm.secret, hm.salt, hm.idContext]
  rw [hk] at l1 l2 l3
  obtain ⟨iv, rk, ssn, sk, _, _, _, _, _, _, _, rfl⟩ := contextInit_ok ha
  obtain ⟨iv', rk', ssn', sk', _, _, _, _, _, _, _, rfl⟩ := contextInit_ok hb
  exact ⟨by rw [k1, l2, hm.recipient], by rw [k2, l1, hm.sender], by rw [k3, l3], hm.recipient.symm, hm.sender.symm, hm.idContext.symm⟩

/-- **C93** Two parties whose libraries are built with different configurations – buffer sizes, number of interactions,
replay window, storage – talk to each other: any sequence of requests, responses, observations and notifications, from
either side and in any order, of which every message fits both builds when its turn comes, and every message of which is
delivered before the next is sent.  Every message is protected, and the other side gets it.

`_partial`: for the same reasons as C64. -/
theorem C93_conversation_partial {cfgA cfgB : Cfg} {C : Crypto} (hC : C.Lawful) (haead : AeadTotal C)
    (hmaxA : cfgA.uriMax ≤ 255) (hmaxB : cfgB.uriMax ≤ 255) (hiA : 50 ≤ cfgA.infoMax) (hiB : 50 ≤ cfgB.infoMax)
    {p q : InitParams} (hm : MirroredParams p q) (hpf : p.fresh = true) (hqf : q.fresh = true)
    (h1 : p.senderId.length ≤ 4) (h2 : p.recipientId.length ≤ 4) (h3 : p.idContext.length ≤ 10)
    {nv nv' : R Nat} {jn je jn' je' : Bytes} {a b : Ctx}
    (ha : contextInit cfgA C p nv jn je = .ok a) (hb : contextInit cfgB C q nv' jn' je' = .ok b)
    (nvmA nvmB : Nat) (logA logB : List EncCall)
    (ms : List CMsg) (hp : Proper2 cfgA cfgB [] ms) (hl : ms.length ≤ 0x7FFFFF) :
    (converse2 cfgA cfgB C ⟨a, nvmA, logA⟩ ⟨b, nvmB, logB⟩ ms).length = ms.length ∧
      ∀ x ∈ ms.zip (converse2 cfgA cfgB C ⟨a, nvmA, logA⟩ ⟨b, nvmB, logB⟩ ms), Delivered x.1 x.2 := by
  have idA := idsOk_of_params hC hiA ha h1 h3
  have idB := idsOk_of_params hC hiB hb (by rw [hm.sender]; exact h2) (by rw [hm.idContext]; exact h3)
  obtain ⟨k1, k2, k3, k4, k5, -⟩ := C93_mirrored hC hiA hiB hm ha hb
  obtain ⟨iv, rk, ssn, sk, _, _, _, _, _, hs, _, rfl⟩ := contextInit_ok ha
  obtain ⟨iv', rk', ssn', sk', _, _, _, _, _, hs', _, rfl⟩ := contextInit_ok hb
  rw [hpf] at hs; rw [hqf] at hs'
  simp only [ssnInit, if_true, R.ok.injEq] at hs hs'
  subst hs; subst hs'
  refine converse2_delivered hC haead hmaxA hmaxB ms [] _ _ ⟨⟨k4.symm, k1.symm, k3.symm⟩, ⟨k5, k2, k3⟩, idA, idB, by simp [hpf], by simp [hqf],
    ?_, tracks_init _, tracks_init _, .init _, .init _, fun h => (h rfl).elim, fun h => (Bool.false_ne_true h).elim, fun h => (Bool.false_ne_true h).elim⟩ hp (by simp only; omega) (by simp only; omega)
  intro r s hr
  unfold Table.init at hr
  cases (List.mem_replicate.1 hr).2

/-- **C93** after EDHOC (with or without the same EDHOC configuration): the contexts of an honest run, on two builds. -/
theorem C93_edhoc_partial {S : Edhoc.Setup} {A : Edhoc.Agreed} (H : S.Honest A)
    (hm4 : S.cfgI.message4 = false ∧ S.cfgR.message4 = false) (hcI : Edhoc.cIStored S.i.cI = S.i.cI)
    (hid : S.i.cI.length ≤ 4 ∧ S.r.cR.length ≤ 4) (idContext : Bytes) (hctx : idContext.length ≤ 10)
    (haead : AeadTotal S.C.toCrypto) :
    ∃ m1 m2 m3 oI oR nI nR prk p q,
      Edhoc.initiatorRun S.cfgI S.C S.i S.credsR S.crBuf S.L (Edhoc.netOf [m2]) = (.ok oI, nI) ∧ nI.sent = [m1, m3] ∧
      Edhoc.responderRun S.cfgR S.C S.r S.credsI S.cICap S.L (Edhoc.netOf [m1, m3]) = (.ok oR, nR) ∧ nR.sent = [m2] ∧
      oI.prkOut = some prk ∧
      Edhoc.oscoreParams S.cfgI S.C prk oI.cR S.i.cI idContext = .ok p ∧
      Edhoc.oscoreParams S.cfgR S.C oR.prkOut oR.cI S.r.cR idContext = .ok q ∧
      ∀ (cfgA cfgB : Cfg) (nv nv' : R Nat) (jn je jn' je' : Bytes), 0 < cfgA.interactions → 50 ≤ cfgA.infoMax → cfgA.uriMax ≤ 255 →
        0 < cfgB.interactions → 50 ≤ cfgB.infoMax → cfgB.uriMax ≤ 255 →
        ∃ a b, contextInit cfgA S.C.toCrypto p nv jn je = .ok a ∧ contextInit cfgB S.C.toCrypto q nv' jn' je' = .ok b ∧
          ∀ ms, Proper2 cfgA cfgB [] ms → ms.length ≤ 0x7FFFFF →
            (converse2 cfgA cfgB S.C.toCrypto ⟨a, 0, []⟩ ⟨b, 0, []⟩ ms).length = ms.length ∧
            ∀ x ∈ ms.zip (converse2 cfgA cfgB S.C.toCrypto ⟨a, 0, []⟩ ⟨b, 0, []⟩ ms), Delivered x.1 x.2 := by
  obtain ⟨m1, m2, m3, oI, oR, nI, nR, prk, p, q, h1, h2, h3, h4, h5, h6, h7, h8, h9⟩ :=
    Edhoc.C57_partial H hm4 hcI ⟨by omega, by omega⟩ idContext (by omega)
  refine ⟨m1, m2, m3, oI, oR, nI, nR, prk, p, q, h1, h2, h3, h4, h5, h6, h7, ?_⟩
  intro cfgA cfgB nv nv' jn je jn' je' hrA hiA hmA hrB hiB hmB
  obtain ⟨a, -, ha, -, -⟩ := h9 cfgA nv nv' jn je jn' je' hrA hiA
  obtain ⟨-, b, -, hb, -⟩ := h9 cfgB nv nv' jn je jn' je' hrB hiB
  refine ⟨a, b, ha, hb, fun ms hp hl => ?_⟩
  have e1 := Edhoc.oscoreParams_rfc (cfg := S.cfgI) H.lawful prk oI.cR S.i.cI idContext
  have e2 := Edhoc.oscoreParams_rfc (cfg := S.cfgR) H.lawful oR.prkOut oR.cI S.r.cR idContext
  rw [h6] at e1
  rw [h7] at e2
  have e1 := R.ok.inj e1
  have e2 := R.ok.inj e2
  refine C93_conversation_partial H.lawful.base haead hmA hmB hiA hiB h8 (by rw [e1]) (by rw [e2]) ?_ (by rw [e1]; exact hid.1) (by rw [e1]; exact hctx) ha hb 0 0 [] [] ms hp hl
  rw [← h8.recipient, e2]; exact hid.2

/-- **C93** With one configuration this is C64: the conversations are the same. -/
theorem C93_same_build (cfg : Cfg) (C : Crypto) (ms : List CMsg) :
    ∀ a b : World, converse2 cfg cfg C a b ms = converse cfg C a b ms := by
  induction ms with
  | nil => intro a b; rfl
  | cons m ms ih =>
    intro a b
    have e : ∀ x y, transfer2 cfg cfg C m x y = transfer cfg C m x y := fun _ _ => rfl
    unfold converse2 converse
    simp only [e, ih]

/-! ### non-vacuity -/

/-- a build for a small device: smaller buffers, a larger replay window, two interactions, no storage -/
def exCfgSmall : Cfg :=
  { maxPlaintext := 128, eOptBuf := 80, iOptBuf := 60, uriMax := 12, interactions := 2, windowSize := 16, nvm := false, infoMax := 60 }

def exServerSmall : Ctx := initOr exCfgSmall (exServerParams true) (.ok 0) exJunk

theorem exServerSmall_init : contextInit exCfgSmall toyCrypto (exServerParams true) (.ok 0) (List.replicate 13 0) exJunk
    = .ok exServerSmall := by decide +kernel

theorem ex_sendable (cfg : Cfg) (h : cfg = exCfg ∨ cfg = exCfgSmall) :
    ∀ inp ∈ [exPost, exRsp, exGet2, exRsp2, exObs, exNotif], Sendable cfg (pktOf inp) 256 256 := by
  intro inp hi
  simp only [List.mem_cons, List.not_mem_nil, or_false] at hi
  rcases h with rfl | rfl <;> rcases hi with rfl | rfl | rfl | rfl | rfl | rfl
  all_goals
    constructor
    · constructor
      · constructor <;> decide +kernel
      all_goals decide +kernel
    all_goals decide +kernel

theorem ex_fits (cfgS cfgR : Cfg) (h1 : cfgS = exCfg ∨ cfgS = exCfgSmall) (h2 : cfgR = exCfg ∨ cfgR = exCfgSmall) :
    ∀ inp ∈ [exPost, exRsp, exGet2, exRsp2, exObs, exNotif], FitsBoth cfgS cfgR (pktOf inp) 256 256 := by
  intro inp hi
  refine ⟨ex_sendable cfgS h1 inp hi, ?_, ?_, ?_⟩
  all_goals
    simp only [List.mem_cons, List.not_mem_nil, or_false] at hi
    rcases h2 with rfl | rfl <;> rcases hi with rfl | rfl | rfl | rfl | rfl | rfl <;> decide +kernel

theorem exTalk_proper2 : Proper2 exCfg exCfgSmall [] exTalk := by
  have hd : ∀ inp ∈ [exPost, exRsp, exGet2, exRsp2, exObs, exNotif], coapDeserialize inp = .ok (pktOf inp) := by
    intro inp hi
    simp only [List.mem_cons, List.not_mem_nil, or_false] at hi
    rcases hi with rfl | rfl | rfl | rfl | rfl | rfl <;> exact R.eq_getD _ (by decide +kernel)
  have t : ∀ {S : List Exch} {m : CMsg} {ms : List CMsg} {S' : List Exch},
      m.inp ∈ [exPost, exRsp, exGet2, exRsp2, exObs, exNotif] → m.capS = 256 → m.capR = 256 →
      outstandingAfter (min exCfg.interactions exCfgSmall.interactions) S (pktOf m.inp) = some S' →
      Proper2 exCfg exCfgSmall S' ms → Proper2 exCfg exCfgSmall S (m :: ms) := by
    intro S m ms S' hm h1 h2 ho hp
    refine ⟨_, hd _ hm, ?_, S', ho, hp⟩
    rw [h1, h2]
    split
    · exact ex_fits _ _ (.inl rfl) (.inr rfl) _ hm
    · exact ex_fits _ _ (.inr rfl) (.inl rfl) _ hm
  unfold exTalk
  refine t (by decide) rfl rfl (S' := [([0x4A], [0x74, 0x76], false)]) (by decide +kernel) ?_
  refine t (by decide) rfl rfl (S' := []) (by decide +kernel) ?_
  refine t (by decide) rfl rfl (S' := [([0x4B], [0x74, 0x32], false)]) (by decide +kernel) ?_
  refine t (by decide) rfl rfl (S' := []) (by decide +kernel) ?_
  refine t (by decide) rfl rfl (S' := [([0x4A], [0x74, 0x76], true)]) (by decide +kernel) ?_
  refine t (by decide) rfl rfl (S' := [([0x4A], [0x74, 0x76], true)]) (by decide +kernel) ?_
  refine t (by decide) rfl rfl (S' := [([0x4B], [0x74, 0x32], false), ([0x4A], [0x74, 0x76], true)]) (by decide +kernel) ?_
  refine t (by decide) rfl rfl (S' := [([0x4B], [0x74, 0x32], false), ([0x4A], [0x74, 0x76], true)]) (by decide +kernel) ?_
  exact t (by decide) rfl rfl (S' := [([0x4A], [0x74, 0x76], true)]) (by decide +kernel) trivial

/-- the hypotheses of `C93_conversation_partial` are met -/
example : ∀ x ∈ exTalk.zip (converse2 exCfg exCfgSmall toyCrypto (exW exClient) (exW exServerSmall) exTalk), Delivered x.1 x.2 :=
  (C93_conversation_partial (p := exClientParams true) (q := exServerParams true) toyCrypto_lawful toyCrypto_total (by decide) (by decide)
    (by decide) (by decide) ⟨rfl, rfl, rfl, rfl, rfl⟩ rfl rfl (by decide) (by decide)
    (by decide) exClient_init exServerSmall_init 0 0 [] [] exTalk exTalk_proper2 (by decide)).2

/-- those of `C93_same_packet` too -/
example : (step exCfg toyCrypto (exW exClient) (.protect exPost 256 none)).1.isOk = true ∧
    (step exCfgSmall toyCrypto (exW exClient) (.protect exPost 256 none)).1 =
      (step exCfg toyCrypto (exW exClient) (.protect exPost 256 none)).1 := by decide +kernel

/-- those of `C93_request_partial` and `C93_response_partial`: what the two builds do with the first two messages -/
example : (transfer2 exCfg exCfgSmall toyCrypto ⟨true, exPost, 256, 256⟩ (exW exClient) (exW exServerSmall)).1 = .ok exPost := by
  decide +kernel

/-- POST with a payload of 150 bytes -/
def exLarge : Bytes := [0x41, 0x02, 0x12, 0x34, 0x4A, 0xB2, 0x74, 0x76, 0xFF] ++ List.replicate 150 0x41

/-- **C93 is false of messages that fit the sender only**: the build of the server is smaller, and the request that the
client's library protected is refused; the client, whose call succeeded, cannot know. -/
theorem C93_false_large :
    (transfer2 exCfg exCfg toyCrypto ⟨true, exLarge, 256, 256⟩ (exW exClient) (exW exServer)).1 = .ok exLarge ∧
    (step exCfg toyCrypto (exW exClient) (.protect exLarge 256 none)).1.isOk = true ∧
    (transfer2 exCfg exCfgSmall toyCrypto ⟨true, exLarge, 256, 256⟩ (exW exClient) (exW exServerSmall)).1 = .err .buffer_to_small := by
  decide +kernel

end Verif
