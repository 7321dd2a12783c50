import Verif.Props.Conversation
import Verif.Props.Echo
import Verif.Props.OscoreSafe
/-
C81: what is left behind by a call whose output did not fit, and whether the call can be repeated.
-/
namespace Verif
open Verif

/-! ### the output buffer does not influence the state -/

theorem M.bind_state {σ α β : Type} (m : M σ α) {f g : α → M σ β} (h : ∀ a s, (f a s).2 = (g a s).2) (s : σ) :
    ((m >>= f) s).2 = ((m >>= g) s).2 := by
  rw [M.run_bind, M.run_bind]
  rcases m s with ⟨r, s'⟩
  cases r with
  | ok a => exact h a s'
  | err e => rfl
  | ub => rfl

/-- **C81** What a call of `coap2oscore` leaves behind does not depend on the size of the output buffer: a call that
fails because the buffer is too small uses up the sequence number, stores it, and changes the table of exchanges exactly
as the successful call does. -/
theorem C81_state_protect (cfg : Cfg) (C : Crypto) (nvmW : Option Err) (inp : Bytes) (cap cap' : Nat) (w : World) :
    (step cfg C w (.protect inp cap nvmW)).2 = (step cfg C w (.protect inp cap' nvmW)).2 := by
  simp only [step]
  unfold coap2oscore
  refine M.bind_state _ (fun w _ => M.bind_state _ (fun _ _ => M.bind_state _ (fun p s => ?_) _) _) _
  split
  · rfl
  · unfold protectPkt
    refine M.bind_state _ (fun _ _ => M.bind_state _ (fun _ _ => M.bind_state _ (fun _ _ => M.bind_state _ (fun _ _ =>
      M.bind_state _ (fun x _ => ?_) _) _) _) _) _
    obtain ⟨ct, opt⟩ := x
    dsimp only
    rw [M.run_lift, M.run_lift]

theorem unprotect_state (A : Ctx → R Unit) (P : R (Pkt × List (Opt × Bytes))) (O : List (Opt × Bytes) → R OscOpt)
    (B : Pkt → R Unit) (U V : OscOpt → Pkt → M Ctx Pkt) (f g : Pkt → R Bytes) (c : Ctx) :
    ((do
      let c ← M.get
      M.lift (A c)
      let (p, t) ← M.lift P
      let o ← M.lift (O t)
      M.lift (B p)
      let out ← if isRequest p then U o p else V o p
      M.lift (f out) : M Ctx Bytes) c).2 =
    ((do
      let c ← M.get
      M.lift (A c)
      let (p, t) ← M.lift P
      let o ← M.lift (O t)
      M.lift (B p)
      let out ← if isRequest p then U o p else V o p
      M.lift (g out) : M Ctx Bytes) c).2 := by
  refine M.bind_state _ (fun _ _ => M.bind_state _ (fun _ _ => M.bind_state _ (fun x s => ?_) _) _) _
  obtain ⟨p, t⟩ := x
  refine M.bind_state _ (fun _ _ => M.bind_state _ (fun _ s => ?_) _) _
  dsimp only
  split
  · refine M.bind_state _ (fun _ _ => ?_) _
    rw [M.run_lift, M.run_lift]
  · refine M.bind_state _ (fun _ _ => ?_) _
    rw [M.run_lift, M.run_lift]

/-- **C81** What a call of `oscore2coap` leaves behind does not depend on the size of the output buffer: a message that
does not fit is marked as received exactly like one that was handed over. -/
theorem C81_state_unprotect (cfg : Cfg) (C : Crypto) (inp : Bytes) (cap cap' : Nat) (w : World) :
    (step cfg C w (.unprotect inp cap)).2 = (step cfg C w (.unprotect inp cap')).2 := by
  simp only [step]
  suffices h : (oscore2coap cfg C inp cap w.ctx).2 = (oscore2coap cfg C inp cap' w.ctx).2 by rw [h]
  unfold oscore2coap
  exact unprotect_state checkFreshness (coapParse inp) oscoreOptionParser
    (fun p => checkBufferSize cfg.maxPlaintext (sub32 p.payload.length 8)) (unprotectRequest cfg C) (unprotectResponse cfg C)
    (fun out => coapSerialize cfg out cap) (fun out => coapSerialize cfg out cap') w.ctx

/-! ### sending again -/

/-- repeating a request does not need a further place -/
theorem outstandingAfter_again {n : Nat} {S S' : List Exch} {p : Pkt} (hr : isRequest p = true)
    (ho : outstandingAfter n S p = some S') : outstandingAfter n S' p = some S' := by
  unfold outstandingAfter at ho ⊢
  rw [if_pos hr] at ho ⊢
  simp only at ho ⊢
  split at ho
  · rename_i hc
    cases ho
    rw [List.filter_cons_of_neg (by simp)]
    rw [List.filter_filter]
    simp only [Bool.and_self]
    rw [if_pos hc]
  · cases ho

theorem cacheEchoVal_again {d v : Bytes} {l : List Opt} (h : cacheEchoVal d l = .ok v) : cacheEchoVal v l = .ok v := by
  unfold cacheEchoVal at h ⊢
  cases hf : l.find? (fun o => o.num == optECHO) with
  | none => rw [hf] at h; cases h
  | some o =>
    rw [hf] at h
    simp only at h ⊢
    unfold memcpyS at h ⊢
    split at h
    · rename_i h0
      cases h; rw [if_pos h0]
    · rename_i h0
      obtain ⟨u, -, h2⟩ := R.bind_eq_ok.1 h
      cases h2
      rw [if_neg h0, checkBufferSize_ok (u := ()).2 (Nat.le_refl _)]; rfl

/-- the message ends the exchange: a response that is not a notification -/
def endsExchange (p : Pkt) : Prop := isRequest p = false ∧ p.opts.any (fun o => o.num == 6) = false

/-- **C81** (partial) Sending again.  A message that fits the configuration and may be sent could not be protected: the
output buffer (`cap` bytes) was too small, the sequence number could not be stored (`nvmW`), or the crypto library
failed (`C'`, any).  Repeating the call with
a buffer that is large enough and a working storage succeeds – if nothing was encrypted by the failed call, or if the
message is a request or a notification.  Missing: the response that ends an exchange, for which it is false once it was
encrypted (`C81_false_response`), and received messages (`C81_false_request`, `C81_false_received`). -/
theorem C81_send_partial {cfg : Cfg} {C C' : Crypto} (hC : C.Lawful) (ha : AeadTotal C) {m : CMsg} {w w1 : World} {p : Pkt} {S S' : List Exch}
    {cap : Nat} {nvmW : Option Err} {r : R Bytes}
    (hids : IdsOk w.ctx) (hssn : w.ctx.ssn + 1 < 0x7FFFFF) (hmax : cfg.uriMax ≤ 255)
    (hecho : w.ctx.echo = .verify → ∃ v, cacheEchoVal w.ctx.echoVal (redelta 0 (innerOpts (isRequest p) p.opts)) = .ok v)
    (hp : coapDeserialize m.inp = .ok p) (hs : Sendable cfg p m.capS m.capR) (hnl : isRequest p = false → w.ctx.nonce.length = 13)
    (ht : Tracks cfg.interactions w.ctx.inter S) (ho : outstandingAfter cfg.interactions S p = some S')
    (hfail : step cfg C' w (.protect m.inp cap nvmW) = (r, w1)) (hr : ∀ b, r ≠ .ok b)
    (hre : w1.log = w.log ∨ ¬endsExchange p) :
    ∃ b w2, step cfg C w1 (.protect m.inp m.capS none) = (.ok b, w2) := by
  have hfr := coap2oscore_frame cfg C' nvmW m.inp cap w
  have hef := coap2oscore_effect cfg C' nvmW m.inp cap w
  simp only [step] at hfail
  rw [hfail] at hfr hef
  simp only at hfr hef
  have hids' : IdsOk w1.ctx := ⟨by rw [hfr.senderId]; exact hids.id, by rw [hfr.idContext]; exact hids.ctx,
    by rw [hfr.commonIv]; exact hids.iv, by rw [hfr.senderKey]; exact hids.key⟩
  have hssn' : w1.ctx.ssn < 0x7FFFFF := by
    rcases hfr.ssn with h | h
    · rw [h.1]; omega
    · rw [h]; omega
  -- the table, the Echo value and the nonce afterwards
  have key : (w1.ctx.inter = w.ctx.inter ∨ (¬endsExchange p ∧ ∃ uri rp rk, uri = Spec.uriPath p.opts ∧ (isRequest p = true → rp.length ≤ 3 ∧ rk.length ≤ 4) ∧
        updateWrapper cfg w.ctx.inter (msgType p) p.token uri rp rk = .ok w1.ctx.inter)) ∧
      (w.ctx.echo = .verify → ∃ v, cacheEchoVal w1.ctx.echoVal (redelta 0 (innerOpts (isRequest p) p.opts)) = .ok v) ∧
      (isRequest p = false → w1.ctx.nonce.length = 13) := by
    cases hef with
    | unchanged _ => exact ⟨.inl rfl, hecho, hnl⟩
    | emptyAck _ hp' hack' _ =>
      rw [hp] at hp'; cases hp'; exact absurd hack' hs.notAck
    | @enc p' s pt ev r' _ hf hp' hack' hsp hlen hpt hev henc =>
      rw [hp] at hp'; cases hp'
      have hse : s.e = redelta 0 (innerOpts (isRequest p) p.opts) := by
        have hs' : optionSplit p = .ok (splitGo (isRequest p) 0 0 0 0 p.opts) := by
          unfold optionSplit maxOptionCount; rw [if_neg (by have := hs.count; omega)]
        have := (optionSplit_ok (coapDeserialize_wf hp).nums hs').2
        rw [hsp] at hs'
        cases hs'
        rw [this]
      have hev' : w.ctx.echo = .verify → ∃ v, cacheEchoVal ev (redelta 0 (innerOpts (isRequest p) p.opts)) = .ok v := by
        intro e
        rw [if_pos e, hse] at hev
        exact ⟨ev, cacheEchoVal_again hev⟩
      have huri := (C33_uri_path_partial p.opts cfg.uriMax (by have := hs.uri; omega)).1 hs.uri
      cases henc with
      | unchanged _ => exact ⟨.inl rfl, hev', hnl⟩
      | consumed _ _ => exact ⟨.inl rfl, hev', hnl⟩
      | @fresh piv nonce rp rk aad ct opt t hn hw hpiv hnonce hopt hread haad hct hres =>
        refine ⟨?_, hev', fun _ => createNonce_length hnonce⟩
        rcases hres with ⟨-, uri, hu, hupd⟩ | ⟨-, rfl⟩
        · right
          refine ⟨hre.resolve_left ?_, uri, rp, rk, ?_, ?_, hupd⟩
          · intro e
            have := congrArg List.length e
            simp [withEcho] at this
          · rw [huri] at hu; exact (R.ok.inj hu).symm
          · intro hq
            have := msgType_request hq
            unfold readWrapper at hread
            rw [if_neg (fun e => e.elim this.1 this.2)] at hread
            cases hread
            obtain ⟨piv', hpiv', hpl⟩ := ssn2piv_short (n := w.ctx.ssn) (by omega)
            have : piv' = piv := by rw [show (withEcho w ev).ctx.ssn = w.ctx.ssn from rfl, hpiv'] at hpiv; exact R.ok.inj hpiv
            exact ⟨this ▸ hpl, hids.id⟩
        · exact .inl rfl
      | @reuse rp rk aad ct opt t hn hopt hread haad hct hres =>
        refine ⟨?_, hev', hnl⟩
        rcases hres with ⟨-, uri, hu, hupd⟩ | ⟨-, rfl⟩
        · exfalso
          have hlog := hre.resolve_left (by
            intro e
            have := congrArg List.length e
            simp [withEcho] at this)
          unfold needsNewPiv at hn
          simp only [Bool.or_eq_false_iff, bne_eq_false_iff_eq] at hn
          refine hlog ?_
          cases hq : isRequest p with
          | true => exact absurd hn.1 (msgType_request hq).1
          | false =>
            refine ⟨hq, ?_⟩
            have := isObserve_msgType hq
            cases h6 : p.opts.any (fun o => o.num == 6) with
            | false => rfl
            | true =>
              have h7 := this.1 h6
              rw [hn.1] at h7; cases h7
        · exact .inl rfl
  obtain ⟨k1, k2, k3⟩ := key
  have hT : ∃ S1 S2, Tracks cfg.interactions w1.ctx.inter S1 ∧ outstandingAfter cfg.interactions S1 p = some S2 := by
    rcases k1 with k1 | ⟨hne, uri, rp, rk, rfl, hsm, hupd⟩
    · exact ⟨S, S', by rw [k1]; exact ht, ho⟩
    · cases hq : isRequest p with
      | true =>
        obtain ⟨t', ht', hTr⟩ := ht.request (cfg := cfg) hq ho hs.uri hmax hs.token (hsm hq).1 (hsm hq).2
        rw [hupd] at ht'
        exact ⟨S', S', by rw [R.ok.inj ht']; exact hTr, outstandingAfter_again hq ho⟩
      | false =>
        obtain ⟨-, h2⟩ := ht.response (cfg := cfg) hq ho hs.token
        obtain ⟨t', ht', hTr⟩ := h2 (Spec.uriPath p.opts) rp rk
        rw [hupd] at ht'
        have hob : p.opts.any (fun o => o.num == 6) = true := by
          cases h : p.opts.any (fun o => o.num == 6) with
          | true => rfl
          | false => exact absurd ⟨hq, h⟩ hne
        have hSS : S' = S := by
          unfold outstandingAfter at ho
          rw [hq, hob] at ho
          simp only [Bool.false_eq_true, if_false, if_true] at ho
          split at ho
          · exact (Option.some.inj ho).symm
          · cases ho
        subst hSS
        exact ⟨S', S', by rw [R.ok.inj ht']; exact hTr, ho⟩
  obtain ⟨S1, S2, hT1, hT2⟩ := hT
  obtain ⟨b, w2, h, -⟩ := protect_succeeds_echo hC ha (m := m) hids' hssn' hmax (fun e => k2 (by rw [← hfr.echo]; exact e)) hp hs k3 hT1 hT2
  exact ⟨b, w2, h⟩

/-- **C81 is false (1)**: a response that ends an exchange was encrypted, but the output buffer was too small.  The
exchange counts as finished: whatever the buffer, no response with this token can be protected any more. -/
theorem C81_false_response {cfg : Cfg} {C : Crypto} {inp b : Bytes} {cap cap' : Nat} {nvmW : Option Err} {w : World} {p : Pkt}
    (hd : Distinct w.ctx.inter) (hp : coapDeserialize inp = .ok p) (hack : ¬(p.type = 2 ∧ p.code = 0)) (hend : endsExchange p)
    (htok : p.token.length ≤ 8) (hok : (step cfg C w (.protect inp cap' nvmW)).1 = .ok b) (hcap : cap < b.length) :
    (∀ b', (step cfg C w (.protect inp cap nvmW)).1 ≠ .ok b') ∧
      ∀ inp' p' cap'' nvmW' b', coapDeserialize inp' = .ok p' → ¬(p'.type = 2 ∧ p'.code = 0) → isRequest p' = false → p'.token = p.token →
        (step cfg C (step cfg C w (.protect inp cap nvmW)).2 (.protect inp' cap'' nvmW')).1 ≠ .ok b' := by
  have key : ∀ {cap b}, (step cfg C w (.protect inp cap nvmW)).1 = .ok b →
      ∃ v, ProtOk cfg C nvmW p cap w b (step cfg C w (.protect inp cap nvmW)).2 v := by
    intro cap b h
    simp only [step] at h ⊢
    refine protect_ok (Prod.ext h rfl) hp hack
  obtain ⟨v, hv⟩ := key hok
  have hty : msgType p = .response := by
    rcases msgType_response hend.1 with h | h
    · exact h
    · have := (isObserve_msgType hend.1).2 h
      have h2 : isObserve p.opts = false := hend.2
      rw [h2] at this; cases this
  constructor
  · intro b' h
    obtain ⟨v', hv'⟩ := key h
    have hc : v'.ct = v.ct ∧ v'.opt = v.opt := by
      have e1 : v'.pt = v.pt := by have := hv'.pt; rw [hv.pt] at this; exact (R.ok.inj this).symm
      have hn : v'.new = v.new := by rw [hv'.new, hv.new]
      have e2 : v'.piv = v.piv ∧ v'.kid = v.kid ∧ v'.kctx = v.kctx ∧ v'.nonce = v.nonce := by
        cases h : v.new with
        | true =>
          obtain ⟨a1, a2, a3, a4, -⟩ := hv.ifNew h
          obtain ⟨b1, b2, b3, b4, -⟩ := hv'.ifNew (hn.trans h)
          have : v'.piv = v.piv := by rw [a1] at b1; exact (R.ok.inj b1).symm
          refine ⟨this, b2.trans a2.symm, b3.trans a3.symm, ?_⟩
          rw [this, a4] at b4; exact (R.ok.inj b4).symm
        | false =>
          obtain ⟨a1, a2, a3, a4, -⟩ := hv.ifReuse h
          obtain ⟨b1, b2, b3, b4, -⟩ := hv'.ifReuse (hn.trans h)
          exact ⟨b1.trans a1.symm, b2.trans a2.symm, b3.trans a3.symm, b4.trans a4.symm⟩
      obtain ⟨e2, e3, e4, e5⟩ := e2
      have e6 : v'.rp = v.rp ∧ v'.rk = v.rk := by
        have := hv'.read; rw [e2, e3, hv.read] at this
        exact ⟨(congrArg Prod.fst (R.ok.inj this)).symm, (congrArg Prod.snd (R.ok.inj this)).symm⟩
      have e7 : v'.aad = v.aad := by have := hv'.aad; rw [e6.1, e6.2, hv.aad] at this; exact (R.ok.inj this).symm
      constructor
      · have := hv'.ct; rw [e1, e5, e7, hv.ct] at this; exact (R.ok.inj this).symm
      · have := hv'.opt; rw [e2, e3, e4, hv.opt] at this; exact (R.ok.inj this).symm
    have h1 := coapSerialize_ok.1 hv.out
    have h2 := coapSerialize_ok.1 hv'.out
    rw [hc.1, hc.2, ← h1.1] at h2
    have := h2.2.1
    rw [h2.1] at this
    omega
  · intro inp' p' cap'' nvmW' b' hp' hack' hq' ht' h
    rw [C81_state_protect cfg C nvmW inp cap cap' w] at h
    generalize hw1 : (step cfg C w (.protect inp cap' nvmW)).2 = w1 at h hv
    simp only [step] at h
    obtain ⟨v', hv'⟩ := protect_ok (Prod.ext h rfl) hp' hack'
    have hr := hv'.read
    unfold readWrapper at hr
    rw [if_pos (msgType_response hq')] at hr
    obtain ⟨x, hx, -⟩ := R.bind_eq_ok.1 hr
    have hu := hv.upd
    unfold updateWrapper at hu
    rw [hty] at hu
    simp only [reduceCtorEq, or_self, if_false, if_true] at hu
    have hout : ∃ r, Outstanding w.ctx.inter p.token r := by
      apply Classical.byContradiction
      intro hno
      rw [(C29_remove _ _ htok hd).1 hno] at hu; cases hu
    obtain ⟨t', h1, h2, -, h4⟩ := (C29_remove _ _ htok hd).2 hout
    rw [h1] at hu
    have e := R.ok.inj hu
    rw [hv.inter', ← e, ht'] at hx
    have hO := ((C29_get _ _ htok h2).1 x).1 hx
    exact ((h4 x).1 hO.1).2 hO.2

/-- **C81 is false (2)**: a request whose sequence number fits one byte reached the server, but the output buffer was too
small.  It counts as received: this request is never delivered, whatever happens afterwards. -/
theorem C81_false_request (cfg : Cfg) (C : Crypto) (prm : InitParams) (nv : R Nat) (jn je : Bytes)
    (c₀ : Ctx) (nvm : Nat) (log : List EncCall) (hW : 0 < cfg.windowSize)
    (hinit : contextInit cfg C prm nv jn je = .ok c₀)
    (before after : List Op) (inp : Bytes) (cap cap' cap'' : Nat) (out out' : Bytes)
    (p : Pkt) (t : List (Opt × Bytes)) (o : OscOpt) (piv : Bytes)
    (hp : coapParse inp = .ok (p, t)) (hreq : isRequest p = true)
    (ho : oscoreOptionParser t = .ok o) (hpiv : o.piv.read = .ok piv) (hone : piv.length = 1)
    (hok : (step cfg C (run cfg C ⟨c₀, nvm, log⟩ before) (.unprotect inp cap')).1 = .ok out) :
    let w := run cfg C (step cfg C (run cfg C ⟨c₀, nvm, log⟩ before) (.unprotect inp cap)).2 after
    (step cfg C w (.unprotect inp cap'')).1 ≠ .ok out' := by
  intro w
  have h := C04_no_replay_partial cfg C prm nv jn je c₀ nvm log hW hinit before after inp inp cap' cap'' out p p t t o o piv piv
    hp hreq ho hpiv hp hreq ho hpiv rfl (.inl hone) hok
  rw [C81_state_unprotect cfg C inp cap' cap] at h
  exact h.1 out'

/-- **C81 is false (3)**: likewise a notification that did not fit is never delivered, whatever happens afterwards. -/
theorem C81_false_notification (cfg : Cfg) (C : Crypto) (w : World) (after : List Op) (inp : Bytes) (cap cap' cap'' n : Nat) (out out' : Bytes)
    (hn : notifNumber inp = some n) (hok : (step cfg C w (.unprotect inp cap')).1 = .ok out) :
    (step cfg C (run cfg C (step cfg C w (.unprotect inp cap)).2 after) (.unprotect inp cap'')).1 ≠ .ok out' := by
  rw [C81_state_unprotect cfg C inp cap cap']
  obtain ⟨h3, h4, -⟩ := (step_notif cfg C w (.unprotect inp cap')).2 inp cap' out n rfl hok hn
  have hi := run_induction (cfg := cfg) (C := C) (P := fun w => w.ctx.notifInit = true ∧ n ≤ w.ctx.notifNum) (fun w op h => by
    rcases (step_notif cfg C w op).1 with ⟨ha, hb⟩ | ⟨ha, hb⟩
    · exact ⟨by rw [ha]; exact h.1, by rw [hb]; exact h.2⟩
    · exact ⟨ha, Nat.le_of_lt (Nat.lt_of_le_of_lt h.2 (hb h.1))⟩) (w := (step cfg C w (.unprotect inp cap')).2) ⟨h3, by omega⟩ after
  intro hh
  have := (step_notif cfg C _ (.unprotect inp cap'')).2 inp cap'' out' n rfl hh hn
  have := this.2.2 hi.1
  omega

/-- **C81 is false (4)**: a response arrived at the client, but the output buffer was too small; the same response with a
large buffer is then refused because the exchange counts as finished (with the buffer of 256 bytes at once, it is delivered). -/
theorem C81_false_received :
    let b := sendOf exCfg (exW exClient) exGet
    let c1 := afterSend exCfg (exW exClient) exGet
    let rsp := sendOf exCfg (afterRecv exCfg (exW exServer) b) exRsp
    (step exCfg toyCrypto c1 (.unprotect rsp 256)).1 = .ok exRsp ∧
    (step exCfg toyCrypto c1 (.unprotect rsp 7)).1 = .err .buffer_to_small ∧
    (step exCfg toyCrypto (step exCfg toyCrypto c1 (.unprotect rsp 7)).2 (.unprotect rsp 256)).1 = .err .oscore_interaction_not_found := by
  decide +kernel

/-- the hypotheses of `C81_send_partial` are met: a POST with several options and a buffer of 20 bytes -/
example : ∃ b w2, step exCfg toyCrypto (step exCfg toyCrypto (exW exClient) (.protect exPost 20 none)).2 (.protect exPost 256 none) = (.ok b, w2) := by
  obtain ⟨p, hp, hs, S', ho, -⟩ := exTalk_proper
  have hq : ¬endsExchange p := by
    have : p = pktOf exPost := by unfold pktOf; rw [hp]; rfl
    rw [this]; unfold endsExchange; decide +kernel
  have hr : (step exCfg toyCrypto (exW exClient) (.protect exPost 20 none)).1 = .err .buffer_to_small := by decide +kernel
  have hi : IdsOk (exW exClient).ctx := by constructor <;> decide +kernel
  have hn : (exW exClient).ctx.nonce.length = 13 := by decide +kernel
  have he : (exW exClient).ctx.echo ≠ .verify := by decide +kernel
  have ht : (exW exClient).ctx.inter = Table.init exCfg.interactions := by decide +kernel
  have hl : (exW exClient).ctx.ssn + 1 < 0x7FFFFF := by decide +kernel
  have hT : Tracks exCfg.interactions (exW exClient).ctx.inter [] := by rw [ht]; exact tracks_init _
  generalize exW exClient = w at *
  rcases hw : step exCfg toyCrypto w (.protect exPost 20 none) with ⟨r, w1⟩
  rw [hw] at hr
  exact C81_send_partial (m := ⟨true, exPost, 256, 256⟩) toyCrypto_lawful toyCrypto_total hi hl
    (by decide) (fun h => absurd h he) hp hs (fun _ => hn) hT ho hw (fun b h => by rw [show r = .err .buffer_to_small from hr] at h; cases h) (.inr hq)

/-- a request for which 10 bytes are too few; the second call sends it -/
example : (step exCfg toyCrypto (exW exClient) (.protect exGet 10 none)).1 = .err .buffer_to_small ∧
    (step exCfg toyCrypto (step exCfg toyCrypto (exW exClient) (.protect exGet 10 none)).2 (.protect exGet 256 none)).1.isOk = true := by
  decide +kernel

/-- the response, sent with too small a buffer, cannot be sent afterwards -/
example :
    let s1 := afterRecv exCfg (exW exServer) (sendOf exCfg (exW exClient) exGet)
    (step exCfg toyCrypto s1 (.protect exRsp 256 none)).1.isOk = true ∧
    (step exCfg toyCrypto s1 (.protect exRsp 10 none)).1 = .err .buffer_to_small ∧
    (step exCfg toyCrypto (step exCfg toyCrypto s1 (.protect exRsp 10 none)).2 (.protect exRsp 256 none)).1 =
      .err .oscore_interaction_not_found := by
  decide +kernel

/-- the request of `C81_false_request`: delivered with 256 bytes, not delivered after a call with 6 bytes -/
example :
    let b := sendOf exCfg (exW exClient) exGet
    (step exCfg toyCrypto (exW exServer) (.unprotect b 256)).1 = .ok exGet ∧
    (step exCfg toyCrypto (exW exServer) (.unprotect b 6)).1 = .err .buffer_to_small ∧
    (step exCfg toyCrypto (step exCfg toyCrypto (exW exServer) (.unprotect b 6)).2 (.unprotect b 256)).1 =
      .err .oscore_replay_window_protection_error := by
  decide +kernel

/-- the notification of `C81_false_notification` -/
example : notifNumber exNotifPkt = some 0 ∧ (step exCfg toyCrypto exCliObs (.unprotect exNotifPkt 256)).1.isOk = true ∧
    (step exCfg toyCrypto exCliObs (.unprotect exNotifPkt 7)).1 = .err .buffer_to_small := by decide +kernel

end Verif
