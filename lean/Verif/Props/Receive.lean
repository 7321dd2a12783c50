import Verif.Lemmas.FrameLemmas
import Verif.Lemmas.CheckedLemmas
import Verif.Lemmas.CoapLemmas
import Verif.Lemmas.Examples
/-
Properties of incoming packets: C04 (replays), C05 (notifications), C06 (Echo after reboot),
C07 (recipient ID), C08 (authentication), C13 (exhaustion), C24 (plain CoAP).
-/
namespace Verif

/-! ## C08 -/

/-- **C08** For every context and every input: either `oscore2coap` fails and the whole context is
exactly as before, or the AEAD accepts the packet under the Recipient Key, with exactly the nonce and the additional
authenticated data that RFC 8613 prescribes for it in this state (`Checked`). -/
theorem C08_authentic_or_unchanged (cfg : Cfg) (C : Crypto) (inp : Bytes) (cap : Nat) (c : Ctx) :
    ((∀ out, (oscore2coap cfg C inp cap c).1 ≠ .ok out) ∧ (oscore2coap cfg C inp cap c).2 = c) ∨
    ∃ n a ct pt, Checked c inp n a ct ∧ C.aeadDec c.recipientKey n a 8 ct = some pt := by
  rcases authentic_or_unchanged cfg C inp cap c with h | ⟨pt, n, a, ct, h⟩
  · exact .inl h
  · exact .inr ⟨n, a, ct, pt, h⟩

/-- **C08** (the claim as stated) If the AEAD rejects the packet under the Recipient Key, with the nonce and the
additional authenticated data for it (`Rejected`), then `oscore2coap` does not return ok and every field of the context
(replay window, notification counter, SSN, Echo state, cached nonce, interactions) is unchanged. -/
theorem C08_forgery_changes_nothing (cfg : Cfg) (C : Crypto) (inp : Bytes) (cap : Nat) (c : Ctx) (hrej : Rejected C c inp) :
    (∀ out, (oscore2coap cfg C inp cap c).1 ≠ .ok out) ∧ (oscore2coap cfg C inp cap c).2 = c := by
  rcases authentic_or_unchanged cfg C inp cap c with h | ⟨pt, h⟩
  · exact h
  · exact absurd hrej (not_rejected h)

/-- non-vacuity: a forged packet (last byte changed) is rejected without a trace, the genuine one is
accepted -/
example : (oscore2coap exCfg toyCrypto ((sendOf exCfg (exW exClient) exGet).dropLast ++ [0]) 256 exServer)
    = (.err .unexpected_result_from_ext_lib, exServer) ∧
    (oscore2coap exCfg toyCrypto (sendOf exCfg (exW exClient) exGet) 256 exServer).1 = .ok exGet := by
  decide +kernel

/-! ## C07 -/

/-- **C07** A request whose KID is not the Recipient ID is rejected with
`oscore_kid_recipient_id_mismatch`, and the context is unchanged. -/
theorem C07_wrong_kid (cfg : Cfg) (C : Crypto) (inp : Bytes) (cap : Nat) (c : Ctx)
    (p : Pkt) (t : List (Opt × Bytes)) (o : OscOpt) (kid : Bytes)
    (hssn : c.ssn < 0x7FFFFF)
    (hp : coapParse inp = .ok (p, t)) (hreq : isRequest p = true)
    (ho : oscoreOptionParser t = .ok o) (hk : o.kid.read = .ok kid)
    (hsize : sub32 p.payload.length 8 ≤ cfg.maxPlaintext) (hne : kid ≠ c.recipientId) :
    oscore2coap cfg C inp cap c = (.err .oscore_kid_recipient_id_mismatch, c) := by
  have hf : checkFreshness c = .ok () := by
    unfold checkFreshness ssnOverflow; rw [if_neg (by omega)]
  have hb : checkBufferSize cfg.maxPlaintext (sub32 p.payload.length 8) = .ok () :=
    checkBufferSize_ok.2 hsize
  have hm : kidMatches c o = .ok false := by
    unfold kidMatches
    split
    · rfl
    · rw [hk]
      simp only [R.ok_bind, R.pure_eq, R.ok.injEq]
      cases hh : arrayEquals c.recipientId kid
      · rfl
      · exact absurd (arrayEquals_iff.1 hh).symm hne
  unfold oscore2coap
  rw [M.bind_get, hf, M.bind_lift_ok, hp, M.bind_lift_ok]
  simp only
  rw [ho, M.bind_lift_ok, hb, M.bind_lift_ok, hreq, if_pos rfl]
  unfold unprotectRequest
  rw [M.run_bind, M.bind_get, hm, M.bind_lift_ok, if_pos rfl]
  rfl

example : oscore2coap exCfg toyCrypto (sendOf exCfg (exW exClient) exGet) 256
      { exServer with recipientId := [0x0D] } =
    (.err .oscore_kid_recipient_id_mismatch, { exServer with recipientId := [0x0D] }) := by
  decide +kernel

/-! ## C24 -/

/-- **C24** A CoAP packet that parses and has no OSCORE option is reported as `not_oscore_pkt`; the
context is unchanged. -/
theorem C24_plain_coap (cfg : Cfg) (C : Crypto) (inp : Bytes) (cap : Nat) (c : Ctx) (p : Pkt)
    (hssn : c.ssn < 0x7FFFFF) (hp : coapDeserialize inp = .ok p) (hno : ∀ o ∈ p.opts, o.num ≠ 9) :
    oscore2coap cfg C inp cap c = (.err .not_oscore_pkt, c) := by
  have hf : checkFreshness c = .ok () := by
    unfold checkFreshness ssnOverflow; rw [if_neg (by omega)]
  unfold coapDeserialize at hp
  obtain ⟨⟨q, t⟩, hq, h2⟩ := R.bind_eq_ok.1 hp
  simp only [R.pure_eq, R.ok.injEq] at h2
  subst h2
  have hopts : q.opts = t.map Prod.fst := (coapParse_wf hq).2.1
  have hnone : ∀ l : List (Opt × Bytes), (∀ x ∈ l, x.1.num ≠ 9) →
      oscoreOptionParserGo none l = .err .not_oscore_pkt := by
    intro l
    induction l with
    | nil => intro _; rfl
    | cons x l ih =>
      intro h
      obtain ⟨o, tl⟩ := x
      unfold oscoreOptionParserGo
      rw [if_neg (show ¬ o.num = optOSCORE from h (o, tl) (by simp))]
      exact ih (fun y hy => h y (by simp [hy]))
  have hgo : oscoreOptionParser t = .err .not_oscore_pkt := by
    apply hnone
    intro x hx
    apply hno
    rw [hopts]
    exact List.mem_map.2 ⟨x, hx, rfl⟩
  unfold oscore2coap
  rw [M.bind_get, hf, M.bind_lift_ok, hq, M.bind_lift_ok]
  simp only
  rw [hgo]
  rfl

example : oscore2coap exCfg toyCrypto exGet 256 exServer = (.err .not_oscore_pkt, exServer) := by
  decide +kernel

/-! ## C13 -/

/-- **C13** An exhausted context rejects every call with `oscore_ssn_overflow`; nothing changes and
nothing is encrypted. -/
theorem C13_exhausted_stops (cfg : Cfg) (C : Crypto) (w : World) (op : Op)
    (h : 0x7FFFFF ≤ w.ctx.ssn) : step cfg C w op = (.err .oscore_ssn_overflow, w) := by
  have hf : checkFreshness w.ctx = .err .oscore_ssn_overflow := by
    unfold checkFreshness ssnOverflow; rw [if_pos (by omega)]
  cases op with
  | protect inp cap nvmW =>
    simp only [step]
    unfold coap2oscore
    rw [M.bind_get, hf]; rfl
  | unprotect inp cap =>
    simp only [step]
    unfold oscore2coap
    rw [M.bind_get, hf]; rfl

theorem step_ssn_le (cfg : Cfg) (C : Crypto) (w : World) (op : Op) :
    (step cfg C w op).2.ctx.ssn = w.ctx.ssn ∨
      (w.ctx.ssn < 0x7FFFFF ∧ (step cfg C w op).2.ctx.ssn = w.ctx.ssn + 1) := by
  by_cases h : 0x7FFFFF ≤ w.ctx.ssn
  · left; rw [C13_exhausted_stops cfg C w op h]
  · cases op with
    | protect inp cap nvmW =>
      rcases (coap2oscore_frame cfg C nvmW inp cap w).ssn with h1 | h1
      · exact Or.inl h1.1
      · exact Or.inr ⟨by omega, h1⟩
    | unprotect inp cap => exact Or.inl (oscore2coap_frame cfg C inp cap w.ctx).ssn

/-- **C13** Whatever is called, the sequence number never grows beyond the overflow value. -/
theorem C13_ssn_bounded (cfg : Cfg) (C : Crypto) (w : World) (h : List Op)
    (h0 : w.ctx.ssn ≤ 0x7FFFFF) : (run cfg C w h).ctx.ssn ≤ 0x7FFFFF := by
  apply run_induction (P := fun w => w.ctx.ssn ≤ 0x7FFFFF) _ h0
  intro w op hw
  rcases step_ssn_le cfg C w op with h1 | ⟨h1, h2⟩ <;> omega

/-- **C13** Once exhausted, always exhausted: every later call fails. -/
theorem C13_for_ever (cfg : Cfg) (C : Crypto) (w : World) (h : List Op) (op : Op)
    (h0 : 0x7FFFFF ≤ w.ctx.ssn) :
    run cfg C w h = w ∧ (step cfg C (run cfg C w h) op).1 = .err .oscore_ssn_overflow := by
  have : run cfg C w h = w := by
    induction h with
    | nil => rfl
    | cons o h ih => rw [run_cons, C13_exhausted_stops cfg C w o h0]; exact ih
  rw [this]
  exact ⟨rfl, by rw [C13_exhausted_stops cfg C w op h0]⟩

/-- non-vacuity: the last usable number is 0x7FFFFE, then the context is exhausted -/
example : (step exCfg toyCrypto (exW { exClient with ssn := 0x7FFFFE }) (.protect exGet 256 none)).1.isOk = true ∧
    (step exCfg toyCrypto (afterSend exCfg (exW { exClient with ssn := 0x7FFFFE }) exGet2)
      (.protect exGet 256 none)).1 = .err .oscore_ssn_overflow := by decide +kernel

/-! ## C04 -/

/-- The delivered request's number is known to the server afterwards – if its PIV is one byte long,
or if this is the request that completes the Echo exchange. -/
theorem delivered_known {cfg : Cfg} {C : Crypto} {inp : Bytes} {cap : Nat} {c : Ctx} {W : Nat}
    (hW : 0 < W) (hwin : WindowOk W c) {p : Pkt} {t : List (Opt × Bytes)} {o : OscOpt} {piv : Bytes}
    (hp : coapParse inp = .ok (p, t)) (hreq : isRequest p = true)
    (ho : oscoreOptionParser t = .ok o) (hpiv : o.piv.read = .ok piv)
    (hone : piv.length = 1 ∨ c.echo = .verify) {out : Bytes}
    (hok : (oscore2coap cfg C inp cap c).1 = .ok out) :
    Known W (beVal piv) (oscore2coap cfg C inp cap c).2 := by
  have h := oscore2coap_effect cfg C inp cap c
  generalize (oscore2coap cfg C inp cap c).1 = r at h hok
  generalize (oscore2coap cfg C inp cap c).2 = c' at h
  obtain ⟨seen, hs⟩ := hwin
  cases h with
  | unchanged hr => exact absurd hok (hr _)
  | reqFail _ _ _ _ _ _ _ _ hr => exact absurd hok (hr _)
  | @reqOk p' t' o' out' pt c1 r2 c2 hf hp' ho' hreq' hkid hrep hdec ha =>
    rw [hp] at hp'
    simp only [R.ok.injEq, Prod.mk.injEq] at hp'
    obtain ⟨rfl, rfl⟩ := hp'
    rw [ho] at ho'
    obtain rfl := R.ok.inj ho'
    have hw := hdec.frame.2.1
    have he := hdec.frame.2.2.2.2
    cases ha with
    | reboot h => cases hok
    | @verified piv' h hv hp =>
      rw [hpiv] at hp
      obtain rfl := R.ok.inj hp
      refine ⟨rfl, List.range (beVal piv + 1), ?_, by simp⟩
      simp only
      rw [hw]
      exact WInv.reinit hW hs.length _
    | failed hr h =>
      obtain ⟨u, hu, _⟩ := R.bind_eq_ok.1 hok
      exact absurd hu (hr u)
    | @recorded b l h hp =>
      rw [hpiv] at hp
      obtain rfl := R.ok.inj hp
      have hl : l = [] := by
        rcases hone with h1 | h1
        · simpa using h1
        · rw [he, h1] at h; cases h
      subst hl
      refine ⟨h, ?_⟩
      have hv : c.window.valid b.toNat = true := by
        unfold checkReplay at hrep
        rw [he] at h
        rw [if_pos h, hpiv] at hrep
        simp only [R.ok_bind] at hrep
        have hbv : beVal [b] = b.toNat := by simp [beVal]
        rw [hbv] at hrep
        cases hvv : c.window.valid b.toNat
        · rw [hvv] at hrep; cases hrep
        · rfl
      have hbv : beVal [b] = b.toNat := by simp [beVal]
      simp only
      rw [hw, hbv]
      exact ⟨_, hs.update hv, by simp⟩
    | bad hr h hp =>
      obtain ⟨u, hu, _⟩ := R.bind_eq_ok.1 hok
      exact absurd hu (hr u)
  | rspFail _ _ _ _ _ _ _ hr => exact absurd hok (hr _)
  | notifOk _ hp' _ hreq' =>
    rw [hp] at hp'
    simp only [R.ok.injEq, Prod.mk.injEq] at hp'
    obtain ⟨rfl, rfl⟩ := hp'
    rw [hreq] at hreq'; cases hreq'
  | rspOk _ hp' _ hreq' =>
    rw [hp] at hp'
    simp only [R.ok.injEq, Prod.mk.injEq] at hp'
    obtain ⟨rfl, rfl⟩ := hp'
    rw [hreq] at hreq'; cases hreq'

/-- A request with a known number is never delivered. -/
theorem known_rejected {cfg : Cfg} {C : Crypto} {inp : Bytes} {cap : Nat} {c : Ctx} {W n : Nat}
    {p : Pkt} {t : List (Opt × Bytes)} {o : OscOpt} {piv : Bytes}
    (hp : coapParse inp = .ok (p, t)) (hreq : isRequest p = true)
    (ho : oscoreOptionParser t = .ok o) (hpiv : o.piv.read = .ok piv) (hn : beVal piv = n)
    (hk : Known W n c) :
    (∀ out, (oscore2coap cfg C inp cap c).1 ≠ .ok out) ∧ (oscore2coap cfg C inp cap c).2 = c := by
  have hrepf : checkReplay c o ≠ .ok () := by
    unfold checkReplay
    rw [if_pos hk.1, hpiv]
    simp only [R.ok_bind]
    rw [hn, hk.invalid]
    simp
  have h := oscore2coap_effect cfg C inp cap c
  generalize (oscore2coap cfg C inp cap c).1 = r at h
  generalize (oscore2coap cfg C inp cap c).2 = c' at h
  have same : ∀ {p' t'}, coapParse inp = .ok (p', t') → p' = p ∧ t' = t := by
    intro p' t' h; rw [hp] at h; simpa [eq_comm] using h
  cases h with
  | unchanged hr => exact ⟨hr, rfl⟩
  | reqFail _ hp' ho' _ _ hrep =>
    obtain ⟨rfl, rfl⟩ := same hp'
    rw [ho] at ho'; obtain rfl := R.ok.inj ho'
    exact absurd hrep hrepf
  | reqOk _ hp' ho' _ _ hrep =>
    obtain ⟨rfl, rfl⟩ := same hp'
    rw [ho] at ho'; obtain rfl := R.ok.inj ho'
    exact absurd hrep hrepf
  | rspFail _ hp' _ hreq' => obtain ⟨rfl, rfl⟩ := same hp'; rw [hreq] at hreq'; cases hreq'
  | notifOk _ hp' _ hreq' => obtain ⟨rfl, rfl⟩ := same hp'; rw [hreq] at hreq'; cases hreq'
  | rspOk _ hp' _ hreq' => obtain ⟨rfl, rfl⟩ := same hp'; rw [hreq] at hreq'; cases hreq'

/-- **C04** (partial) Take any context after initialisation and any history of calls.  If a request
packet is delivered then, after any further history, neither this packet nor any other request
packet with the same sequence number is delivered (and such a call changes nothing) – provided the
PIV of the delivered request is one byte long, or the delivery completed the Echo exchange.
Missing: longer PIVs, for which the claim is false (`C04_false`), and packets whose outer code an
attacker turned into that of a response (`C04_false_relabelled`). -/
theorem C04_no_replay_partial (cfg : Cfg) (C : Crypto) (prm : InitParams) (nv : R Nat) (jn je : Bytes)
    (c₀ : Ctx) (nvm : Nat) (log : List EncCall) (hW : 0 < cfg.windowSize)
    (hinit : contextInit cfg C prm nv jn je = .ok c₀)
    (before after : List Op) (inp inp' : Bytes) (cap cap' : Nat) (out : Bytes)
    (p p' : Pkt) (t t' : List (Opt × Bytes)) (o o' : OscOpt) (piv piv' : Bytes)
    (hp : coapParse inp = .ok (p, t)) (hreq : isRequest p = true)
    (ho : oscoreOptionParser t = .ok o) (hpiv : o.piv.read = .ok piv)
    (hp' : coapParse inp' = .ok (p', t')) (hreq' : isRequest p' = true)
    (ho' : oscoreOptionParser t' = .ok o') (hpiv' : o'.piv.read = .ok piv')
    (hsame : beVal piv' = beVal piv)
    (hone : piv.length = 1 ∨ (run cfg C ⟨c₀, nvm, log⟩ before).ctx.echo = .verify)
    (hok : (step cfg C (run cfg C ⟨c₀, nvm, log⟩ before) (.unprotect inp cap)).1 = .ok out) :
    let w := run cfg C (step cfg C (run cfg C ⟨c₀, nvm, log⟩ before) (.unprotect inp cap)).2 after
    (∀ out', (step cfg C w (.unprotect inp' cap')).1 ≠ .ok out') ∧
      (step cfg C w (.unprotect inp' cap')).2 = w := by
  intro w
  have hwin : WindowOk cfg.windowSize (run cfg C ⟨c₀, nvm, log⟩ before).ctx :=
    run_induction (P := fun w => WindowOk cfg.windowSize w.ctx)
      (fun w op h => step_windowOk op hW h) (contextInit_windowOk hW hinit) before
  have hk : Known cfg.windowSize (beVal piv)
      (step cfg C (run cfg C ⟨c₀, nvm, log⟩ before) (.unprotect inp cap)).2.ctx :=
    delivered_known hW hwin hp hreq ho hpiv hone hok
  have hk' : Known cfg.windowSize (beVal piv) w.ctx :=
    run_induction (P := fun w => Known cfg.windowSize (beVal piv) w.ctx)
      (fun w op h => step_known w op h) hk after
  have := known_rejected (cfg := cfg) (C := C) (cap := cap') hp' hreq' ho' hpiv' hsame hk'
  refine ⟨this.1, ?_⟩
  show ({ w with ctx := (oscore2coap cfg C inp' cap' w.ctx).2 } : World) = w
  rw [this.2]

/-- the request with sequence number 256 used in the counterexample -/
def exReplay256 : Bytes := sendOf exCfg (exW { exClient with ssn := 256 }) exGet

/-- **C04 is false**: a synchronised server delivers the same request with SSN 256 (PIV 01 00) as
often as it arrives, because only the first PIV byte (1) is recorded. -/
theorem C04_false :
    contextInit exCfg toyCrypto (exServerParams true) (.ok 0) (List.replicate 13 0) exJunk = .ok exServer ∧
    exServer.echo = .synchronized ∧
    (step exCfg toyCrypto (exW exServer) (.unprotect exReplay256 256)).1 = .ok exGet ∧
    (step exCfg toyCrypto (afterRecv exCfg (exW exServer) exReplay256) (.unprotect exReplay256 256)).1
      = .ok exGet ∧
    (step exCfg toyCrypto (run exCfg toyCrypto (exW exServer) [.unprotect exReplay256 256,
      .unprotect exReplay256 256]) (.unprotect exReplay256 256)).1 = .ok exGet := by
  refine ⟨exServer_init, ?_⟩
  decide +kernel

/-- the packet with the code 2.04 of a protected response; nobody authenticates the outer code -/
def asResponse (b : Bytes) : Bytes := b.set 1 0x44

/-- **C04 is false (2)**, also for one-byte PIVs: while a request is unanswered (an observed one: for as
long as the observation lasts) an attacker can have it delivered again and again by changing the outer
code of the packet to that of a response.  Responses are not checked against the replay window, their
AAD is built from the request outstanding under the token – here the very request – and what is
delivered is the inner message, a request. -/
theorem C04_false_relabelled :
    let b := sendOf exCfg (exW exClient) exGet
    let s1 := afterRecv exCfg (exW exServer) b
    let s2 := afterRecv exCfg s1 (asResponse b)
    exServer.echo = .synchronized ∧
    (step exCfg toyCrypto (exW exServer) (.unprotect b 256)).1 = .ok exGet ∧
    (step exCfg toyCrypto s1 (.unprotect b 256)).1 = .err .oscore_replay_window_protection_error ∧
    (step exCfg toyCrypto s1 (.unprotect (asResponse b) 256)).1 = .ok exGet ∧
    (step exCfg toyCrypto s2 (.unprotect (asResponse b) 256)).1 = .ok exGet := by
  decide +kernel

/-- non-vacuity of the partial theorem: a request with SSN 0 is delivered once -/
example : (step exCfg toyCrypto (exW exServer) (.unprotect (sendOf exCfg (exW exClient) exGet) 256)).1 = .ok exGet ∧
    (step exCfg toyCrypto (afterRecv exCfg (exW exServer) (sendOf exCfg (exW exClient) exGet))
      (.unprotect (sendOf exCfg (exW exClient) exGet) 256)).1
      = .err .oscore_replay_window_protection_error := by decide +kernel

end Verif
