import Verif.Props.Receive
import Verif.Lemmas.SplitLemmas
/-
Properties C05 (notifications) and C06 (Echo challenge after a reboot).
-/
namespace Verif

/-! ## C05 -/

/-- The sequence number of an incoming packet that is marked (by its outer Observe option) as an
observe notification. -/
def notifNumber (inp : Bytes) : Option Nat :=
  match coapParse inp with
  | .ok (p, t) =>
    if isRequest p = false ∧ isObserve p.opts = true then
      match oscoreOptionParser t with
      | .ok o =>
        match o.piv.read with
        | .ok piv => some (beVal piv)
        | _ => none
      | _ => none
    else none
  | _ => none

/-- Numbers of the notifications that were delivered to the application during a history, in order. -/
def deliveredNotifs (cfg : Cfg) (C : Crypto) : World → List Op → List Nat
  | _, [] => []
  | w, op :: h =>
    (match op, (step cfg C w op).1 with
     | .unprotect inp _, .ok _ => (notifNumber inp).toList
     | _, _ => []) ++ deliveredNotifs cfg C (step cfg C w op).2 h

/-- every delivered notification is newer than the counter, which only grows -/
theorem step_notif (cfg : Cfg) (C : Crypto) (w : World) (op : Op) :
    ((step cfg C w op).2.ctx.notifInit = w.ctx.notifInit ∧
      (step cfg C w op).2.ctx.notifNum = w.ctx.notifNum ∨
     (step cfg C w op).2.ctx.notifInit = true ∧
      (w.ctx.notifInit = true → w.ctx.notifNum < (step cfg C w op).2.ctx.notifNum)) ∧
    (∀ inp cap out n, op = .unprotect inp cap → (step cfg C w op).1 = .ok out → notifNumber inp = some n →
      (step cfg C w op).2.ctx.notifInit = true ∧ (step cfg C w op).2.ctx.notifNum = n ∧
      (w.ctx.notifInit = true → w.ctx.notifNum < n)) := by
  cases op with
  | protect inp cap nvmW =>
    have h := coap2oscore_frame cfg C nvmW inp cap w
    exact ⟨Or.inl ⟨h.notifInit, h.notifNum⟩, by intro _ _ _ _ h; cases h⟩
  | unprotect inp cap =>
    simp only [step]
    have h := oscore2coap_effect cfg C inp cap w.ctx
    generalize (oscore2coap cfg C inp cap w.ctx).1 = r at h
    generalize (oscore2coap cfg C inp cap w.ctx).2 = c' at h
    have reqNone : ∀ {p t}, coapParse inp = .ok (p, t) → isRequest p = true → notifNumber inp = none := by
      intro p t hp hr; simp [notifNumber, hp, hr]
    have obsNone : ∀ {p t}, coapParse inp = .ok (p, t) → isObserve p.opts = false →
        notifNumber inp = none := by
      intro p t hp hr; simp [notifNumber, hp, hr]
    cases h with
    | unchanged hr =>
      exact ⟨Or.inl ⟨rfl, rfl⟩, by intro i c o n _ h; exact absurd h (hr _)⟩
    | reqFail _ _ _ _ _ _ hdec _ hr =>
      exact ⟨Or.inl ⟨hdec.frame.2.2.2.1, hdec.frame.2.2.1⟩, by intro i c o n _ h; exact absurd h (hr _)⟩
    | reqOk _ hp _ hreq _ _ hdec ha =>
      refine ⟨Or.inl ⟨by rw [ha.frame.2.2.1, hdec.frame.2.2.2.1],
        by rw [ha.frame.2.1, hdec.frame.2.2.1]⟩, ?_⟩
      intro i c o n h _ hn
      obtain ⟨rfl, rfl⟩ : inp = i ∧ cap = c := by simpa using h
      rw [reqNone hp hreq] at hn; cases hn
    | rspFail _ _ _ _ _ hdec _ hr =>
      exact ⟨Or.inl ⟨hdec.frame.2.2.2.1, hdec.frame.2.2.1⟩, by intro i c o n _ h; exact absurd h (hr _)⟩
    | @notifOk p t o out pt c1 piv _ hp ho hreq hobs hpl hpiv hchk hdec =>
      have hc := (checkNotification_ok () hchk).2
      refine ⟨Or.inr ⟨rfl, ?_⟩, ?_⟩
      · intro hi
        apply Nat.lt_of_not_le
        intro hh; exact hc ⟨hi, hh⟩
      · intro i c o' n h _ hn
        obtain ⟨rfl, rfl⟩ : inp = i ∧ cap = c := by simpa using h
        have : notifNumber inp = some (beVal piv) := by
          simp [notifNumber, hp, hreq, hobs, ho, hpiv]
        rw [this] at hn
        obtain rfl := Option.some.inj hn
        refine ⟨rfl, rfl, ?_⟩
        intro hi
        apply Nat.lt_of_not_le
        intro hh; exact hc ⟨hi, hh⟩
    | rspOk _ hp _ _ hobs _ hdec =>
      refine ⟨Or.inl ⟨hdec.frame.2.2.2.1, hdec.frame.2.2.1⟩, ?_⟩
      intro i c o n h _ hn
      obtain ⟨rfl, rfl⟩ : inp = i ∧ cap = c := by simpa using h
      rw [obsNone hp hobs] at hn; cases hn

theorem deliveredNotifs_gt {cfg : Cfg} {C : Crypto} {w : World} {h : List Op} (hi : w.ctx.notifInit = true) :
    ∀ n ∈ deliveredNotifs cfg C w h, w.ctx.notifNum < n := by
  induction h generalizing w with
  | nil => intro n hn; cases hn
  | cons op h ih =>
    intro n hn
    simp only [deliveredNotifs, List.mem_append] at hn
    obtain ⟨h1, h2⟩ := step_notif cfg C w op
    rcases hn with hn | hn
    · split at hn
      · rename_i inp cap out hout
        have hx : notifNumber inp = some n := by simpa using hn
        exact (h2 inp cap out n rfl hout hx).2.2 hi
      · cases hn
    · rcases h1 with ⟨ha, hb⟩ | ⟨ha, hb⟩
      · have := ih (by rw [ha]; exact hi) n hn
        omega
      · have := ih ha n hn
        have := hb hi
        omega

/-- **C05** (partial) In every history of calls on a context, the numbers of the delivered
notifications are strictly increasing.  Missing: a packet counts as a notification only if it carries
the *outer* Observe option, which is not authenticated (see `C05_false`). -/
theorem C05_increasing_partial (cfg : Cfg) (C : Crypto) (w : World) (h : List Op) :
    (deliveredNotifs cfg C w h).Pairwise (· < ·) := by
  induction h generalizing w with
  | nil => exact List.Pairwise.nil
  | cons op h ih =>
    simp only [deliveredNotifs]
    rw [List.pairwise_append]
    refine ⟨?_, ih _, ?_⟩
    · split
      · cases notifNumber _ <;> simp
      · exact List.Pairwise.nil
    · intro a ha b hb
      split at ha
      · rename_i inp cap out hout
        have hx : notifNumber inp = some a := by simpa using ha
        obtain ⟨_, h2⟩ := step_notif cfg C w (.unprotect inp cap)
        obtain ⟨h3, h4, _⟩ := h2 inp cap out a rfl hout hx
        have := deliveredNotifs_gt h3 b hb
        omega
      · cases ha

/-- **C05** A notification whose number is not larger than that of the last delivered one is
rejected with `oscore_replay_notification_protection_error`, without side effects. -/
theorem C05_old_rejected (cfg : Cfg) (C : Crypto) (inp : Bytes) (cap : Nat) (c : Ctx)
    (p : Pkt) (t : List (Opt × Bytes)) (o : OscOpt) (piv : Bytes)
    (hssn : c.ssn < 0x7FFFFF) (hp : coapParse inp = .ok (p, t)) (hreq : isRequest p = false)
    (hobs : isObserve p.opts = true) (ho : oscoreOptionParser t = .ok o)
    (hpiv : o.piv.read = .ok piv) (hne : o.piv.len ≠ 0) (hl : piv.length ≤ 5)
    (hsize : sub32 p.payload.length 8 ≤ cfg.maxPlaintext)
    (hinit : c.notifInit = true) (hold : beVal piv ≤ c.notifNum) :
    oscore2coap cfg C inp cap c = (.err .oscore_replay_notification_protection_error, c) := by
  have hf : checkFreshness c = .ok () := by
    unfold checkFreshness ssnOverflow; rw [if_neg (by omega)]
  have hb : checkBufferSize cfg.maxPlaintext (sub32 p.payload.length 8) = .ok () :=
    checkBufferSize_ok.2 hsize
  have hc : checkNotification c piv = .err .oscore_replay_notification_protection_error := by
    unfold checkNotification piv2ssn
    rw [if_neg (by omega)]
    simp only [R.ok_bind]
    rw [if_pos ⟨hinit, hold⟩]
  unfold oscore2coap
  rw [M.bind_get, hf, M.bind_lift_ok, hp, M.bind_lift_ok]
  simp only
  rw [ho, M.bind_lift_ok, hb, M.bind_lift_ok, hreq, if_neg (by simp)]
  unfold unprotectResponse
  rw [M.run_bind, M.bind_get, if_pos hobs, if_pos hne, hpiv, M.bind_lift_ok, hc]
  rfl

/-- An attacker's edit: the outer Observe option is removed. -/
def stripObserve (b : Bytes) : Bytes :=
  match coapDeserialize b with
  | .ok p =>
    match coapSerialize exCfg { p with opts := redelta 0 (p.opts.filter (fun o => o.num != 6)) } 256 with
    | .ok b => b
    | _ => []
  | _ => []

/-- client after sending an observe registration -/
def exCliObs : World := afterSend exCfg (exW exClient) exObs
/-- server after receiving it -/
def exSrvObs : World := afterRecv exCfg (exW exServer) (sendOf exCfg (exW exClient) exObs)
/-- the notification the server sends -/
def exNotifPkt : Bytes := sendOf exCfg exSrvObs exNotif

/-- **C05 is false** for notifications as the application sees them: after a notification was
delivered, the same packet without its (unauthenticated) outer Observe option is delivered again, as
a notification (the decrypted message has the Observe option), any number of times. -/
theorem C05_false :
    let out := [0x61, 0x45, 0x12, 0x34, 0x4A, 0x60, 0xFF, 0x68, 0x69]
    (step exCfg toyCrypto exCliObs (.unprotect exNotifPkt 256)).1 = .ok out ∧
    (step exCfg toyCrypto (afterRecv exCfg exCliObs exNotifPkt) (.unprotect exNotifPkt 256)).1 =
      .err .oscore_replay_notification_protection_error ∧
    (step exCfg toyCrypto (afterRecv exCfg exCliObs exNotifPkt)
      (.unprotect (stripObserve exNotifPkt) 256)).1 = .ok out ∧
    (step exCfg toyCrypto (run exCfg toyCrypto exCliObs [.unprotect exNotifPkt 256,
      .unprotect (stripObserve exNotifPkt) 256]) (.unprotect (stripObserve exNotifPkt) 256)).1 = .ok out := by
  decide +kernel

/-- non-vacuity: two notifications are delivered with numbers 0 and 1 -/
example : deliveredNotifs exCfg toyCrypto exCliObs [.unprotect exNotifPkt 256, .unprotect exNotifPkt 256,
    .unprotect (sendOf exCfg (afterSend exCfg exSrvObs exNotif) exNotif) 256] = [0, 1] := by decide +kernel

/-! ## C06 -/

/-- the decrypted message has, as its first Echo option (252), the value `v` -/
def HasEcho (pt v : Bytes) : Prop :=
  ∃ code opts payload, payloadParser pt = .ok (code, opts, payload) ∧
    (opts.find? (fun o => o.num == 252)).map Opt.value = some v

/-- the CoAP message `m` carries an Echo option with value `v` -/
def CarriesEcho (m v : Bytes) : Prop :=
  ∃ p, coapDeserialize m = .ok p ∧ ∃ o ∈ p.opts, o.num = 252 ∧ o.value = v

theorem DecEffect.authentic {cfg C o p c r c1 inp t} (hp : coapParse inp = .ok (p, t)) (ho : oscoreOptionParser t = .ok o)
    (hq : isRequest p = true) (hk : kidMatches c o = .ok true) {out pt}
    (h : DecEffect cfg C (some o) p c r c1) (hr : r = .ok (out, pt)) : Authentic C c inp pt := by
  rcases h.checked hp ho (fun _ => ⟨rfl, hk⟩) (fun h => by rw [hq] at h; cases h) with ⟨h1, _⟩ | ⟨pt', h1, h2⟩
  · exact absurd hr (h1 _)
  · rw [h2 _ _ hr]; exact h1

theorem echoValIsFresh_ok {cache pt : Bytes} (h : echoValIsFresh cache pt = .ok ()) : HasEcho pt cache := by
  unfold echoValIsFresh at h
  obtain ⟨⟨c, opts, pl⟩, h1, h2⟩ := R.bind_eq_ok.1 h
  simp only at h2
  split at h2
  · cases h2
  · rename_i o ho
    split at h2
    · rename_i hh
      refine ⟨c, opts, pl, h1, ?_⟩
      have : opts.find? (fun o => o.num == 252) = some o := ho
      rw [this]; simp [hh.2]
    · cases h2

/-- transitions of the Echo state machine -/
theorem step_echo (cfg : Cfg) (C : Crypto) (w : World) (op : Op) :
    (step cfg C w op).2.ctx.echo = w.ctx.echo ∨
    (w.ctx.echo = .reboot ∧ (step cfg C w op).2.ctx.echo = .verify ∧
      (∃ inp cap, op = .unprotect inp cap) ∧
      (step cfg C w op).1 = .err .first_request_after_reboot) ∨
    (w.ctx.echo = .verify ∧ (step cfg C w op).2.ctx.echo = .synchronized ∧
      ∃ inp cap pt, op = .unprotect inp cap ∧ Authentic C w.ctx inp pt ∧ HasEcho pt w.ctx.echoVal) := by
  cases op with
  | protect inp cap nvmW => exact Or.inl (coap2oscore_frame cfg C nvmW inp cap w).echo
  | unprotect inp cap =>
    simp only [step]
    have h := oscore2coap_effect cfg C inp cap w.ctx
    generalize (oscore2coap cfg C inp cap w.ctx).1 = r at h
    generalize (oscore2coap cfg C inp cap w.ctx).2 = c' at h
    cases h with
    | unchanged _ => exact Or.inl rfl
    | reqFail _ _ _ _ _ _ hdec => exact Or.inl hdec.frame.2.2.2.2
    | reqOk _ hp ho hq hk _ hdec ha =>
      have he := hdec.frame.2.2.2.2
      have hev := hdec.frame.1.echoVal
      cases ha with
      | reboot h => exact Or.inr (Or.inl ⟨by rw [← he]; exact h, rfl, ⟨_, _, rfl⟩, rfl⟩)
      | @verified piv h hv hpv =>
        refine Or.inr (Or.inr ⟨by rw [← he]; exact h, rfl, inp, cap, _, rfl, hdec.authentic hp ho hq hk rfl, ?_⟩)
        rw [← hev]; exact echoValIsFresh_ok hv
      | failed hr h => exact Or.inl he
      | recorded h hpv => exact Or.inl (by simp [he])
      | bad hr h hpv => exact Or.inl he
    | rspFail _ _ _ _ _ hdec => exact Or.inl hdec.frame.2.2.2.2
    | notifOk _ _ _ _ _ _ _ _ hdec => exact Or.inl hdec.frame.2.2.2.2
    | rspOk _ _ _ _ _ _ hdec => exact Or.inl hdec.frame.2.2.2.2

/-- changes of the cached Echo value -/
theorem step_echoVal (cfg : Cfg) (C : Crypto) (w : World) (op : Op) :
    (step cfg C w op).2.ctx.echoVal = w.ctx.echoVal ∨
    (w.ctx.echo = .verify ∧ ∃ m cap nvmW, op = .protect m cap nvmW ∧
      CarriesEcho m (step cfg C w op).2.ctx.echoVal) := by
  cases op with
  | unprotect inp cap => exact Or.inl (oscore2coap_frame cfg C inp cap w.ctx).echoVal
  | protect inp cap nvmW =>
    simp only [step]
    have h := coap2oscore_effect cfg C nvmW inp cap w
    generalize (coap2oscore cfg C nvmW inp cap w).1 = r at h
    generalize (coap2oscore cfg C nvmW inp cap w).2 = w' at h
    cases h with
    | unchanged _ => exact Or.inl rfl
    | emptyAck => exact Or.inl rfl
    | @enc p s pt ev r w' hf hp hack hs hlen hpt hev henc =>
      have hw' : w'.ctx.echoVal = ev := by
        cases henc <;> simp [withEcho, bumped]
      rw [hw']
      split at hev
      · rename_i hv
        right
        refine ⟨hv, inp, cap, nvmW, rfl, p, hp, ?_⟩
        unfold cacheEchoVal at hev
        split at hev
        · cases hev
        · rename_i o ho
          have hval : ev = o.value := (memcpyS_ok.1 hev).1
          have hmem := List.mem_of_find?_eq_some ho
          have hnum : o.num = optECHO := by simpa using List.find?_some ho
          have hs' := (optionSplit_ok (coapDeserialize_wf hp).nums hs).2
          rw [hs'] at hmem
          obtain ⟨o', h1, h2, h3⟩ := mem_redelta hmem
          unfold innerOpts at h1
          obtain ⟨a, ha1, ha2⟩ := List.mem_filterMap.1 h1
          split at ha2
          · rename_i hobs
            obtain rfl := Option.some.inj ha2
            simp only at h2
            rw [hobs, hnum] at h2
            exact absurd h2 (by decide)
          · split at ha2
            · obtain rfl := Option.some.inj ha2
              exact ⟨a, ha1, by rw [h2, hnum]; rfl, by rw [h3, hval]⟩
            · cases ha2
      · exact Or.inl hev

/-- **C06** (partial) A context restored from an earlier session delivers a request only if, before,
(1) a request was answered with `first_request_after_reboot`, and (2) an authentic request was
received whose Echo option equals the cached value, and (3) the cached value is either that of a
message protected in between, or – the missing case – the previous contents `je` of the buffer, which
`oscore_context_init` does not clear (see `C06_false`).  Also missing: requests that arrive with the
outer code of a response (`C06_false_relabelled`). -/
theorem C06_echo_required_partial (cfg : Cfg) (C : Crypto) (prm : InitParams) (nv : R Nat) (jn je : Bytes)
    (c₀ : Ctx) (nvm : Nat) (log : List EncCall)
    (hinit : contextInit cfg C prm nv jn je = .ok c₀) (hnf : prm.fresh = false)
    (h : List Op) (inp : Bytes) (cap : Nat) (out : Bytes) (p : Pkt) (hp : coapDeserialize inp = .ok p)
    (hreq : isRequest p = true)
    (hok : (step cfg C (run cfg C ⟨c₀, nvm, log⟩ h) (.unprotect inp cap)).1 = .ok out) :
    ∃ h₁ inp' cap' h₂ pt, h ++ [.unprotect inp cap] = h₁ ++ .unprotect inp' cap' :: h₂ ∧
      (run cfg C ⟨c₀, nvm, log⟩ h₁).ctx.echo = .verify ∧
      Authentic C (run cfg C ⟨c₀, nvm, log⟩ h₁).ctx inp' pt ∧
      HasEcho pt (run cfg C ⟨c₀, nvm, log⟩ h₁).ctx.echoVal ∧
      (∃ g₁ op g₂, h₁ = g₁ ++ op :: g₂ ∧
        (step cfg C (run cfg C ⟨c₀, nvm, log⟩ g₁) op).1 = .err .first_request_after_reboot) ∧
      ((run cfg C ⟨c₀, nvm, log⟩ h₁).ctx.echoVal = je ∨
        ∃ g₁ m capm nvmW g₂, h₁ = g₁ ++ .protect m capm nvmW :: g₂ ∧
          (run cfg C ⟨c₀, nvm, log⟩ g₁).ctx.echo = .verify ∧
          CarriesEcho m (run cfg C ⟨c₀, nvm, log⟩ h₁).ctx.echoVal) := by
  generalize hw0 : (⟨c₀, nvm, log⟩ : World) = w0 at *
  have he0 : w0.ctx.echo = .reboot ∧ w0.ctx.echoVal = je := by
    obtain ⟨_, _, _, _, _, _, _, _, _, _, _, rfl⟩ := contextInit_ok hinit
    subst hw0; simp [hnf]
  -- facts about every history
  have inv : ∀ n, ∀ g : List Op, g.length = n →
      ((run cfg C w0 g).ctx.echoVal = je ∨ ∃ g₁ m capm nvmW g₂, g = g₁ ++ .protect m capm nvmW :: g₂ ∧
          (run cfg C w0 g₁).ctx.echo = .verify ∧ CarriesEcho m (run cfg C w0 g).ctx.echoVal) ∧
      ((run cfg C w0 g).ctx.echo ≠ .reboot → ∃ g₁ op g₂, g = g₁ ++ op :: g₂ ∧
        (step cfg C (run cfg C w0 g₁) op).1 = .err .first_request_after_reboot) ∧
      ((run cfg C w0 g).ctx.echo = .synchronized → ∃ h₁ inp' cap' h₂ pt,
        g = h₁ ++ .unprotect inp' cap' :: h₂ ∧ (run cfg C w0 h₁).ctx.echo = .verify ∧
        Authentic C (run cfg C w0 h₁).ctx inp' pt ∧ HasEcho pt (run cfg C w0 h₁).ctx.echoVal) := by
    intro n
    induction n with
    | zero =>
      intro g hg
      obtain rfl := List.length_eq_zero_iff.1 hg
      refine ⟨Or.inl he0.2, ?_, ?_⟩
      · intro hh; exact absurd he0.1 hh
      · intro hh; rw [run_nil, he0.1] at hh; cases hh
    | succ n ih =>
      intro g hg
      obtain ⟨g', op, rfl⟩ : ∃ g' op, g = g' ++ [op] := by
        have hne : g ≠ [] := by intro hh; rw [hh] at hg; simp at hg
        exact ⟨g.dropLast, g.getLast hne, (List.dropLast_concat_getLast hne).symm⟩
      have hg' : g'.length = n := by simpa using hg
      obtain ⟨i1, i2, i3⟩ := ih g' hg'
      have hrun : run cfg C w0 (g' ++ [op]) = (step cfg C (run cfg C w0 g') op).2 := by
        rw [run_append]; rfl
      rw [hrun]
      have ext2 : (∃ g₁ op' g₂, g' = g₁ ++ op' :: g₂ ∧
          (step cfg C (run cfg C w0 g₁) op').1 = .err .first_request_after_reboot) →
          ∃ g₁ op' g₂, g' ++ [op] = g₁ ++ op' :: g₂ ∧
          (step cfg C (run cfg C w0 g₁) op').1 = .err .first_request_after_reboot := by
        rintro ⟨g₁, op', g₂, rfl, hx⟩
        exact ⟨g₁, op', g₂ ++ [op], by simp, hx⟩
      refine ⟨?_, ?_, ?_⟩
      · rcases step_echoVal cfg C (run cfg C w0 g') op with hs | ⟨hv, m, capm, nvmW, rfl, hc⟩
        · rw [hs]
          rcases i1 with i1 | ⟨g₁, m, capm, nvmW, g₂, rfl, hx, hy⟩
          · exact Or.inl i1
          · exact Or.inr ⟨g₁, m, capm, nvmW, g₂ ++ [op], by simp, hx, hy⟩
        · exact Or.inr ⟨g', m, capm, nvmW, [], rfl, hv, hc⟩
      · intro hne
        rcases step_echo cfg C (run cfg C w0 g') op with hs | ⟨h1, h2, h3, h4⟩ | ⟨h1, h2, h3⟩
        · exact ext2 (i2 (by rw [← hs]; exact hne))
        · exact ⟨g', op, [], rfl, h4⟩
        · exact ext2 (i2 (by rw [h1]; decide))
      · intro hsy
        rcases step_echo cfg C (run cfg C w0 g') op with hs | ⟨h1, h2, h3, h4⟩ | ⟨h1, h2, inp', cap', pt, rfl, ha, hb⟩
        · obtain ⟨h₁, inp', cap', h₂, pt, rfl, hx⟩ := i3 (by rw [← hs]; exact hsy)
          exact ⟨h₁, inp', cap', h₂ ++ [op], pt, by simp, hx⟩
        · rw [h2] at hsy; cases hsy
        · exact ⟨g', inp', cap', [], pt, rfl, h1, ha, hb⟩
  have hfinal : ∃ h₁ inp' cap' h₂ pt, h ++ [.unprotect inp cap] = h₁ ++ .unprotect inp' cap' :: h₂ ∧
      (run cfg C w0 h₁).ctx.echo = .verify ∧ Authentic C (run cfg C w0 h₁).ctx inp' pt ∧
      HasEcho pt (run cfg C w0 h₁).ctx.echoVal := by
    have hi := (inv _ (h ++ [.unprotect inp cap]) rfl).2.2
    apply hi
    rw [run_append]
    show (step cfg C (run cfg C w0 h) (.unprotect inp cap)).2.ctx.echo = .synchronized
    simp only [step] at hok ⊢
    have hx := oscore2coap_effect cfg C inp cap (run cfg C w0 h).ctx
    generalize (oscore2coap cfg C inp cap (run cfg C w0 h).ctx).1 = r at hx hok
    generalize (oscore2coap cfg C inp cap (run cfg C w0 h).ctx).2 = c' at hx
    have same : ∀ {p' t'}, coapParse inp = .ok (p', t') → p' = p := by
      intro p' t' hh; simpa [coapDeserialize, hh] using hp
    cases hx with
    | unchanged hr => exact absurd hok (hr _)
    | reqFail _ _ _ _ _ _ _ _ hr => exact absurd hok (hr _)
    | reqOk _ _ _ _ _ _ hdec ha =>
      cases ha with
      | reboot h => cases hok
      | verified h hv hpv => rfl
      | failed hr h => obtain ⟨u, hu, _⟩ := R.bind_eq_ok.1 hok; exact absurd hu (hr u)
      | recorded h hpv => exact h
      | bad hr h hpv => obtain ⟨u, hu, _⟩ := R.bind_eq_ok.1 hok; exact absurd hu (hr u)
    | rspFail _ _ _ _ _ _ _ hr => exact absurd hok (hr _)
    | notifOk _ hp' _ hreq' => obtain rfl := same hp'; rw [hreq] at hreq'; cases hreq'
    | rspOk _ hp' _ hreq' => obtain rfl := same hp'; rw [hreq] at hreq'; cases hreq'
  obtain ⟨h₁, inp', cap', h₂, pt, hsplit, hv, ha, hb⟩ := hfinal
  obtain ⟨i1, i2, _⟩ := inv _ h₁ rfl
  exact ⟨h₁, inp', cap', h₂, pt, hsplit, hv, ha, hb, i2 (by rw [hv]; decide), i1⟩

/-- **C06** Decisions for one request packet that decrypts to `pt`: after a reboot
`first_request_after_reboot`; while waiting, `echo_validation_failed` unless `pt` has exactly the
cached Echo value. -/
theorem C06_decisions (cfg : Cfg) (C : Crypto) (o : OscOpt) (p out : Pkt) (pt : Bytes) (c : Ctx)
    (hkid : kidMatches c o = .ok true) (hrep : checkReplay c o = .ok ())
    (hdec : (decryptWrapper cfg C (some o) p c).1 = .ok (out, pt)) :
    (c.echo = .reboot → (unprotectRequest cfg C o p c).1 = .err .first_request_after_reboot ∧
      (unprotectRequest cfg C o p c).2.echo = .verify) ∧
    (c.echo = .verify → ¬HasEcho pt c.echoVal → (∀ x, payloadParser pt = x → x ≠ .ub) →
      (unprotectRequest cfg C o p c).1 = .err .echo_validation_failed ∧
      (unprotectRequest cfg C o p c).2.echo = .verify) := by
  have hd := (decryptWrapper_effect cfg C (some o) p c).frame
  unfold unprotectRequest
  rw [M.bind_get, hkid, M.bind_lift_ok, if_neg (by simp), hrep, M.bind_lift_ok]
  rw [M.run_bind]
  rcases hw : decryptWrapper cfg C (some o) p c with ⟨r, c1⟩
  rw [hw] at hd hdec
  simp only at hdec
  subst hdec
  simp only
  have he : c1.echo = c.echo := hd.2.2.2.2
  have hev : c1.echoVal = c.echoVal := hd.1.echoVal
  constructor
  · intro h
    unfold afterRequest
    rw [M.run_bind, M.bind_get, he, h]
    exact ⟨rfl, rfl⟩
  · intro h hno hub
    unfold afterRequest
    rw [M.run_bind, M.bind_get, he, h, hev]
    simp only
    have : ∃ e, echoValIsFresh c.echoVal pt = .err e := by
      cases hx : echoValIsFresh c.echoVal pt with
      | ok u => exact absurd (echoValIsFresh_ok hx) hno
      | err e => exact ⟨e, rfl⟩
      | ub =>
        exfalso
        unfold echoValIsFresh at hx
        cases hy : payloadParser pt with
        | ub => exact hub _ hy rfl
        | err e => rw [hy] at hx; cases hx
        | ok y =>
          rw [hy] at hx
          obtain ⟨a, b, d⟩ := y
          simp only [R.ok_bind] at hx
          split at hx
          · cases hx
          · split at hx <;> cases hx
    obtain ⟨e, he'⟩ := this
    rw [he']
    refine ⟨rfl, ?_⟩
    show c1.echo = .verify
    rw [he, h]

/-- a request with an Echo option of 12 zero bytes -/
def exEchoZero : Bytes := exGet ++ [0xDC, 0xE4] ++ List.replicate 12 0

/-- **C06 is false**: a rebooted server whose (never initialised) Echo buffer contains zeros delivers
a request although it never sent a challenge: the first request moves it to the verify state, the
second one carries an Echo option with the old buffer contents. -/
theorem C06_false :
    contextInit exCfg toyCrypto (exServerParams false) (.ok 20) (List.replicate 13 0) exJunk = .ok exServerRebooted ∧
    (step exCfg toyCrypto (exW exServerRebooted) (.unprotect (sendOf exCfg (exW exClient) exGet) 256)).1
      = .err .first_request_after_reboot ∧
    (step exCfg toyCrypto (afterRecv exCfg (exW exServerRebooted) (sendOf exCfg (exW exClient) exGet))
      (.unprotect (sendOf exCfg (afterSend exCfg (exW exClient) exGet) exEchoZero) 256)).1
      = .ok exEchoZero := by
  refine ⟨exServerRebooted_init, ?_⟩
  decide +kernel

/-- 4.01 response with an Echo option of 12 bytes, token 0x4A -/
def exChallenge : Bytes := [0x61, 0x81, 0x12, 0x34, 0x4A, 0xDC, 0xEF] ++ List.replicate 12 0x77
/-- the request repeated with that Echo value -/
def exEchoed : Bytes := exGet ++ [0xDC, 0xE4] ++ List.replicate 12 0x77

/-- **C06 is false (2)**: a rebooted server delivers a recorded request although the attacker cannot
answer the challenge.  The first copy yields `first_request_after_reboot`, the second
`echo_validation_failed` – but both leave the request outstanding, and the third copy, with the outer
code of a response, is delivered as often as it arrives. -/
theorem C06_false_relabelled :
    let b := sendOf exCfg (exW exClient) exGet
    let s1 := afterRecv exCfg (exW exServerRebooted) b
    let s2 := afterSend exCfg s1 exChallenge
    let s3 := afterRecv exCfg s2 b
    (step exCfg toyCrypto (exW exServerRebooted) (.unprotect b 256)).1 = .err .first_request_after_reboot ∧
    (step exCfg toyCrypto s1 (.protect exChallenge 256 none)).1.isOk = true ∧
    (step exCfg toyCrypto s2 (.unprotect b 256)).1 = .err .echo_validation_failed ∧
    (step exCfg toyCrypto s3 (.unprotect (asResponse b) 256)).1 = .ok exGet ∧
    (step exCfg toyCrypto (afterRecv exCfg s3 (asResponse b)) (.unprotect (asResponse b) 256)).1 = .ok exGet := by
  decide +kernel

/-- non-vacuity: the regular course of events -/
example :
    let cli1 := afterSend exCfg (exW exClient) exGet
    let srv1 := afterRecv exCfg (exW exServerRebooted) (sendOf exCfg (exW exClient) exGet)
    let srv2 := afterSend exCfg srv1 exChallenge
    let cli2 := afterRecv exCfg cli1 (sendOf exCfg srv1 exChallenge)
    (step exCfg toyCrypto srv1 (.unprotect (sendOf exCfg cli1 exEchoed) 256)).1 = .err .echo_validation_failed ∧
    (step exCfg toyCrypto cli1 (.unprotect (sendOf exCfg srv1 exChallenge) 256)).1 = .ok exChallenge ∧
    (step exCfg toyCrypto srv2 (.unprotect (sendOf exCfg cli2 exEchoed) 256)).1 = .ok exEchoed := by
  decide +kernel

end Verif
