import Verif.Props.Conversation
/-
C04, the other side: requests whose number is larger than everything the window can hold are delivered as often as they
arrive.
-/
namespace Verif
open Verif

/-- entering the same record twice changes nothing -/
theorem tableSet_again {cfg : Cfg} {t t' : Table} {r : Rec} (hd : Distinct t) (h : t.set cfg r = .ok t') :
    t'.set cfg r = .ok t' := by
  obtain ⟨hd', hlen, hmem⟩ := C29_set cfg t t' r hd h
  have hl := tableSet_lens h
  obtain ⟨slot, hlt, ht', -, -⟩ := tableSet_ok h
  have hget : t'[slot]? = some (some r) := by rw [ht', List.getElem?_set_self hlt]
  have hm : some r ∈ t' := (hmem r).2 (.inl rfl)
  have h1 : t'.findRes r.uri r.reqType = slot := by
    have hlt' : t'.findRes r.uri r.reqType < t'.length := findIdx_lt_of_mem hm (by simp)
    obtain ⟨s, hs, h1, h2⟩ := findRes_get hlt'
    exact hd'.resource _ _ _ _ hs hget h1 h2
  have h2 : t'.findTok r.token = slot := by
    obtain ⟨s, hs, h1⟩ := findTok_get (findTok_lt (r := r) ⟨hm, rfl⟩)
    exact hd'.token _ _ _ _ hs hget h1
  unfold Table.set
  rw [if_neg hl, h1]
  simp only
  rw [if_neg (by omega : ¬ slot ≥ t'.length)]
  rw [if_neg (by omega : ¬ slot ≥ t'.length), h2, if_neg (by simp)]
  rw [ht', List.set_set]

theorem updateWrapper_again {cfg : Cfg} {t t' : Table} {ty : MsgType} {token uri rp rk : Bytes} (hd : Distinct t) (hty : ty ≠ .response)
    (h : updateWrapper cfg t ty token uri rp rk = .ok t') : updateWrapper cfg t' ty token uri rp rk = .ok t' := by
  unfold updateWrapper at h ⊢
  simp only at h ⊢
  generalize hk : (if ty = .cancellation then MsgType.registration else ty) = k at h ⊢
  split at h
  · rename_i hc
    rw [if_pos hc]
    obtain ⟨a, ha, h⟩ := R.bind_eq_ok.1 h
    obtain ⟨b, hb, h⟩ := R.bind_eq_ok.1 h
    obtain ⟨c, hc, h⟩ := R.bind_eq_ok.1 h
    obtain ⟨d, hd', h⟩ := R.bind_eq_ok.1 h
    rw [ha, R.ok_bind, hb, R.ok_bind, hc, R.ok_bind, hd', R.ok_bind]
    exact tableSet_again hd h
  · rename_i hc
    rw [if_neg hc]
    split
    · rename_i h2
      exfalso
      rw [h2] at hk
      split at hk
      · cases hk
      · exact hty hk
    · rfl

/-- everything in the window is at most `N` -/
def WindowMax (N : Nat) (c : Ctx) : Prop := c.echo = .synchronized ∧ ∀ x ∈ c.window.window, x ≤ N

theorem WindowMax.valid {N n : Nat} {c : Ctx} (h : WindowMax N c) (hn : N < n) : c.window.valid n = true := by
  unfold ReplayWindow.valid
  rw [if_neg (by omega), if_pos]
  unfold Verif.wget
  rw [List.getD_eq_getElem?_getD]
  cases hi : c.window.window[c.window.window.length - 1]? with
  | none => simp; omega
  | some x => have := h.2 x (List.mem_iff_getElem?.2 ⟨_, hi⟩); simp; omega

theorem update_max {N n : Nat} {w : ReplayWindow} (h : ∀ x ∈ w.window, x ≤ N) (hn : n ≤ N) : ∀ x ∈ (w.update n).2.window, x ≤ N := by
  unfold ReplayWindow.update
  split
  · exact h
  · split
    · exact h
    · intro y hy
      simp only [windowInsert, List.mem_append, List.mem_singleton] at hy
      rcases hy with (hy | hy) | hy
      · exact h y (List.mem_of_mem_drop (List.mem_of_mem_take hy))
      · omega
      · exact h y (List.mem_of_mem_drop hy)

theorem step_windowMax {cfg : Cfg} {C : Crypto} {N : Nat} (hN : 255 ≤ N) (w : World) (op : Op) (h : WindowMax N w.ctx) :
    WindowMax N (step cfg C w op).2.ctx := by
  cases op with
  | protect inp cap nvmW =>
    have hf := coap2oscore_frame cfg C nvmW inp cap w
    exact ⟨hf.echo.trans h.1, by rw [show (step cfg C w (.protect inp cap nvmW)).2.ctx.window = w.ctx.window from hf.window]; exact h.2⟩
  | unprotect inp cap =>
    show WindowMax N (oscore2coap cfg C inp cap w.ctx).2
    have he := oscore2coap_effect cfg C inp cap w.ctx
    generalize (oscore2coap cfg C inp cap w.ctx).1 = r at he
    generalize (oscore2coap cfg C inp cap w.ctx).2 = c' at he
    have hdec : ∀ {opt p r1 c1}, DecEffect cfg C opt p w.ctx r1 c1 → WindowMax N c1 := by
      intro opt p r1 c1 hd
      cases hd with
      | unchanged _ => exact h
      | auth => exact h
    cases he with
    | unchanged _ => exact h
    | reqFail _ _ _ _ _ _ hd _ _ => exact hdec hd
    | reqOk _ _ _ _ _ _ hd ha =>
      have h1 := hdec hd
      cases ha with
      | reboot he => rw [h1.1] at he; cases he
      | verified he => rw [h1.1] at he; cases he
      | failed _ he => exact h1
      | @recorded b l he hp => exact ⟨h1.1, update_max h1.2 (by have := b.toNat_lt; omega)⟩
      | bad _ _ _ => exact h1
    | rspFail _ _ _ _ _ hd _ _ => exact hdec hd
    | notifOk _ _ _ _ _ _ _ _ hd => have h1 := hdec hd; exact h1
    | rspOk _ _ _ _ _ _ hd => exact hdec hd

theorem M.lift_eq_ok {σ α : Type} {r : R α} {s s' : σ} {a : α} : (M.lift r : M σ α) s = (.ok a, s') ↔ r = .ok a ∧ s' = s := by
  rw [M.run_lift]
  constructor
  · intro h; exact ⟨congrArg Prod.fst h, (congrArg Prod.snd h).symm⟩
  · rintro ⟨rfl, rfl⟩; rfl

/-- a request above the window that is delivered is delivered again -/
theorem delivered_again {cfg : Cfg} {C : Crypto} {inp out piv : Bytes} {cap N : Nat} {c c' : Ctx} {p : Pkt} {t : List (Opt × Bytes)} {o : OscOpt}
    (hw : WindowMax N c) (hN : 255 ≤ N) (hd : Distinct c.inter) (hp : coapParse inp = .ok (p, t)) (hreq : isRequest p = true)
    (ho : oscoreOptionParser t = .ok o) (hpiv : o.piv.read = .ok piv) (hn : N < beVal piv)
    (hok : oscore2coap cfg C inp cap c = (.ok out, c')) (hcode : ∀ x, out[1]? = some x → x.toNat < 32) :
    ∃ c'', oscore2coap cfg C inp cap c' = (.ok out, c'') := by
  unfold oscore2coap at hok ⊢
  simp only [M.bind_get] at hok ⊢
  obtain ⟨u, s0, h1, hok1⟩ := M.bind_eq_ok.1 hok
  obtain ⟨hf, rfl⟩ := M.lift_eq_ok.1 h1
  clear hok h1
  rw [hp, M.bind_lift_ok] at hok1
  simp only at hok1
  rw [ho, M.bind_lift_ok] at hok1
  obtain ⟨u2, s1, h2, hok2⟩ := M.bind_eq_ok.1 hok1
  obtain ⟨hb, rfl⟩ := M.lift_eq_ok.1 h2
  clear hok1 h2
  rw [if_pos hreq] at hok2
  obtain ⟨op, s2, h3, hok3⟩ := M.bind_eq_ok.1 hok2
  obtain ⟨hser, rfl⟩ := M.lift_eq_ok.1 hok3
  clear hok2 hok3
  unfold unprotectRequest at h3
  rw [M.bind_get] at h3
  obtain ⟨m, s3, h4, g1⟩ := M.bind_eq_ok.1 h3
  obtain ⟨hk, rfl⟩ := M.lift_eq_ok.1 h4
  clear h3 h4
  cases m with
  | false => rw [if_pos rfl] at g1; cases g1
  | true =>
  rw [if_neg (by simp)] at g1
  obtain ⟨u3, s4, h5, g2⟩ := M.bind_eq_ok.1 g1
  obtain ⟨hrep, rfl⟩ := M.lift_eq_ok.1 h5
  clear g1 h5
  obtain ⟨x, s5, h6, g3⟩ := M.bind_eq_ok.1 g2
  clear g2
  obtain ⟨outp, pt⟩ := x
  simp only at g3
  obtain ⟨u4, s6, h7, g4⟩ := M.bind_eq_ok.1 g3
  clear g3
  obtain rfl : outp = op := R.ok.inj (congrArg Prod.fst g4)
  obtain rfl : s6 = c' := congrArg Prod.snd g4
  clear g4
  have he := decryptWrapper_effect cfg C (some o) p s4
  rw [h6] at he
  simp only at he
  generalize hr : (R.ok (outp, pt) : R (Pkt × Bytes)) = r at he
  cases he with
  | unchanged h => exact absurd hr.symm (h _)
  | @auth rp rk nonce aad pt' tt hread hnonce haad hpt hres =>
    rcases hres with ⟨out', uri, hr', hgen, huri, hupd⟩ | ⟨h, -⟩
    · cases hr'
      obtain ⟨rfl, rfl⟩ : outp = out' ∧ pt = pt' := by
        exact ⟨congrArg Prod.fst (R.ok.inj hr), congrArg Prod.snd (R.ok.inj hr)⟩
      -- the message is a request
      have hro : isRequest outp = true := by
        have := hcode outp.code (by rw [(coapSerialize_ok.1 hser).1]; rfl)
        unfold isRequest
        rw [beq_iff_eq]; omega
      have hafter : s6 = { s4 with nonce := nonce, inter := tt, window := (s4.window.update ((piv.headD 0).toNat)).2 } := by
        unfold afterRequest at h7
        rw [M.bind_get] at h7
        simp only [hw.1] at h7
        rw [hpiv, M.bind_lift_ok] at h7
        cases piv with
        | nil => cases h7
        | cons b l => rw [hw.1]; exact (congrArg Prod.snd h7).symm
      subst hafter
      have hupd2 := updateWrapper_again hd (fun e => (msgType_request hro).1 e) hupd
      have hdec2 := decryptWrapper_ok (cfg := cfg) (C := C) (opt := some o) (p := p)
        (c := { s4 with nonce := nonce, inter := tt, window := (s4.window.update ((piv.headD 0).toNat)).2 })
        (by
          have := msgType_request hreq
          unfold readWrapper at hread ⊢
          rw [if_neg (fun e => e.elim this.1 this.2)] at hread ⊢
          exact hread) hnonce haad hpt hgen huri hupd2
      have hrep2 : checkReplay { s4 with nonce := nonce, inter := tt, window := (s4.window.update ((piv.headD 0).toNat)).2 } o = .ok () := by
        unfold checkReplay
        rw [if_pos hw.1, hpiv, R.ok_bind]
        have hb : (piv.headD 0).toNat ≤ N := by have := (piv.headD 0).toNat_lt; omega
        have hw2 : WindowMax N { s4 with nonce := nonce, inter := tt, window := (s4.window.update ((piv.headD 0).toNat)).2 } := ⟨hw.1, update_max hw.2 hb⟩
        rw [hw2.valid hn]; rfl
      have ha2 : ∃ c3, afterRequest o pt { s4 with nonce := nonce, inter := tt, window := (s4.window.update ((piv.headD 0).toNat)).2 } = (.ok (), c3) := by
        unfold afterRequest
        rw [M.bind_get]
        simp only [hw.1]
        rw [hpiv, M.bind_lift_ok]
        cases piv with
        | nil => simp [beVal] at hn
        | cons b l => exact ⟨_, rfl⟩
      obtain ⟨c3, ha2⟩ := ha2
      have hU : unprotectRequest cfg C o p { s4 with nonce := nonce, inter := tt, window := (s4.window.update ((piv.headD 0).toNat)).2 } = (.ok outp, c3) := by
        unfold unprotectRequest
        rw [M.bind_get]
        rw [show kidMatches { s4 with nonce := nonce, inter := tt, window := (s4.window.update ((piv.headD 0).toNat)).2 } o = .ok true from hk, M.bind_lift_ok,
          if_neg (by simp), hrep2, M.bind_lift_ok, M.bind_ok hdec2]
        exact M.bind_ok ha2
      refine ⟨c3, ?_⟩
      rw [show checkFreshness { s4 with nonce := nonce, inter := tt, window := (s4.window.update ((piv.headD 0).toNat)).2 } = .ok u from hf, M.bind_lift_ok,
        hp, M.bind_lift_ok]
      simp only
      rw [ho, M.bind_lift_ok, hb, M.bind_lift_ok, if_pos hreq, M.bind_ok hU, M.run_lift, hser]
    · exact absurd hr.symm (h _)

/-- the same, any number of times -/
theorem delivered_repeatedly {cfg : Cfg} {C : Crypto} {inp out piv : Bytes} {cap N : Nat} {p : Pkt} {t : List (Opt × Bytes)} {o : OscOpt}
    (hN : 255 ≤ N) (hp : coapParse inp = .ok (p, t)) (hreq : isRequest p = true)
    (ho : oscoreOptionParser t = .ok o) (hpiv : o.piv.read = .ok piv) (hn : N < beVal piv) (hcode : ∀ x, out[1]? = some x → x.toNat < 32) (k : Nat) :
    ∀ w : World, WindowMax N w.ctx → Distinct w.ctx.inter → (step cfg C w (.unprotect inp cap)).1 = .ok out →
      (step cfg C (run cfg C w (List.replicate k (.unprotect inp cap))) (.unprotect inp cap)).1 = .ok out := by
  induction k with
  | zero => intro w _ _ h; exact h
  | succ k ih =>
    intro w hw hd h
    rw [List.replicate_succ, run_cons]
    refine ih _ (step_windowMax hN w _ hw) (step_distinct _ _ w _ hd).1 ?_
    obtain ⟨c'', hc⟩ := delivered_again (c' := (oscore2coap cfg C inp cap w.ctx).2) hw hN hd hp hreq ho hpiv hn (Prod.ext h rfl) hcode
    simp only [step, hc]

/-- **C04 is false** for every synchronised context (also one that was synchronised by the Echo exchange) and every request
whose number is at least 256 and larger than everything in the window: once delivered, it is delivered as often as it is
received. -/
theorem C04_false_above (cfg : Cfg) (C : Crypto) (w : World) (hsync : w.ctx.echo = .synchronized) (hd : Distinct w.ctx.inter)
    (inp : Bytes) (cap : Nat) (out : Bytes) (p : Pkt) (t : List (Opt × Bytes)) (o : OscOpt) (piv : Bytes)
    (hp : coapParse inp = .ok (p, t)) (hreq : isRequest p = true) (ho : oscoreOptionParser t = .ok o) (hpiv : o.piv.read = .ok piv)
    (hn : 256 ≤ beVal piv) (habove : ∀ x ∈ w.ctx.window.window, x < beVal piv) (hcode : ∀ x, out[1]? = some x → x.toNat < 32)
    (hok : (step cfg C w (.unprotect inp cap)).1 = .ok out) (k : Nat) :
    (step cfg C (run cfg C w (List.replicate k (.unprotect inp cap))) (.unprotect inp cap)).1 = .ok out :=
  delivered_repeatedly (N := beVal piv - 1) (by omega) hp hreq ho hpiv (by omega) hcode k w
    ⟨hsync, fun x hx => by have := habove x hx; omega⟩ hd hok

/-- **C04 is false, for every context**: take any context initialised as fresh and any history of calls.  A delivered
request (whose message is a request) with a number of 256 or more is delivered again, with the same result, as often as
it is received. -/
theorem C04_false_general (cfg : Cfg) (C : Crypto) (prm : InitParams) (nv : R Nat) (jn je : Bytes) (c₀ : Ctx) (nvm : Nat) (log : List EncCall)
    (hfresh : prm.fresh = true) (hinit : contextInit cfg C prm nv jn je = .ok c₀)
    (before : List Op) (inp : Bytes) (cap : Nat) (out : Bytes) (p : Pkt) (t : List (Opt × Bytes)) (o : OscOpt) (piv : Bytes)
    (hp : coapParse inp = .ok (p, t)) (hreq : isRequest p = true) (ho : oscoreOptionParser t = .ok o) (hpiv : o.piv.read = .ok piv)
    (hn : 256 ≤ beVal piv) (hcode : ∀ x, out[1]? = some x → x.toNat < 32)
    (hok : (step cfg C (run cfg C ⟨c₀, nvm, log⟩ before) (.unprotect inp cap)).1 = .ok out) (k : Nat) :
    (step cfg C (run cfg C ⟨c₀, nvm, log⟩ (before ++ List.replicate k (.unprotect inp cap))) (.unprotect inp cap)).1 = .ok out := by
  have h0 : WindowMax 255 c₀ := by
    obtain ⟨iv, rk, ssn, sk, -, -, -, -, -, -, -, rfl⟩ := contextInit_ok hinit
    refine ⟨by simp [hfresh], fun x hx => ?_⟩
    have := (List.mem_replicate.1 (show x ∈ List.replicate cfg.windowSize 0 from hx)).2
    omega
  have hw := run_induction (cfg := cfg) (C := C) (P := fun w => WindowMax 255 w.ctx) (fun w op h => step_windowMax (Nat.le_refl _) w op h)
    (w := ⟨c₀, nvm, log⟩) h0 before
  have hd := (C29_history cfg C prm nv jn je c₀ hinit nvm log before).1
  have := delivered_repeatedly (N := 255) (Nat.le_refl _) hp hreq ho hpiv (by omega) hcode k _ hw hd hok
  rw [show run cfg C ⟨c₀, nvm, log⟩ (before ++ List.replicate k (.unprotect inp cap)) =
    run cfg C (run cfg C ⟨c₀, nvm, log⟩ before) (List.replicate k (.unprotect inp cap)) from List.foldl_append ..]
  exact this

/-- the hypotheses are met by the request with number 256 of `C04_false`: a thousand copies are delivered -/
example : (step exCfg toyCrypto (run exCfg toyCrypto (exW exServer) ([] ++ List.replicate 1000 (.unprotect exReplay256 256)))
    (.unprotect exReplay256 256)).1 = .ok exGet := by
  have hp : ∃ p t o, coapParse exReplay256 = .ok (p, t) ∧ isRequest p = true ∧ oscoreOptionParser t = .ok o ∧ o.piv.read = .ok [1, 0] := by
    have h : (match coapParse exReplay256 with
      | .ok (p, t) => match oscoreOptionParser t with
        | .ok o => isRequest p && decide (o.piv.read = .ok [1, 0])
        | _ => false
      | _ => false) = true := by decide +kernel
    split at h
    · rename_i p t hpt
      split at h
      · rename_i o hoo
        simp only [Bool.and_eq_true, decide_eq_true_eq] at h
        exact ⟨p, t, o, hpt, h.1, hoo, h.2⟩
      · cases h
    · cases h
  obtain ⟨p, t, o, h1, h2, h3, h4⟩ := hp
  exact C04_false_general exCfg toyCrypto (exServerParams true) (.ok 0) _ _ exServer 0 [] rfl exServer_init [] exReplay256 256 exGet p t o [1, 0]
    h1 h2 h3 h4 (by decide) (by intro x hx; revert hx; revert x; decide +kernel) C04_false.2.2.1 1000

/-! ### C11 -/

theorem plaintextSetup_head {cfg : Cfg} {p : Pkt} {e : List Opt} {n : Nat} {pt : Bytes} (h : plaintextSetup cfg p e (plaintextLen p n) = .ok pt) :
    pt.head? = some p.code := by
  unfold plaintextSetup at h
  obtain ⟨ser, -, h1⟩ := R.bind_eq_ok.1 h
  obtain ⟨ser2, -, h2⟩ := R.bind_eq_ok.1 h1
  clear h h1
  split at h2
  · split at h2
    · cases h2
    · cases h2; rfl
  · split at h2
    · cases h2
    · obtain ⟨pl, -, h3⟩ := R.bind_eq_ok.1 h2
      clear h2
      simp only at h3
      split at h3
      · cases h3
      · split at h3
        · cases h3
        · cases h3
          have : plaintextLen p n = (plaintextLen p n - 1) + 1 := by unfold plaintextLen; omega
          rw [this]; rfl

/-- **C11 is false, for every context and every pair of answers**: when two responses (that are not notifications) are
protected one after the other, both are encrypted with the Sender Key and the same nonce – the one of the message processed
last – whatever requests they answer; with different response codes the plaintexts differ. -/
theorem C11_false_general (cfg : Cfg) (C : Crypto) (w : World) (he : w.ctx.echo ≠ .verify) (inp1 inp2 b1 b2 : Bytes) (cap1 cap2 : Nat)
    (nvm1 nvm2 : Option Err) (p1 p2 : Pkt) (hp1 : coapDeserialize inp1 = .ok p1) (hp2 : coapDeserialize inp2 = .ok p2)
    (ha1 : ¬(p1.type = 2 ∧ p1.code = 0)) (ha2 : ¬(p2.type = 2 ∧ p2.code = 0))
    (hr1 : isRequest p1 = false ∧ p1.opts.any (fun o => o.num == 6) = false) (hr2 : isRequest p2 = false ∧ p2.opts.any (fun o => o.num == 6) = false)
    (h1 : (step cfg C w (.protect inp1 cap1 nvm1)).1 = .ok b1)
    (h2 : (step cfg C (step cfg C w (.protect inp1 cap1 nvm1)).2 (.protect inp2 cap2 nvm2)).1 = .ok b2) :
    ∃ e1 e2, (run cfg C w [.protect inp1 cap1 nvm1, .protect inp2 cap2 nvm2]).log = e2 :: e1 :: w.log ∧
      e1.key = w.ctx.senderKey ∧ e2.key = w.ctx.senderKey ∧ e1.nonce = w.ctx.nonce ∧ e2.nonce = w.ctx.nonce ∧
      (p1.code ≠ p2.code → e1.pt ≠ e2.pt) := by
  have hty : ∀ {p : Pkt} {w : World}, isRequest p = false ∧ p.opts.any (fun o => o.num == 6) = false → w.ctx.echo ≠ .verify →
      needsNewPiv (msgType p) w.ctx.echo = false := by
    intro p w h he
    have : msgType p = .response := by
      rcases msgType_response h.1 with h' | h'
      · exact h'
      · have := (isObserve_msgType h.1).2 h'
        have h2 : isObserve p.opts = false := h.2
        rw [h2] at this; cases this
    unfold needsNewPiv
    rw [this]
    simp [he]
  obtain ⟨v1, hv1⟩ := protect_ok (w' := (step cfg C w (.protect inp1 cap1 nvm1)).2) (Prod.ext h1 rfl) hp1 ha1
  have he' : (step cfg C w (.protect inp1 cap1 nvm1)).2.ctx.echo = w.ctx.echo := (coap2oscore_frame cfg C nvm1 inp1 cap1 w).echo
  have hk' : (step cfg C w (.protect inp1 cap1 nvm1)).2.ctx.senderKey = w.ctx.senderKey := (coap2oscore_frame cfg C nvm1 inp1 cap1 w).senderKey
  show ∃ e1 e2, (step cfg C (step cfg C w (.protect inp1 cap1 nvm1)).2 (.protect inp2 cap2 nvm2)).2.log = _ ∧ _
  generalize (step cfg C w (.protect inp1 cap1 nvm1)).2 = w1 at *
  obtain ⟨v2, hv2⟩ := protect_ok (w' := (step cfg C w1 (.protect inp2 cap2 nvm2)).2) (Prod.ext h2 rfl) hp2 ha2
  have n1 : v1.nonce = w.ctx.nonce := (hv1.ifReuse (hv1.new.trans (hty hr1 he))).2.2.2.1
  have n2 : v2.nonce = w1.ctx.nonce := (hv2.ifReuse (hv2.new.trans (hty hr2 (by rw [he']; exact he)))).2.2.2.1
  refine ⟨_, _, by rw [hv2.log, hv1.log], rfl, hk', n1, by show v2.nonce = _; rw [n2, hv1.nonce', n1], ?_⟩
  intro hne heq
  have q1 := plaintextSetup_head hv1.pt
  have q2 := plaintextSetup_head hv2.pt
  rw [show v1.pt = v2.pt from heq, q2] at q1
  exact hne (Option.some.inj q1).symm

/-- the hypotheses are met: two requests, then their two responses -/
example :
    let s := afterRecv exCfg (afterRecv exCfg (exW exServer) (sendOf exCfg (exW exClient) exGet)) (sendOf exCfg (afterSend exCfg (exW exClient) exGet) exGet2)
    (step exCfg toyCrypto s (.protect exRsp 256 none)).1.isOk = true ∧
    (step exCfg toyCrypto (step exCfg toyCrypto s (.protect exRsp 256 none)).2 (.protect exRsp2 256 none)).1.isOk = true ∧ s.ctx.echo ≠ .verify := by
  decide +kernel

end Verif
