import Verif.Lemmas.MLemmas
namespace Verif

/-- the condition under which `generate_new_ssn` writes the NVM -/
def nvmWriteDue (cfg : Cfg) (c : Ctx) : Prop :=
  c.fresh = false ∧ cfg.nvm = true ∧ ((c.ssn + 1) % cfg.kStore = 0 ∨ c.echo ≠ .synchronized)

instance (cfg c) : Decidable (nvmWriteDue cfg c) := by unfold nvmWriteDue; infer_instance

/-- the world after `generate_new_ssn` -/
def bumped (cfg : Cfg) (nvmW : Option Err) (w : World) : World :=
  { w with
    ctx := { w.ctx with ssn := w.ctx.ssn + 1 }
    nvm := if nvmWriteDue cfg w.ctx ∧ nvmW = none then w.ctx.ssn + 1 else w.nvm }

theorem generateNewSsn_eq (cfg : Cfg) (nvmW : Option Err) (w : World) :
    generateNewSsn cfg nvmW w =
      ((if nvmWriteDue cfg w.ctx then (match nvmW with | none => .ok () | some e => .err e) else .ok ()),
        bumped cfg nvmW w) := by
  by_cases h : nvmWriteDue cfg w.ctx
  · have h' := h
    unfold nvmWriteDue at h'
    unfold generateNewSsn bumped
    simp only
    rw [if_pos h', if_pos h]
    cases nvmW with
    | none => rw [if_pos ⟨h, rfl⟩]
    | some e => rw [if_neg (by simp)]
  · have h' := h
    unfold nvmWriteDue at h'
    unfold generateNewSsn bumped
    simp only
    rw [if_neg h', if_neg h, if_neg (fun hh => h hh.1)]

/-- What one run of the encryption step can do to the world. -/
inductive EncEffect (cfg : Cfg) (C : Crypto) (nvmW : Option Err) (pt : Bytes) (p : Pkt) (w : World) :
    R (Bytes × Bytes) → World → Prop
  /-- stopped before anything changed -/
  | unchanged {r} (hr : ∀ x, r ≠ .ok x) : EncEffect cfg C nvmW pt p w r w
  /-- a sequence number was consumed, but nothing was encrypted -/
  | consumed {r} (hr : ∀ x, r ≠ .ok x) (hn : needsNewPiv (msgType p) w.ctx.echo = true) :
      EncEffect cfg C nvmW pt p w r (bumped cfg nvmW w)
  /-- encrypted with a new PIV; `t` is the interaction table afterwards -/
  | fresh {r} {piv nonce rp rk aad ct opt t}
      (hn : needsNewPiv (msgType p) w.ctx.echo = true)
      (hw : nvmWriteDue cfg w.ctx → nvmW = none)
      (hpiv : ssn2piv w.ctx.ssn = .ok piv)
      (hnonce : createNonce w.ctx.senderId piv w.ctx.commonIv = .ok nonce)
      (hopt : oscoreOptionGenerate piv w.ctx.senderId w.ctx.idContext = .ok opt)
      (hread : readWrapper w.ctx.inter (msgType p) p.token (.ok (piv, w.ctx.senderId)) = .ok (rp, rk))
      (haad : createAad rk rp = .ok aad)
      (hct : coseEncrypt C pt nonce aad w.ctx.senderKey = .ok ct)
      (hres : (r = .ok (ct, opt) ∧ ∃ uri, uriPathCreate p.opts cfg.uriMax = .ok uri ∧
          updateWrapper cfg w.ctx.inter (msgType p) p.token uri rp rk = .ok t) ∨
        ((∀ x, r ≠ .ok x) ∧ t = w.ctx.inter)) :
      EncEffect cfg C nvmW pt p w r
        { bumped cfg nvmW w with
          ctx := { (bumped cfg nvmW w).ctx with nonce := nonce, inter := t }
          log := { key := w.ctx.senderKey, nonce, aad, pt, newSsn := some w.ctx.ssn } :: w.log }
  /-- encrypted with the nonce of the request -/
  | reuse {r} {rp rk aad ct opt t}
      (hn : needsNewPiv (msgType p) w.ctx.echo = false)
      (hopt : oscoreOptionGenerate [] [] [] = .ok opt)
      (hread : readWrapper w.ctx.inter (msgType p) p.token (.ok ([], [])) = .ok (rp, rk))
      (haad : createAad rk rp = .ok aad)
      (hct : coseEncrypt C pt w.ctx.nonce aad w.ctx.senderKey = .ok ct)
      (hres : (r = .ok (ct, opt) ∧ ∃ uri, uriPathCreate p.opts cfg.uriMax = .ok uri ∧
          updateWrapper cfg w.ctx.inter (msgType p) p.token uri rp rk = .ok t) ∨
        ((∀ x, r ≠ .ok x) ∧ t = w.ctx.inter)) :
      EncEffect cfg C nvmW pt p w r
        { w with
          ctx := { w.ctx with inter := t }
          log := { key := w.ctx.senderKey, nonce := w.ctx.nonce, aad, pt, newSsn := none } :: w.log }

theorem encryptWrapper_effect (cfg : Cfg) (C : Crypto) (nvmW : Option Err) (pt : Bytes) (p : Pkt)
    (w : World) :
    EncEffect cfg C nvmW pt p w (encryptWrapper cfg C nvmW pt p w).1
      (encryptWrapper cfg C nvmW pt p w).2 := by
  unfold encryptWrapper pickNonce
  simp only [M.bind_get]
  cases hn : needsNewPiv (msgType p) w.ctx.echo with
  | true =>
    simp only [if_true, M.bind_assoc, M.bind_get]
    cases hpiv : ssn2piv w.ctx.ssn with
    | err e => exact .unchanged (by simp [M.bind_lift_err])
    | ub => exact .unchanged (by simp [M.bind_lift_ub])
    | ok piv =>
      simp only [M.bind_lift_ok, M.bind_assoc]
      rw [M.run_bind, generateNewSsn_eq]
      by_cases hdue : nvmWriteDue cfg w.ctx ∧ nvmW ≠ none
      · obtain ⟨hdue, hw⟩ := hdue
        cases nvmW with
        | none => exact absurd rfl hw
        | some e =>
          simp only [if_pos hdue]
          exact .consumed (by simp) hn
      · have hw : nvmWriteDue cfg w.ctx → nvmW = none := by
          intro hd
          apply Classical.byContradiction
          intro hh; exact hdue ⟨hd, hh⟩
        have hok : (if nvmWriteDue cfg w.ctx then
            (match nvmW with | none => (.ok () : R Unit) | some e => .err e) else .ok ()) = .ok () := by
          split
          · rename_i hd; rw [hw hd]
          · rfl
        rw [hok]
        simp only
        cases hnonce : createNonce w.ctx.senderId piv w.ctx.commonIv with
        | err e => exact .consumed (by simp [M.bind_assoc, M.bind_lift_err]) hn
        | ub => exact .consumed (by simp [M.bind_assoc, M.bind_lift_ub]) hn
        | ok nonce =>
          simp only [M.bind_assoc, M.bind_lift_ok, M.bind_pure]
          cases hopt : oscoreOptionGenerate piv w.ctx.senderId w.ctx.idContext with
          | err e => exact .consumed (by simp [M.bind_lift_err]) hn
          | ub => exact .consumed (by simp [M.bind_lift_ub]) hn
          | ok opt =>
            simp only [M.bind_lift_ok]
            cases hread : readWrapper w.ctx.inter (msgType p) p.token (.ok (piv, w.ctx.senderId)) with
            | err e => exact .consumed (by simp [M.bind_lift_err]) hn
            | ub => exact .consumed (by simp [M.bind_lift_ub]) hn
            | ok rr =>
              obtain ⟨rp, rk⟩ := rr
              simp only [M.bind_lift_ok]
              cases haad : createAad rk rp with
              | err e => exact .consumed (by simp [M.bind_lift_err]) hn
              | ub => exact .consumed (by simp [M.bind_lift_ub]) hn
              | ok aad =>
                simp only [M.bind_lift_ok]
                cases hct : coseEncrypt C pt nonce aad w.ctx.senderKey with
                | err e => exact .consumed (by simp [M.bind_lift_err]) hn
                | ub => exact .consumed (by simp [M.bind_lift_ub]) hn
                | ok ct =>
                  simp only [M.bind_lift_ok, M.bind_modify]
                  cases huri : uriPathCreate p.opts cfg.uriMax with
                  | err e =>
                    exact .fresh hn hw hpiv hnonce hopt hread haad hct
                      (t := w.ctx.inter) (Or.inr ⟨by simp [M.bind_lift_err], rfl⟩)
                  | ub =>
                    exact .fresh hn hw hpiv hnonce hopt hread haad hct
                      (t := w.ctx.inter) (Or.inr ⟨by simp [M.bind_lift_ub], rfl⟩)
                  | ok uri =>
                    simp only [M.bind_lift_ok]
                    cases ht : updateWrapper cfg w.ctx.inter (msgType p) p.token uri rp rk with
                    | err e =>
                      exact .fresh hn hw hpiv hnonce hopt hread haad hct
                        (t := w.ctx.inter) (Or.inr ⟨by simp [M.bind_lift_err], rfl⟩)
                    | ub =>
                      exact .fresh hn hw hpiv hnonce hopt hread haad hct
                        (t := w.ctx.inter) (Or.inr ⟨by simp [M.bind_lift_ub], rfl⟩)
                    | ok t =>
                      exact .fresh hn hw hpiv hnonce hopt hread haad hct
                        (Or.inl ⟨rfl, uri, huri, ht⟩)
  | false =>
    simp only [Bool.false_eq_true, if_false, M.bind_assoc, M.bind_get, M.bind_pure]
    cases hopt : oscoreOptionGenerate [] [] [] with
    | err e => exact .unchanged (by simp [M.bind_lift_err])
    | ub => exact .unchanged (by simp [M.bind_lift_ub])
    | ok opt =>
      simp only [M.bind_lift_ok]
      cases hread : readWrapper w.ctx.inter (msgType p) p.token (.ok ([], [])) with
      | err e => exact .unchanged (by simp [M.bind_lift_err])
      | ub => exact .unchanged (by simp [M.bind_lift_ub])
      | ok rr =>
        obtain ⟨rp, rk⟩ := rr
        simp only [M.bind_lift_ok]
        cases haad : createAad rk rp with
        | err e => exact .unchanged (by simp [M.bind_lift_err])
        | ub => exact .unchanged (by simp [M.bind_lift_ub])
        | ok aad =>
          simp only [M.bind_lift_ok]
          cases hct : coseEncrypt C pt w.ctx.nonce aad w.ctx.senderKey with
          | err e => exact .unchanged (by simp [M.bind_lift_err])
          | ub => exact .unchanged (by simp [M.bind_lift_ub])
          | ok ct =>
            simp only [M.bind_lift_ok, M.bind_modify]
            cases huri : uriPathCreate p.opts cfg.uriMax with
            | err e =>
              exact .reuse hn hopt hread haad hct
                (t := w.ctx.inter) (Or.inr ⟨by simp [M.bind_lift_err], rfl⟩)
            | ub =>
              exact .reuse hn hopt hread haad hct
                (t := w.ctx.inter) (Or.inr ⟨by simp [M.bind_lift_ub], rfl⟩)
            | ok uri =>
              simp only [M.bind_lift_ok]
              cases ht : updateWrapper cfg w.ctx.inter (msgType p) p.token uri rp rk with
              | err e =>
                exact .reuse hn hopt hread haad hct
                  (t := w.ctx.inter) (Or.inr ⟨by simp [M.bind_lift_err], rfl⟩)
              | ub =>
                exact .reuse hn hopt hread haad hct
                  (t := w.ctx.inter) (Or.inr ⟨by simp [M.bind_lift_ub], rfl⟩)
              | ok t =>
                exact .reuse hn hopt hread haad hct (Or.inl ⟨rfl, uri, huri, ht⟩)


/-- the world after the Echo value of a challenge was cached -/
def withEcho (w : World) (v : Bytes) : World := { w with ctx := { w.ctx with echoVal := v } }

/-- What one call of `coap2oscore` can do. -/
inductive ProtectEffect (cfg : Cfg) (C : Crypto) (nvmW : Option Err) (inp : Bytes) (cap : Nat)
    (w : World) : R Bytes → World → Prop
  | unchanged {r} (hr : ∀ x, r ≠ .ok x) : ProtectEffect cfg C nvmW inp cap w r w
  | emptyAck {p} (hf : w.ctx.ssn < ssnOverflow) (hp : coapDeserialize inp = .ok p)
      (hack : p.type = 2 ∧ p.code = 0) (hcap : inp.length ≤ cap) :
      ProtectEffect cfg C nvmW inp cap w (.ok inp) w
  | enc {p : Pkt} {s : Split} {pt ev : Bytes} {r : R (Bytes × Bytes)} {w' : World}
      (hf : w.ctx.ssn < ssnOverflow) (hp : coapDeserialize inp = .ok p)
      (hack : ¬(p.type = 2 ∧ p.code = 0)) (hs : optionSplit p = .ok s)
      (hlen : plaintextLen p s.eLen ≤ cfg.maxPlaintext)
      (hpt : plaintextSetup cfg p s.e (plaintextLen p s.eLen) = .ok pt)
      (hev : if w.ctx.echo = .verify then cacheEchoVal w.ctx.echoVal s.e = .ok ev
        else ev = w.ctx.echoVal)
      (henc : EncEffect cfg C nvmW pt p (withEcho w ev) r w') :
      ProtectEffect cfg C nvmW inp cap w
        (r >>= fun x => coapSerialize cfg (oscorePkgGenerate p s.u x.1 x.2) cap) w'

theorem checkFreshness_ok {c : Ctx} (u) (h : checkFreshness c = .ok u) : c.ssn < ssnOverflow := by
  unfold checkFreshness at h
  by_cases hh : c.ssn ≥ ssnOverflow
  · rw [if_pos hh] at h; exact absurd h (by simp)
  · omega

theorem protectPkt_effect (cfg : Cfg) (C : Crypto) (nvmW : Option Err) (inp : Bytes) (p : Pkt)
    (cap : Nat) (w : World) (hf : w.ctx.ssn < ssnOverflow) (hp : coapDeserialize inp = .ok p)
    (hack : ¬(p.type = 2 ∧ p.code = 0)) :
    ProtectEffect cfg C nvmW inp cap w (protectPkt cfg C nvmW p cap w).1
      (protectPkt cfg C nvmW p cap w).2 := by
  unfold protectPkt
  cases hs : optionSplit p with
  | err e => exact .unchanged (by simp [M.bind_lift_err])
  | ub => exact .unchanged (by simp [M.bind_lift_ub])
  | ok s =>
  simp only [M.bind_lift_ok]
  cases hl : checkBufferSize cfg.maxPlaintext (plaintextLen p s.eLen) with
  | err e => exact .unchanged (by simp [M.bind_lift_err])
  | ub => exact .unchanged (by simp [M.bind_lift_ub])
  | ok u =>
  have hl' := checkBufferSize_ok.1 hl
  simp only [M.bind_lift_ok]
  cases hpt : plaintextSetup cfg p s.e (plaintextLen p s.eLen) with
  | err e => exact .unchanged (by simp [M.bind_lift_err])
  | ub => exact .unchanged (by simp [M.bind_lift_ub])
  | ok pt =>
  simp only [M.bind_lift_ok]
  have main : ∀ ev, (if w.ctx.echo = .verify then cacheEchoVal w.ctx.echoVal s.e = .ok ev
        else ev = w.ctx.echoVal) →
      ∀ x, x = (encryptWrapper cfg C nvmW pt p >>= fun a => (M.lift (coapSerialize cfg (oscorePkgGenerate p s.u a.1 a.2) cap) : M World Bytes)) (withEcho w ev) →
      ProtectEffect cfg C nvmW inp cap w x.1 x.2 := by
    intro ev hev x hx
    have he := encryptWrapper_effect cfg C nvmW pt p (withEcho w ev)
    have hx1 : x.1 = ((encryptWrapper cfg C nvmW pt p (withEcho w ev)).1 >>= fun x =>
        coapSerialize cfg (oscorePkgGenerate p s.u x.1 x.2) cap) := by
      rw [hx, M.run_bind]
      rcases hh : encryptWrapper cfg C nvmW pt p (withEcho w ev) with ⟨r, w'⟩
      cases r <;> rfl
    have hx2 : x.2 = (encryptWrapper cfg C nvmW pt p (withEcho w ev)).2 := by
      rw [hx, M.run_bind]
      rcases hh : encryptWrapper cfg C nvmW pt p (withEcho w ev) with ⟨r, w'⟩
      cases r <;> rfl
    rw [hx1, hx2]
    exact .enc hf hp hack hs hl' hpt hev he
  by_cases hv : w.ctx.echo = .verify
  · unfold cacheEcho
    simp only [M.bind_assoc, M.bind_get, if_pos hv]
    cases hce : cacheEchoVal w.ctx.echoVal s.e with
    | err e => exact .unchanged (by simp [M.bind_lift_err])
    | ub => exact .unchanged (by simp [M.bind_lift_ub])
    | ok ev =>
      simp only [M.bind_lift_ok, M.bind_modify]
      exact main ev (by rw [if_pos hv]; exact hce) _ rfl
  · unfold cacheEcho
    simp only [M.bind_assoc, M.bind_get, if_neg hv, M.bind_pure]
    exact main w.ctx.echoVal (by rw [if_neg hv]) _ rfl

theorem coap2oscore_effect (cfg : Cfg) (C : Crypto) (nvmW : Option Err) (inp : Bytes) (cap : Nat)
    (w : World) :
    ProtectEffect cfg C nvmW inp cap w (coap2oscore cfg C nvmW inp cap w).1
      (coap2oscore cfg C nvmW inp cap w).2 := by
  unfold coap2oscore
  simp only [M.bind_get]
  cases hf : checkFreshness w.ctx with
  | err e => exact .unchanged (by simp [M.bind_lift_err])
  | ub => exact .unchanged (by simp [M.bind_lift_ub])
  | ok u =>
  have hf' := checkFreshness_ok u hf
  simp only [M.bind_lift_ok]
  cases hp : coapDeserialize inp with
  | err e => exact .unchanged (by simp [M.bind_lift_err])
  | ub => exact .unchanged (by simp [M.bind_lift_ub])
  | ok p =>
  simp only [M.bind_lift_ok]
  by_cases hack : p.type = 2 ∧ p.code = 0
  · rw [if_pos hack]
    by_cases hc : cap < inp.length
    · rw [if_pos hc]; exact .unchanged (by simp)
    · rw [if_neg hc]; exact .emptyAck hf' hp hack (by omega)
  · rw [if_neg hack]
    exact protectPkt_effect cfg C nvmW inp p cap w hf' hp hack

/-- Fields of the context that `coap2oscore` never touches, and how the others may change. -/
structure ProtectFrame (cfg : Cfg) (w w' : World) : Prop where
  fresh : w'.ctx.fresh = w.ctx.fresh
  idContext : w'.ctx.idContext = w.ctx.idContext
  commonIv : w'.ctx.commonIv = w.ctx.commonIv
  senderId : w'.ctx.senderId = w.ctx.senderId
  senderKey : w'.ctx.senderKey = w.ctx.senderKey
  recipientId : w'.ctx.recipientId = w.ctx.recipientId
  recipientKey : w'.ctx.recipientKey = w.ctx.recipientKey
  window : w'.ctx.window = w.ctx.window
  notifNum : w'.ctx.notifNum = w.ctx.notifNum
  notifInit : w'.ctx.notifInit = w.ctx.notifInit
  echo : w'.ctx.echo = w.ctx.echo
  ssn : (w'.ctx.ssn = w.ctx.ssn ∧ w'.nvm = w.nvm) ∨ w'.ctx.ssn = w.ctx.ssn + 1

theorem coap2oscore_frame (cfg : Cfg) (C : Crypto) (nvmW : Option Err) (inp : Bytes) (cap : Nat)
    (w : World) : ProtectFrame cfg w (coap2oscore cfg C nvmW inp cap w).2 := by
  have h := coap2oscore_effect cfg C nvmW inp cap w
  generalize (coap2oscore cfg C nvmW inp cap w).1 = r at h
  generalize (coap2oscore cfg C nvmW inp cap w).2 = w' at h
  cases h with
  | unchanged _ => constructor <;> simp
  | emptyAck => constructor <;> simp
  | enc hf hp hack hs hlen hpt hev henc =>
    cases henc <;> constructor <;> simp [withEcho, bumped]

end Verif
