import Verif.Props.OscoreOption
import Verif.Props.Replay
import Verif.Lemmas.Toy
/-
What a single call leaves unchanged.
-/
namespace Verif

/-- Fields of the context that `oscore2coap` never touches. -/
structure RecvFrame (c c' : Ctx) : Prop where
  fresh : c'.fresh = c.fresh
  idContext : c'.idContext = c.idContext
  commonIv : c'.commonIv = c.commonIv
  senderId : c'.senderId = c.senderId
  senderKey : c'.senderKey = c.senderKey
  ssn : c'.ssn = c.ssn
  recipientId : c'.recipientId = c.recipientId
  recipientKey : c'.recipientKey = c.recipientKey
  echoVal : c'.echoVal = c.echoVal

theorem DecEffect.frame {cfg C opt p c r c'} (h : DecEffect cfg C opt p c r c') :
    RecvFrame c c' ∧ c'.window = c.window ∧ c'.notifNum = c.notifNum ∧ c'.notifInit = c.notifInit ∧
      c'.echo = c.echo := by
  cases h <;> exact ⟨by constructor <;> rfl, rfl, rfl, rfl, rfl⟩

theorem RecvFrame.refl (c : Ctx) : RecvFrame c c := by constructor <;> rfl

theorem RecvFrame.trans {a b c : Ctx} (h : RecvFrame a b) (h' : RecvFrame b c) : RecvFrame a c := by
  obtain ⟨_, _, _, _, _, _, _, _, _⟩ := h
  obtain ⟨_, _, _, _, _, _, _, _, _⟩ := h'
  constructor <;> simp_all

theorem AfterEffect.frame {o pt c r c'} (h : AfterEffect o pt c r c') :
    RecvFrame c c' ∧ c'.notifNum = c.notifNum ∧ c'.notifInit = c.notifInit ∧ c'.nonce = c.nonce ∧
      c'.inter = c.inter := by
  cases h <;> exact ⟨by constructor <;> rfl, rfl, rfl, rfl, rfl⟩

theorem oscore2coap_frame (cfg : Cfg) (C : Crypto) (inp : Bytes) (cap : Nat) (c : Ctx) :
    RecvFrame c (oscore2coap cfg C inp cap c).2 := by
  have h := oscore2coap_effect cfg C inp cap c
  generalize (oscore2coap cfg C inp cap c).1 = r at h
  generalize (oscore2coap cfg C inp cap c).2 = c' at h
  cases h with
  | unchanged _ => exact RecvFrame.refl _
  | reqFail _ _ _ _ _ _ hdec => exact hdec.frame.1
  | reqOk _ _ _ _ _ _ hdec ha => exact hdec.frame.1.trans ha.frame.1
  | rspFail _ _ _ _ _ hdec => exact hdec.frame.1
  | notifOk _ _ _ _ _ _ _ _ hdec =>
    exact hdec.frame.1.trans (by constructor <;> rfl)
  | rspOk _ _ _ _ _ _ hdec => exact hdec.frame.1

/-- the identity of a context: fields that no call ever changes -/
structure SameIdentity (c c' : Ctx) : Prop where
  fresh : c'.fresh = c.fresh
  idContext : c'.idContext = c.idContext
  commonIv : c'.commonIv = c.commonIv
  senderId : c'.senderId = c.senderId
  senderKey : c'.senderKey = c.senderKey
  recipientId : c'.recipientId = c.recipientId
  recipientKey : c'.recipientKey = c.recipientKey

theorem SameIdentity.refl (c : Ctx) : SameIdentity c c := by constructor <;> rfl
theorem SameIdentity.trans {a b c : Ctx} (h : SameIdentity a b) (h' : SameIdentity b c) :
    SameIdentity a c := by
  obtain ⟨_, _, _, _, _, _, _⟩ := h
  obtain ⟨_, _, _, _, _, _, _⟩ := h'
  constructor <;> simp_all

theorem step_identity (cfg : Cfg) (C : Crypto) (w : World) (op : Op) :
    SameIdentity w.ctx (step cfg C w op).2.ctx := by
  cases op with
  | protect inp cap nvmW =>
    have h := coap2oscore_frame cfg C nvmW inp cap w
    obtain ⟨_, _, _, _, _, _, _, _, _, _, _, _⟩ := h
    constructor <;> assumption
  | unprotect inp cap =>
    have h := oscore2coap_frame cfg C inp cap w.ctx
    obtain ⟨_, _, _, _, _, _, _, _, _⟩ := h
    constructor <;> assumption

theorem run_nil (cfg : Cfg) (C : Crypto) (w : World) : run cfg C w [] = w := rfl
theorem run_cons (cfg : Cfg) (C : Crypto) (w : World) (op : Op) (h : List Op) :
    run cfg C w (op :: h) = run cfg C (step cfg C w op).2 h := rfl
theorem run_append (cfg : Cfg) (C : Crypto) (w : World) (h h' : List Op) :
    run cfg C w (h ++ h') = run cfg C (run cfg C w h) h' := by
  unfold run; rw [List.foldl_append]

theorem run_identity (cfg : Cfg) (C : Crypto) (w : World) (h : List Op) :
    SameIdentity w.ctx (run cfg C w h).ctx := by
  induction h generalizing w with
  | nil => exact SameIdentity.refl _
  | cons op h ih => exact (step_identity cfg C w op).trans (ih _)

/-- induction principle: a property kept by every call holds after every history -/
theorem run_induction {cfg : Cfg} {C : Crypto} (P : World → Prop)
    (hstep : ∀ w op, P w → P (step cfg C w op).2) {w : World} (hw : P w) (h : List Op) :
    P (run cfg C w h) := by
  induction h generalizing w with
  | nil => exact hw
  | cons op h ih => exact ih (hstep _ _ hw)

/-- how one call changes window and Echo state -/
inductive SyncStep (c c' : Ctx) : Prop
  | same (hw : c'.window = c.window) (he : c'.echo = c.echo)
  | toVerify (he : c.echo = .reboot) (hw : c'.window = c.window) (he' : c'.echo = .verify)
  | toSync (n : Nat) (he : c.echo = .verify) (hw : c'.window = c.window.reinit n)
      (he' : c'.echo = .synchronized)
  | record (n : Nat) (he : c.echo = .synchronized) (hw : c'.window = (c.window.update n).2)
      (he' : c'.echo = .synchronized)

theorem oscore2coap_sync (cfg : Cfg) (C : Crypto) (inp : Bytes) (cap : Nat) (c : Ctx) :
    SyncStep c (oscore2coap cfg C inp cap c).2 := by
  have h := oscore2coap_effect cfg C inp cap c
  generalize (oscore2coap cfg C inp cap c).1 = r at h
  generalize (oscore2coap cfg C inp cap c).2 = c' at h
  cases h with
  | unchanged _ => exact .same rfl rfl
  | reqFail _ _ _ _ _ _ hdec => exact .same hdec.frame.2.1 hdec.frame.2.2.2.2
  | reqOk _ _ _ _ _ _ hdec ha =>
    have hw := hdec.frame.2.1
    have he := hdec.frame.2.2.2.2
    cases ha with
    | reboot h => exact .toVerify (by rw [← he]; exact h) hw rfl
    | @verified piv h hv hp => exact .toSync (beVal piv) (by rw [← he]; exact h) (by simp [hw]) rfl
    | failed hr h => exact .same hw he
    | @recorded b l h hp =>
      exact .record b.toNat (by rw [← he]; exact h) (by simp [hw]) h
    | bad hr h hp => exact .same hw he
  | rspFail _ _ _ _ _ hdec => exact .same hdec.frame.2.1 hdec.frame.2.2.2.2
  | notifOk _ _ _ _ _ _ _ _ hdec => exact .same hdec.frame.2.1 hdec.frame.2.2.2.2
  | rspOk _ _ _ _ _ _ hdec => exact .same hdec.frame.2.1 hdec.frame.2.2.2.2

theorem step_sync (cfg : Cfg) (C : Crypto) (w : World) (op : Op) :
    SyncStep w.ctx (step cfg C w op).2.ctx := by
  cases op with
  | protect inp cap nvmW =>
    have h := coap2oscore_frame cfg C nvmW inp cap w
    exact .same h.window h.echo
  | unprotect inp cap => exact oscore2coap_sync cfg C inp cap w.ctx

/-- contents of the replay window after `update`, relative to an invariant -/
theorem WInv.update_any {W : Nat} {w : ReplayWindow} {seen : List Nat} (h : WInv W w seen) (n : Nat) :
    ∃ seen', WInv W (w.update n).2 seen' ∧ n ∈ seen' ∨ WInv W (w.update n).2 seen ∧ w.valid n = false := by
  cases hv : w.valid n with
  | true => exact ⟨n :: seen, Or.inl ⟨h.update hv, by simp⟩⟩
  | false => exact ⟨seen, Or.inr ⟨by rw [update_eq_false hv]; exact h, rfl⟩⟩

/-- the window of a context is always well-formed -/
def WindowOk (W : Nat) (c : Ctx) : Prop := ∃ seen, WInv W c.window seen

theorem WInv.length {W w seen} (h : WInv W w seen) : w.window.length = W := h.len

theorem step_windowOk {cfg : Cfg} {C : Crypto} {W : Nat} {w : World} (op : Op) (hW : 0 < W)
    (h : WindowOk W w.ctx) : WindowOk W (step cfg C w op).2.ctx := by
  obtain ⟨seen, hs⟩ := h
  cases step_sync cfg C w op with
  | same hw he => exact ⟨seen, by rw [hw]; exact hs⟩
  | toVerify he hw _ => exact ⟨seen, by rw [hw]; exact hs⟩
  | toSync n he hw _ => exact ⟨_, by rw [hw]; exact WInv.reinit hW hs.length n⟩
  | record n he hw _ =>
    rw [WindowOk, hw]
    obtain ⟨s', h | h⟩ := hs.update_any n
    · exact ⟨s', h.1⟩
    · exact ⟨_, h.1⟩

/-- `n` is known to a synchronised server -/
def Known (W n : Nat) (c : Ctx) : Prop :=
  c.echo = .synchronized ∧ ∃ seen, WInv W c.window seen ∧ n ∈ seen

theorem step_known {cfg : Cfg} {C : Crypto} {W n : Nat} (w : World) (op : Op)
    (h : Known W n w.ctx) : Known W n (step cfg C w op).2.ctx := by
  obtain ⟨he, seen, hs, hn⟩ := h
  cases step_sync cfg C w op with
  | same hw he' => exact ⟨by rw [he', he], seen, by rw [hw]; exact hs, hn⟩
  | toVerify he' hw _ => rw [he] at he'; cases he'
  | toSync m he' hw _ => rw [he] at he'; cases he'
  | record m _ hw he' =>
    refine ⟨he', ?_⟩
    rw [hw]
    cases hv : w.ctx.window.valid m with
    | true => exact ⟨m :: seen, hs.update hv, List.mem_cons_of_mem _ hn⟩
    | false => exact ⟨seen, by rw [update_eq_false hv]; exact hs, hn⟩

theorem Known.invalid {W n : Nat} {c : Ctx} (h : Known W n c) : c.window.valid n = false := by
  obtain ⟨_, seen, hs, hn⟩ := h
  cases hv : c.window.valid n
  · rfl
  · exact absurd hn ((valid_iff hs n).1 hv).1

theorem contextInit_ok {cfg : Cfg} {C : Crypto} {p : InitParams} {nv : R Nat} {jn je : Bytes} {c : Ctx}
    (h : contextInit cfg C p nv jn je = .ok c) :
    ∃ iv rk ssn sk, p.aeadAlg = 10 ∧ p.hkdf = -10 ∧ derive cfg C p [] .iv = .ok iv ∧
      p.recipientId.length ≤ 8 ∧ derive cfg C p p.recipientId .key = .ok rk ∧
      ssnInit cfg nv p.fresh = .ok ssn ∧ derive cfg C p p.senderId .key = .ok sk ∧
      c = { fresh := p.fresh, idContext := p.idContext, commonIv := iv,
            senderId := p.senderId, senderKey := sk, ssn := ssn,
            recipientId := p.recipientId, recipientKey := rk,
            window := ReplayWindow.init cfg.windowSize, notifNum := 0, notifInit := false,
            nonce := jn, inter := Table.init cfg.interactions, echoVal := je,
            echo := if p.fresh then .synchronized else .reboot } := by
  unfold contextInit at h
  split at h
  · cases h
  · rename_i h1
    split at h
    · cases h
    · rename_i h2
      obtain ⟨iv, hiv, h⟩ := R.bind_eq_ok.1 h
      split at h
      · cases h
      · rename_i h3
        obtain ⟨rk, hrk, h⟩ := R.bind_eq_ok.1 h
        obtain ⟨ssn, hssn, h⟩ := R.bind_eq_ok.1 h
        obtain ⟨sk, hsk, h⟩ := R.bind_eq_ok.1 h
        refine ⟨iv, rk, ssn, sk, by simpa using h1, by simpa using h2, hiv, by omega, hrk, hssn, hsk, ?_⟩
        simpa using h.symm

theorem contextInit_windowOk {cfg : Cfg} {C : Crypto} {p : InitParams} {nv : R Nat} {jn je : Bytes}
    {c : Ctx} (hW : 0 < cfg.windowSize) (h : contextInit cfg C p nv jn je = .ok c) :
    WindowOk cfg.windowSize c := by
  obtain ⟨_, _, _, _, _, _, _, _, _, _, _, rfl⟩ := contextInit_ok h
  exact ⟨[], WInv.init hW⟩

end Verif
