import Verif.Model.Faults
import Verif.Props.Retry
import Verif.Props.Send
import Verif.Props.Receive
import Verif.Props.PsaStore
/-
C99: OSCORE over a crypto library that fails now and then.
-/
namespace Verif
open Verif

theorem runF_cons (cfg : Cfg) (w : World) (x : Crypto × Op) (h : List (Crypto × Op)) :
    runF cfg w (x :: h) = runF cfg (step cfg x.1 w x.2).2 h := rfl

theorem runF_induction {cfg : Cfg} (P : World → Prop) (hstep : ∀ C w op, P w → P (step cfg C w op).2) {w : World}
    (hw : P w) (h : List (Crypto × Op)) : P (runF cfg w h) := by
  induction h generalizing w with
  | nil => exact hw
  | cons x h ih => exact ih (hstep _ _ _ hw)

/-! ### A computation with a failing library -/

/-- from `s`, `m'` does what `m` does, or returns the error of the library in a state with `B` -/
def FallsAt (B : σ → Prop) (s : σ) (m m' : M σ α) : Prop :=
  m' s = m s ∨ ((m' s).1 = .err .unexpected_result_from_ext_lib ∧ B (m' s).2)

theorem FallsAt.refl {B : σ → Prop} {s : σ} {m : M σ α} : FallsAt B s m m := Or.inl rfl

theorem FallsAt.bind {B : σ → Prop} {s : σ} {m : M σ α} {f f' : α → M σ β}
    (h : ∀ a s1, m s = (.ok a, s1) → FallsAt B s1 (f a) (f' a)) : FallsAt B s (m >>= f) (m >>= f') := by
  unfold FallsAt
  rw [M.run_bind, M.run_bind]
  rcases hm : m s with ⟨r, s1⟩
  cases r with
  | ok a => exact h a s1 hm
  | err e => exact Or.inl rfl
  | ub => exact Or.inl rfl

theorem FallsAt.lift {B : σ → Prop} {s : σ} {x : R α} {f f' : α → M σ β} (h : ∀ a, x = .ok a → FallsAt B s (f a) (f' a)) :
    FallsAt B s (M.lift x >>= f) (M.lift x >>= f') :=
  FallsAt.bind fun a s1 h1 => by
    rw [M.run_lift, Prod.mk.injEq] at h1
    obtain ⟨h1, rfl⟩ := h1
    exact h a h1

theorem FallsAt.get {B : σ → Prop} {s : σ} {f f' : σ → M σ β} (h : FallsAt B s (f s) (f' s)) :
    FallsAt B s (M.get >>= f) (M.get >>= f') :=
  FallsAt.bind fun a s1 h1 => by
    rw [M.run_get, Prod.mk.injEq] at h1
    obtain ⟨h1, rfl⟩ := h1
    cases h1
    exact h

theorem FallsAt.left {B : σ → Prop} {s : σ} {m m' : M σ α} {f : α → M σ β} (h : FallsAt B s m m') :
    FallsAt B s (m >>= f) (m' >>= f) := by
  unfold FallsAt at h ⊢
  rw [M.run_bind, M.run_bind]
  rcases h with h | ⟨h1, h2⟩
  · rw [h]; exact Or.inl rfl
  · rcases hm : m' s with ⟨r, s1⟩
    rw [hm] at h1 h2
    cases h1
    exact Or.inr ⟨rfl, h2⟩

section
variable {C C' : Crypto} (hF : Faulty C C')
include hF

theorem falls_encrypt {B : σ → Prop} {s : σ} (hs : B s) (pt nonce aad key : Bytes) :
    FallsAt B s (M.lift (coseEncrypt C pt nonce aad key)) (M.lift (coseEncrypt C' pt nonce aad key)) := by
  unfold FallsAt
  simp only [M.run_lift, coseEncrypt]
  cases encStructure aad with
  | ok a =>
    simp only [R.ok_bind]
    rcases hF.enc key nonce a tagLen pt with h | h
    · rw [h]; exact Or.inr ⟨rfl, hs⟩
    · rw [h]; exact Or.inl rfl
  | err e => exact Or.inl rfl
  | ub => exact Or.inl rfl

theorem falls_decrypt {B : σ → Prop} {s : σ} (hs : B s) (ct nonce aad key : Bytes) :
    FallsAt B s (M.lift (coseDecrypt C ct nonce aad key)) (M.lift (coseDecrypt C' ct nonce aad key)) := by
  unfold FallsAt
  simp only [M.run_lift, coseDecrypt]
  cases encStructure aad with
  | ok a =>
    simp only [R.ok_bind]
    rcases hF.dec key nonce a tagLen ct with h | h
    · rw [h]; exact Or.inr ⟨rfl, hs⟩
    · rw [h]; exact Or.inl rfl
  | err e => exact Or.inl rfl
  | ub => exact Or.inl rfl

theorem decryptWrapper_falls {B : Ctx → Prop} {c : Ctx} (hc : B c) (cfg : Cfg) (opt : Option OscOpt) (p : Pkt) :
    FallsAt B c (decryptWrapper cfg C opt p) (decryptWrapper cfg C' opt p) := by
  unfold decryptWrapper
  exact FallsAt.get (FallsAt.lift fun _ _ => FallsAt.lift fun _ _ => FallsAt.lift fun _ _ =>
    FallsAt.left (falls_decrypt hF hc _ _ _ _))

theorem unprotectRequest_falls {B : Ctx → Prop} {c : Ctx} (hc : B c) (cfg : Cfg) (o : OscOpt) (p : Pkt) :
    FallsAt B c (unprotectRequest cfg C o p) (unprotectRequest cfg C' o p) := by
  unfold unprotectRequest
  refine FallsAt.get (FallsAt.lift fun m _ => ?_)
  split
  · exact FallsAt.refl
  · exact FallsAt.lift fun _ _ => FallsAt.left (decryptWrapper_falls hF hc cfg _ _)

theorem unprotectResponse_falls {B : Ctx → Prop} {c : Ctx} (hc : B c) (cfg : Cfg) (o : OscOpt) (p : Pkt) :
    FallsAt B c (unprotectResponse cfg C o p) (unprotectResponse cfg C' o p) := by
  unfold unprotectResponse
  refine FallsAt.get ?_
  split
  · split
    · exact FallsAt.lift fun _ _ => FallsAt.lift fun _ _ => FallsAt.left (decryptWrapper_falls hF hc cfg _ _)
    · exact FallsAt.refl
  · exact FallsAt.left (decryptWrapper_falls hF hc cfg _ _)

theorem oscore2coap_falls (cfg : Cfg) (inp : Bytes) (cap : Nat) (c : Ctx) :
    FallsAt (· = c) c (oscore2coap cfg C inp cap) (oscore2coap cfg C' inp cap) := by
  unfold oscore2coap
  refine FallsAt.get (FallsAt.lift fun _ _ => FallsAt.lift fun _ _ => FallsAt.lift fun _ _ => FallsAt.lift fun _ _ => ?_)
  dsimp only
  split
  · exact FallsAt.left (unprotectRequest_falls (B := (· = c)) hF rfl cfg _ _)
  · exact FallsAt.left (unprotectResponse_falls (B := (· = c)) hF rfl cfg _ _)
end

/-- what a failed encryption leaves behind: nothing but a used sequence number (stored or not) and, for an Echo
challenge, its value -/
structure Spent (w w' : World) : Prop where
  log : w'.log = w.log
  ctx : ∃ n v, (n = w.ctx.ssn ∨ n = w.ctx.ssn + 1) ∧ w'.ctx = { w.ctx with ssn := n, echoVal := v }
  echo : w.ctx.echo ≠ .verify → w'.ctx.echoVal = w.ctx.echoVal

theorem pickNonce_spent {cfg : Cfg} {nvmW : Option Err} {new : Bool} {w w1 : World} {x} (h : pickNonce cfg nvmW new w = (.ok x, w1)) :
    w1.log = w.log ∧ ∃ n, (n = w.ctx.ssn ∨ n = w.ctx.ssn + 1) ∧ w1.ctx = { w.ctx with ssn := n } := by
  unfold pickNonce at h
  obtain ⟨w0, s0, h0, h⟩ := M.bind_eq_ok.1 h
  rw [M.run_get, Prod.mk.injEq] at h0
  obtain ⟨h0, rfl⟩ := h0
  cases h0
  split at h
  · obtain ⟨piv, s1, h1, h⟩ := M.bind_eq_ok.1 h
    rw [M.run_lift, Prod.mk.injEq] at h1
    obtain ⟨_, rfl⟩ := h1
    obtain ⟨_, s2, h2, h⟩ := M.bind_eq_ok.1 h
    obtain ⟨_, s3, h3, h⟩ := M.bind_eq_ok.1 h
    rw [M.run_lift, Prod.mk.injEq] at h3
    obtain ⟨_, rfl⟩ := h3
    simp only [M.run_pure, Prod.mk.injEq] at h
    obtain ⟨_, rfl⟩ := h
    unfold generateNewSsn at h2
    simp only at h2
    split at h2
    · split at h2
      · simp only [Prod.mk.injEq, true_and] at h2
        subst h2
        exact ⟨rfl, _, Or.inr rfl, rfl⟩
      · simp at h2
    · simp only [Prod.mk.injEq, true_and] at h2
      subst h2
      exact ⟨rfl, _, Or.inr rfl, rfl⟩
  · simp only [M.run_pure, Prod.mk.injEq] at h
    obtain ⟨_, rfl⟩ := h
    exact ⟨rfl, _, Or.inl rfl, rfl⟩

theorem cacheEcho_spent {e : List Opt} {w w1 : World} {u} (h : cacheEcho e w = (.ok u, w1)) :
    w1.log = w.log ∧ (∃ v, w1.ctx = { w.ctx with echoVal := v }) ∧ (w.ctx.echo ≠ .verify → w1 = w) := by
  unfold cacheEcho at h
  obtain ⟨w0, s0, h0, h⟩ := M.bind_eq_ok.1 h
  rw [M.run_get, Prod.mk.injEq] at h0
  obtain ⟨h0, rfl⟩ := h0
  cases h0
  split at h
  · rename_i hv
    obtain ⟨v, s1, h1, h⟩ := M.bind_eq_ok.1 h
    rw [M.run_lift, Prod.mk.injEq] at h1
    obtain ⟨_, rfl⟩ := h1
    simp only [M.run_modify, Prod.mk.injEq] at h
    obtain ⟨_, rfl⟩ := h
    exact ⟨rfl, ⟨v, rfl⟩, fun hn => absurd hv hn⟩
  · simp only [M.run_pure, Prod.mk.injEq] at h
    obtain ⟨_, rfl⟩ := h
    exact ⟨rfl, ⟨_, rfl⟩, fun _ => rfl⟩

theorem coap2oscore_falls {C C' : Crypto} (hF : Faulty C C') (cfg : Cfg) (nvmW : Option Err) (inp : Bytes) (cap : Nat) (w : World) :
    FallsAt (Spent w) w (coap2oscore cfg C nvmW inp cap) (coap2oscore cfg C' nvmW inp cap) := by
  unfold coap2oscore
  refine FallsAt.get (FallsAt.lift fun _ _ => FallsAt.lift fun p _ => ?_)
  split
  · exact FallsAt.refl
  · unfold protectPkt
    refine FallsAt.lift fun s _ => FallsAt.lift fun _ _ => FallsAt.lift fun pt _ => ?_
    refine FallsAt.bind fun _ w1 h1 => FallsAt.left ?_
    obtain ⟨l1, ⟨v, c1⟩, e1⟩ := cacheEcho_spent h1
    unfold encryptWrapper
    refine FallsAt.get (FallsAt.bind fun x w2 h2 => ?_)
    obtain ⟨l2, n, hn, c2⟩ := pickNonce_spent h2
    have hsp : Spent w w2 := by
      refine ⟨by rw [l2, l1], ⟨n, v, ?_, ?_⟩, fun hv => ?_⟩
      · rw [c1] at hn; exact hn
      · rw [c2, c1]
      · rw [c2, e1 hv]
    obtain ⟨piv, kid, kctx, nonce⟩ := x
    exact FallsAt.lift fun _ _ => FallsAt.lift fun rr _ => FallsAt.lift fun _ _ => FallsAt.left (falls_encrypt hF hsp _ _ _ _)

/-! ### C99 -/

/-- C99: a call of oscore2coap during which the crypto library fails either does exactly what it does with a working
library, or returns an error and changes nothing. -/
theorem C99_receive {C C' : Crypto} (hF : Faulty C C') (cfg : Cfg) (w : World) (inp : Bytes) (cap : Nat) :
    step cfg C' w (.unprotect inp cap) = step cfg C w (.unprotect inp cap) ∨
    step cfg C' w (.unprotect inp cap) = (.err .unexpected_result_from_ext_lib, w) := by
  simp only [step]
  rcases oscore2coap_falls hF cfg inp cap w.ctx with h | ⟨h1, h2⟩
  · rw [h]; exact Or.inl rfl
  · rw [h1, h2]; exact Or.inr rfl

/-- C99: so a packet whose reception failed can be handed to oscore2coap again, with the result it would have had. -/
theorem C99_receive_again {C C' : Crypto} (hF : Faulty C C') (cfg : Cfg) (w : World) (inp : Bytes) (cap : Nat)
    (hdiff : step cfg C' w (.unprotect inp cap) ≠ step cfg C w (.unprotect inp cap)) :
    step cfg C (step cfg C' w (.unprotect inp cap)).2 (.unprotect inp cap) = step cfg C w (.unprotect inp cap) := by
  rw [(C99_receive hF cfg w inp cap).resolve_left hdiff]

/-- C99: a history of received packets with failures leaves the context as if the packets that were hit had been lost. -/
theorem C99_receive_history {C : Crypto} (cfg : Cfg) : ∀ (h : List (Crypto × Op)) (w : World),
    (∀ x ∈ h, Faulty C x.1 ∧ ∃ inp cap, x.2 = .unprotect inp cap) →
    ∃ h', h'.Sublist (h.map (·.2)) ∧ runF cfg w h = run cfg C w h'
  | [], w, _ => ⟨[], by simp, rfl⟩
  | (C', op) :: h, w, hh => by
    obtain ⟨hF, inp, cap, hop⟩ := hh (C', op) (List.mem_cons_self ..)
    simp only at hF hop
    subst hop
    rw [runF_cons]
    obtain ⟨h', hs, hr⟩ := C99_receive_history cfg h (step cfg C' w (.unprotect inp cap)).2 fun x hx => hh x (List.mem_cons_of_mem _ hx)
    simp only
    rcases C99_receive hF cfg w inp cap with h1 | h1
    · refine ⟨.unprotect inp cap :: h', hs.cons_cons _, ?_⟩
      rw [hr, h1, run_cons]
    · refine ⟨h', hs.cons _, ?_⟩
      rw [hr, h1]

/-- C99: a call of coap2oscore during which the crypto library fails either does exactly what it does with a working
library, or returns an error, encrypts nothing, and uses up at most one sequence number. -/
theorem C99_send {C C' : Crypto} (hF : Faulty C C') (cfg : Cfg) (w : World) (inp : Bytes) (cap : Nat) (nvmW : Option Err) :
    step cfg C' w (.protect inp cap nvmW) = step cfg C w (.protect inp cap nvmW) ∨
    ((step cfg C' w (.protect inp cap nvmW)).1 = .err .unexpected_result_from_ext_lib ∧
      Spent w (step cfg C' w (.protect inp cap nvmW)).2) :=
  coap2oscore_falls hF cfg nvmW inp cap w

/-- C99: a message that was hit by a failure can be sent again. -/
theorem C99_send_again {cfg : Cfg} {C C' : Crypto} (hF : Faulty C C') (hC : C.Lawful) (ha : AeadTotal C) {m : CMsg} {w : World}
    {p : Pkt} {S S' : List Exch} {cap : Nat} {nvmW : Option Err}
    (hids : IdsOk w.ctx) (hssn : w.ctx.ssn + 1 < 0x7FFFFF) (hmax : cfg.uriMax ≤ 255)
    (hecho : w.ctx.echo = .verify → ∃ v, cacheEchoVal w.ctx.echoVal (redelta 0 (innerOpts (isRequest p) p.opts)) = .ok v)
    (hp : coapDeserialize m.inp = .ok p) (hs : Sendable cfg p m.capS m.capR) (hnl : isRequest p = false → w.ctx.nonce.length = 13)
    (ht : Tracks cfg.interactions w.ctx.inter S) (ho : outstandingAfter cfg.interactions S p = some S')
    (hdiff : step cfg C' w (.protect m.inp cap nvmW) ≠ step cfg C w (.protect m.inp cap nvmW)) :
    ∃ b w2, step cfg C (step cfg C' w (.protect m.inp cap nvmW)).2 (.protect m.inp m.capS none) = (.ok b, w2) := by
  obtain ⟨h1, h2⟩ := (C99_send hF cfg w m.inp cap nvmW).resolve_left hdiff
  exact C81_send_partial hC ha hids hssn hmax hecho hp hs hnl ht ho (C' := C') (r := (step cfg C' w (.protect m.inp cap nvmW)).1)
    rfl (by rw [h1]; simp) (Or.inl h2.log)

/-- C99: whatever the library does at which call, the sequence numbers of the encryptions increase. -/
theorem C99_ssn_increasing (cfg : Cfg) (w0 : World) (h : List (Crypto × Op)) (h0 : w0.log = []) :
    ((runF cfg w0 h).log.filterMap EncCall.newSsn).Pairwise (· > ·) := by
  have hinv : LogInv w0.ctx.ssn w0.ctx.senderId w0.ctx.commonIv w0 :=
    ⟨⟨rfl, rfl⟩, by rw [h0]; exact .nil, by rw [h0]; simp, Nat.le_refl _, by rw [h0]; simp⟩
  exact (runF_induction (LogInv w0.ctx.ssn w0.ctx.senderId w0.ctx.commonIv) (fun C w op => step_logInv w op) hinv h).dec

/-- C99: and no two encryptions with an own Partial IV use the same nonce. -/
theorem C99_nonce (cfg : Cfg) (w0 : World) (h : List (Crypto × Op)) (h0 : w0.log = []) :
    ((runF cfg w0 h).log.filter (fun e => e.newSsn.isSome)).Pairwise (fun a b => a.nonce ≠ b.nonce) := by
  have hinv : LogInv w0.ctx.ssn w0.ctx.senderId w0.ctx.commonIv w0 :=
    ⟨⟨rfl, rfl⟩, by rw [h0]; exact .nil, by rw [h0]; simp, Nat.le_refl _, by rw [h0]; simp⟩
  have hfin := runF_induction (cfg := cfg) (LogInv w0.ctx.ssn w0.ctx.senderId w0.ctx.commonIv)
    (fun C w op => step_logInv w op) hinv h
  obtain ⟨_, hdec, _, _, hnon⟩ := hfin
  generalize (runF cfg w0 h).log = l at hdec hnon
  induction l with
  | nil => exact .nil
  | cons e l ih =>
    have hrest : (l.filterMap EncCall.newSsn).Pairwise (· > ·) := by
      rw [List.filterMap_cons] at hdec
      cases he : e.newSsn with
      | none => rw [he] at hdec; exact hdec
      | some n => rw [he] at hdec; exact (List.pairwise_cons.1 hdec).2
    have ih' := ih hrest (fun e' he' => hnon e' (List.mem_cons_of_mem _ he'))
    rw [List.filter_cons]
    cases he : e.newSsn with
    | none => simpa using ih'
    | some n =>
      simp only [Option.isSome_some, if_true]
      rw [List.pairwise_cons]
      refine ⟨?_, ih'⟩
      intro e' he'
      rw [List.mem_filter] at he'
      obtain ⟨hm, hs⟩ := he'
      cases hn' : e'.newSsn with
      | none => rw [hn'] at hs; cases hs
      | some m =>
        rw [List.filterMap_cons, he] at hdec
        have hlt : n > m := (List.pairwise_cons.1 hdec).1 m (List.mem_filterMap.2 ⟨e', hm, hn'⟩)
        intro heq
        obtain ⟨q1, a1, a2⟩ := hnon e (by simp) n he
        obtain ⟨q2, b1, b2⟩ := hnon e' (List.mem_cons_of_mem _ hm) m hn'
        rw [heq] at a2
        have := (C10_nonce_injective_minimal _ _ _ _ _ _ n m a1 b1 a2 b2).2.1
        omega

/-- C99 (partial): a delivered request is not delivered again, whatever the library does in between.  Missing as in C04:
requests with a PIV of more than one byte, and packets relabelled as responses. -/
theorem C99_no_replay_partial (cfg : Cfg) (C C1 C2 : Crypto) (prm : InitParams) (nv : R Nat) (jn je : Bytes)
    (c₀ : Ctx) (nvm : Nat) (log : List EncCall) (hW : 0 < cfg.windowSize)
    (hinit : contextInit cfg C prm nv jn je = .ok c₀)
    (before after : List (Crypto × Op)) (inp inp' : Bytes) (cap cap' : Nat) (out : Bytes)
    (p p' : Pkt) (t t' : List (Opt × Bytes)) (o o' : OscOpt) (piv piv' : Bytes)
    (hp : coapParse inp = .ok (p, t)) (hreq : isRequest p = true)
    (ho : oscoreOptionParser t = .ok o) (hpiv : o.piv.read = .ok piv)
    (hp' : coapParse inp' = .ok (p', t')) (hreq' : isRequest p' = true)
    (ho' : oscoreOptionParser t' = .ok o') (hpiv' : o'.piv.read = .ok piv')
    (hsame : beVal piv' = beVal piv)
    (hone : piv.length = 1 ∨ (runF cfg ⟨c₀, nvm, log⟩ before).ctx.echo = .verify)
    (hok : (step cfg C1 (runF cfg ⟨c₀, nvm, log⟩ before) (.unprotect inp cap)).1 = .ok out) :
    let w := runF cfg (step cfg C1 (runF cfg ⟨c₀, nvm, log⟩ before) (.unprotect inp cap)).2 after
    (∀ out', (step cfg C2 w (.unprotect inp' cap')).1 ≠ .ok out') ∧
      (step cfg C2 w (.unprotect inp' cap')).2 = w := by
  intro w
  have hwin : WindowOk cfg.windowSize (runF cfg ⟨c₀, nvm, log⟩ before).ctx :=
    runF_induction (P := fun w => WindowOk cfg.windowSize w.ctx)
      (fun C w op h => step_windowOk op hW h) (contextInit_windowOk hW hinit) before
  have hk : Known cfg.windowSize (beVal piv)
      (step cfg C1 (runF cfg ⟨c₀, nvm, log⟩ before) (.unprotect inp cap)).2.ctx :=
    delivered_known hW hwin hp hreq ho hpiv hone hok
  have hk' : Known cfg.windowSize (beVal piv) w.ctx :=
    runF_induction (P := fun w => Known cfg.windowSize (beVal piv) w.ctx)
      (fun C w op h => step_known w op h) hk after
  have := known_rejected (cfg := cfg) (C := C2) (cap := cap') hp' hreq' ho' hpiv' hsame hk'
  refine ⟨this.1, ?_⟩
  show ({ w with ctx := (oscore2coap cfg C2 inp' cap' w.ctx).2 } : World) = w
  rw [this.2]

/-! ### The wrapper over a PSA library with failing calls is such a library -/

open Psa in
theorem aeadEncrypt_faulty {e : Env} (he : e.Lawful) (hl : e.lib.Lawful) (key nonce aad : Bytes) (t : Nat) (pt : Bytes) (s : St) :
    Clean e (fun o => (cryptoOf e.lib).aeadEnc key nonce aad t pt = some o.1) s (aeadEncrypt e key nonce aad t pt (pt.length + t) s) := by
  unfold aeadEncrypt
  refine Clean.bind (Clean.init e s) fun _ s1 _ _ _ => ?_
  refine Clean.imported he fun k h1 h2 hk => ?_
  refine (Body.use _).closes fun c hc => ?_
  obtain ⟨_, hc⟩ := hc
  simp only [useAeadEnc, h1, if_true, h2] at hc
  obtain ⟨hc, _⟩ := fits_some hc
  have h3 := hl.enc_len _ _ _ _ _ _ hc
  have h4 : tagOf c t (pt.length + t) = .ok (c.drop (c.length - t)) := if_neg (by omega)
  exact (Body.lift h4).closes fun tag ht => Closes.destroy_pure (by simp only [cryptoOf]; rw [if_pos hk]; exact hc)

open Psa in
theorem aeadDecrypt_faulty {e : Env} (he : e.Lawful) (hl : e.lib.Lawful) (key nonce aad : Bytes) (t : Nat) (ct : Bytes) (s : St) :
    Clean e (fun o => (cryptoOf e.lib).aeadDec key nonce aad t ct = some o) s
      (aeadDecrypt e key nonce aad t ct (List.replicate (ct.length - t) 0) s) := by
  unfold aeadDecrypt
  refine Clean.bind (Clean.init e s) fun _ s1 _ _ _ => ?_
  refine Clean.imported he fun k h1 h2 hk => ?_
  refine (Body.use _).closes fun p hc => Closes.destroy_pure ?_
  obtain ⟨_, hc⟩ := hc
  simp only [useAeadDec, h1, if_true, h2] at hc
  obtain ⟨hc, _⟩ := fits_some hc
  have h3 := hl.dec_len _ _ _ _ _ _ hc
  simp only [cryptoOf]
  rw [if_pos hk, hc, List.drop_eq_nil_of_le (by rw [List.length_replicate]; omega), List.append_nil]

/-- C99: the hypothesis holds of the wrapper: whichever of its PSA calls fail, and whatever is in the key store, its AEAD
either gives the result of the library's algorithm or fails. -/
theorem C99_library {e : Psa.Env} (he : e.Lawful) (hl : e.lib.Lawful) (s : Psa.St) : Faulty (Psa.cryptoOf e.lib) (cryptoAt e s) where
  hmac := rfl
  hash := rfl
  enc k n a t p := by
    have h := (aeadEncrypt_faulty he hl k n a t p s).2.2
    simp only [cryptoAt]
    cases hr : (Psa.aeadEncrypt e k n a t p (p.length + t) s).1 with
    | ok c => rw [hr] at h; exact Or.inr h.2.symm
    | err er => exact Or.inl rfl
    | ub => exact Or.inl rfl
  dec k n a t c := by
    have h := (aeadDecrypt_faulty he hl k n a t c s).2.2
    simp only [cryptoAt]
    cases hr : (Psa.aeadDecrypt e k n a t c (List.replicate (c.length - t) 0) s).1 with
    | ok p => rw [hr] at h; exact Or.inr h.2.symm
    | err er => exact Or.inl rfl
    | ub => exact Or.inl rfl

/-- C99: a failing call is an error of the wrapper, never undefined behaviour. -/
theorem C99_library_safe {e : Psa.Env} (he : e.Lawful) (hl : e.lib.Lawful) (s : Psa.St) (k n a : Bytes) (t : Nat) (x : Bytes) :
    (Psa.aeadEncrypt e k n a t x (x.length + t) s).1 ≠ .ub ∧
    (Psa.aeadDecrypt e k n a t x (List.replicate (x.length - t) 0) s).1 ≠ .ub := by
  have h1 := (aeadEncrypt_faulty he hl k n a t x s).2.2
  have h2 := (aeadDecrypt_faulty he hl k n a t x s).2.2
  exact ⟨fun h => by rw [h] at h1; exact h1, fun h => by rw [h] at h2; exact h2⟩

/-! ### The hypotheses are met -/

/-- a library whose AEAD is out of memory -/
def deadCrypto : Crypto := { toyCrypto with aeadEnc := fun _ _ _ _ _ => none, aeadDec := fun _ _ _ _ _ => none }

theorem deadCrypto_faulty : Faulty toyCrypto deadCrypto := ⟨rfl, rfl, fun _ _ _ _ _ => Or.inl rfl, fun _ _ _ _ _ => Or.inl rfl⟩

/-- a request hit by a failure at the server is refused, and delivered when it arrives again -/
example :
    let b := sendOf exCfg (exW exClient) exGet
    (step exCfg deadCrypto (exW exServer) (.unprotect b 256)).1 = .err .unexpected_result_from_ext_lib ∧
    (step exCfg toyCrypto (step exCfg deadCrypto (exW exServer) (.unprotect b 256)).2 (.unprotect b 256)).1 = .ok exGet := by
  decide +kernel

/-- a request hit by a failure at the client uses up sequence number 0; the next one is sent under 1 -/
example :
    (step exCfg deadCrypto (exW exClient) (.protect exPost 256 none)).1 = .err .unexpected_result_from_ext_lib ∧
    (step exCfg deadCrypto (exW exClient) (.protect exPost 256 none)).2.ctx.ssn = 1 ∧
    (step exCfg toyCrypto (step exCfg deadCrypto (exW exClient) (.protect exPost 256 none)).2 (.protect exPost 256 none)).1.isOk = true ∧
    (runF exCfg (exW exClient) [(deadCrypto, .protect exPost 256 none), (toyCrypto, .protect exPost 256 none),
      (deadCrypto, .protect exGet 256 none), (toyCrypto, .protect exGet 256 none)]).log.filterMap EncCall.newSsn = [3, 1] := by
  decide +kernel

/-- `C99_send_again` applies -/
example : ∃ b w2, step exCfg toyCrypto (step exCfg deadCrypto (exW exClient) (.protect exPost 256 none)).2 (.protect exPost 256 none) = (.ok b, w2) := by
  obtain ⟨p, hp, hs, S', ho, -⟩ := exTalk_proper
  have hi : IdsOk (exW exClient).ctx := by constructor <;> decide +kernel
  have hn : (exW exClient).ctx.nonce.length = 13 := by decide +kernel
  have he : (exW exClient).ctx.echo ≠ .verify := by decide +kernel
  have ht : (exW exClient).ctx.inter = Table.init exCfg.interactions := by decide +kernel
  have hl : (exW exClient).ctx.ssn + 1 < 0x7FFFFF := by decide +kernel
  have hT : Tracks exCfg.interactions (exW exClient).ctx.inter [] := by rw [ht]; exact tracks_init _
  have h1 : (step exCfg deadCrypto (exW exClient) (.protect exPost 256 none)).1 = .err .unexpected_result_from_ext_lib := by decide +kernel
  have h2 : (step exCfg toyCrypto (exW exClient) (.protect exPost 256 none)).1 ≠ .err .unexpected_result_from_ext_lib := by decide +kernel
  exact C99_send_again (m := ⟨true, exPost, 256, 256⟩) deadCrypto_faulty toyCrypto_lawful toyCrypto_total hi hl
    (by decide) (fun h => absurd h he) hp hs (fun _ => hn) hT ho (fun h => h2 (by rw [← h]; exact h1))

/-- a PSA library in which the third call fails: the wrapper's AEAD fails, and works at the next attempt -/
example : Faulty (Psa.cryptoOf Psa.toyLib) (cryptoAt (Psa.toyEnv [2] []) {}) := C99_library (Psa.toyEnv_lawful _ _) Psa.toyLib_lawful _

example : (cryptoAt (Psa.toyEnv [2] []) {}).aeadEnc (List.replicate 16 7) (List.replicate 13 1) [2] 8 [3, 4] = none ∧
    (cryptoAt (Psa.toyEnv [2] []) { clock := 4 }).aeadEnc (List.replicate 16 7) (List.replicate 13 1) [2] 8 [3, 4] =
      (Psa.cryptoOf Psa.toyLib).aeadEnc (List.replicate 16 7) (List.replicate 13 1) [2] 8 [3, 4] ∧
    ((Psa.cryptoOf Psa.toyLib).aeadEnc (List.replicate 16 7) (List.replicate 13 1) [2] 8 [3, 4]).isSome = true := by
  decide +kernel

end Verif
