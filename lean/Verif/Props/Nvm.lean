import Verif.Model.Device
import Verif.Props.Send
/-
C12, C34: sequence numbers and non-volatile memory.
-/
namespace Verif

/-- sequence numbers under which messages were encrypted, newest first -/
def usedSsns (w : World) : List Nat := w.log.filterMap EncCall.newSsn

/-- what one call does to sequence number, NVM and the used numbers -/
inductive NvmStep (cfg : Cfg) (w w' : World) (op : Op) : Prop
  | keep (hs : w'.ctx.ssn = w.ctx.ssn) (hn : w'.nvm = w.nvm) (hu : usedSsns w' = usedSsns w)
  | bump (inp : Bytes) (cap : Nat) (nvmW : Option Err) (hop : op = .protect inp cap nvmW)
      (hs : w'.ctx.ssn = w.ctx.ssn + 1) (hlt : w.ctx.ssn < 0x7FFFFF) (he : w'.ctx.echo = w.ctx.echo)
      (hn : w'.nvm = if nvmWriteDue cfg w.ctx ∧ nvmW = none then w.ctx.ssn + 1 else w.nvm)
      (hu : usedSsns w' = usedSsns w ∨
        (usedSsns w' = w.ctx.ssn :: usedSsns w ∧ (nvmWriteDue cfg w.ctx → nvmW = none)))

theorem step_nvm (cfg : Cfg) (C : Crypto) (w : World) (op : Op) :
    NvmStep cfg w (step cfg C w op).2 op := by
  cases op with
  | unprotect inp cap => exact .keep (oscore2coap_frame cfg C inp cap w.ctx).ssn rfl rfl
  | protect inp cap nvmW =>
    simp only [step]
    have hfr := (coap2oscore_frame cfg C nvmW inp cap w).echo
    have h := coap2oscore_effect cfg C nvmW inp cap w
    generalize (coap2oscore cfg C nvmW inp cap w).1 = r at h
    generalize (coap2oscore cfg C nvmW inp cap w).2 = w' at h hfr
    cases h with
    | unchanged _ => exact .keep rfl rfl rfl
    | emptyAck => exact .keep rfl rfl rfl
    | enc hf hp hack hs hlen hpt hev henc =>
      cases henc with
      | unchanged _ => exact .keep rfl rfl rfl
      | consumed _ _ => exact .bump inp cap nvmW rfl rfl hf hfr rfl (.inl rfl)
      | fresh hn hw hpiv hnonce hopt hread haad hct hres =>
        exact .bump inp cap nvmW rfl rfl hf hfr rfl (.inr ⟨rfl, hw⟩)
      | reuse hn hopt hread haad hct hres => exact .keep rfl rfl rfl

/-! ## C34 -/

/-- **C34** (write policy) In a synchronised session every call either leaves NVM alone or writes
the new sequence number into it, and the latter only when that number is a multiple of the store
interval. -/
theorem C34_write_only_multiple (cfg : Cfg) (C : Crypto) (w : World) (op : Op)
    (hsync : w.ctx.echo = .synchronized) :
    (step cfg C w op).2.nvm = w.nvm ∨
    ((step cfg C w op).2.nvm = (step cfg C w op).2.ctx.ssn ∧
      (step cfg C w op).2.ctx.ssn = w.ctx.ssn + 1 ∧ (step cfg C w op).2.ctx.ssn % cfg.kStore = 0) := by
  cases step_nvm cfg C w op with
  | keep _ hn _ => exact .inl hn
  | bump inp cap nvmW _ hs _ _ hn _ =>
    split at hn
    · rename_i hd
      right
      refine ⟨by rw [hn, hs], hs, ?_⟩
      rw [hs]
      rcases hd.1.2.2 with h | h
      · exact h
      · exact absurd hsync h
    · exact .inl hn

/-- **C34** (a fresh context never touches NVM) -/
theorem C34_fresh_never_writes (cfg : Cfg) (C : Crypto) (w : World) (h : List Op) (hf : w.ctx.fresh = true) :
    (run cfg C w h).nvm = w.nvm := by
  have := run_induction (cfg := cfg) (C := C) (P := fun v => v.ctx.fresh = true ∧ v.nvm = w.nvm)
    (fun v op hv => by
      refine ⟨by rw [(step_identity cfg C v op).fresh]; exact hv.1, ?_⟩
      cases step_nvm cfg C v op with
      | keep _ hn _ => rw [hn]; exact hv.2
      | bump _ _ _ _ _ _ _ hn _ =>
        rw [hn, if_neg, hv.2]
        rintro ⟨h1, _⟩
        have := h1.1
        rw [hv.1] at this; cases this) (w := w) ⟨hf, rfl⟩ h
  exact this.2

/-- invariant of a device life -/
structure DevInv (cfg : Cfg) (prm : InitParams) (d : Dev) : Prop where
  dec : (usedSsns d.w).Pairwise (· > ·)
  /-- nothing used so far can be used again after a restart -/
  safe : ∀ s ∈ usedSsns d.w, s < d.w.nvm + cfg.kStore + cfg.fStore
  cap : d.w.nvm < 2 ^ 63
  fresh : d.up = true → d.w.ctx.fresh = false
  below : d.up = true → ∀ s ∈ usedSsns d.w, s < d.w.ctx.ssn
  ahead : d.up = true → d.w.nvm ≤ d.w.ctx.ssn
  /-- once NVM was written in this session it is at most one interval behind, per failed write -/
  near : d.up = true → d.wrote = true →
    cfg.kStore * (d.w.ctx.ssn / cfg.kStore) ≤ d.w.nvm + d.fails * cfg.kStore

/-- What is asked of the environment at a moment: the server becomes synchronised only after a
message was sent in this session (Echo values cannot be guessed, so a challenge went out first, and
that wrote NVM: `C12_challenge_writes`), and the failed writes in a row stay within the margin. -/
def Calm (cfg : Cfg) (d : Dev) : Prop :=
  d.up = true → (d.w.ctx.echo = .synchronized → d.wrote = true) ∧ d.fails * cfg.kStore ≤ cfg.fStore

/-- ... at every moment of a life -/
def Disciplined (cfg : Cfg) (C : Crypto) (prm : InitParams) : Dev → List DevOp → Prop
  | d, [] => Calm cfg d
  | d, op :: h => Calm cfg d ∧ Disciplined cfg C prm (devStep cfg C prm d op) h

theorem devBoot_inv {cfg : Cfg} {C : Crypto} {prm : InitParams} {jn je : Bytes} {d : Dev}
    (hf : prm.fresh = false) (hn : cfg.nvm = true) (hm : cfg.kStore + cfg.fStore < 2 ^ 63)
    (hdec : (usedSsns d.w).Pairwise (· > ·))
    (hsafe : ∀ s ∈ usedSsns d.w, s < d.w.nvm + cfg.kStore + cfg.fStore) (hcap : d.w.nvm < 2 ^ 63) :
    DevInv cfg prm (devBoot cfg C prm jn je d) := by
  unfold devBoot
  split
  · rename_i c hc
    obtain ⟨iv, rk, ssn, sk, _, _, _, _, _, hssn, _, rfl⟩ := contextInit_ok hc
    unfold ssnInit at hssn
    rw [hf, hn] at hssn
    simp only [Bool.false_eq_true, if_false, if_true, R.ok_bind, R.pure_eq, R.ok.injEq] at hssn
    have hs : ssn = d.w.nvm + cfg.kStore + cfg.fStore := by
      rw [← hssn, Nat.mod_eq_of_lt (by omega)]; omega
    refine ⟨hdec, hsafe, hcap, fun _ => hf, fun _ s h => ?_, fun _ => ?_, fun _ h => by cases h⟩
    · have := hsafe s h; simp only; omega
    · simp only; omega
  · exact ⟨hdec, hsafe, hcap, fun h => by simp at h, fun h => by simp at h, fun h => by simp at h, fun h => by simp at h⟩

theorem mul_div_succ_le (n K : Nat) (hK : 0 < K) : K * ((n + 1) / K) ≤ K * (n / K) + K := by
  have : (n + 1) / K ≤ n / K + 1 := by
    rw [Nat.div_le_iff_le_mul hK]
    have := Nat.div_add_mod n K
    have := Nat.mod_lt n hK
    rw [Nat.add_mul, Nat.mul_comm (n / K) K]
    omega
  calc K * ((n + 1) / K) ≤ K * (n / K + 1) := Nat.mul_le_mul_left K this
    _ = K * (n / K) + K := by rw [Nat.mul_add, Nat.mul_one]

theorem mul_div_succ_eq {n K : Nat} (h : (n + 1) % K ≠ 0) : K * ((n + 1) / K) = K * (n / K) := by
  rw [Nat.succ_div_of_not_dvd]
  rwa [Nat.dvd_iff_mod_eq_zero]

theorem devStep_inv {cfg : Cfg} {C : Crypto} {prm : InitParams} {d : Dev} {op : DevOp}
    (hf : prm.fresh = false) (hn : cfg.nvm = true) (hm : cfg.kStore + cfg.fStore < 2 ^ 63)
    (hK : 0 < cfg.kStore) (hi : DevInv cfg prm d) (hc : Calm cfg d) :
    DevInv cfg prm (devStep cfg C prm d op) := by
  cases op with
  | reboot jn je => exact devBoot_inv hf hn hm hi.dec hi.safe hi.cap
  | crash op written jn je =>
    simp only [devStep]
    split
    · rename_i hup
      have key : d.w.nvm ≤ (step cfg C d.w op).2.nvm ∧ (step cfg C d.w op).2.nvm < 2 ^ 63 := by
        have ha := hi.ahead hup
        have hca := hi.cap
        cases step_nvm cfg C d.w op with
        | keep _ h _ => rw [h]; exact ⟨Nat.le_refl _, hca⟩
        | bump _ _ _ _ _ hlt _ h _ =>
          rw [h]; split
          · exact ⟨by omega, by omega⟩
          · exact ⟨Nat.le_refl _, hca⟩
      refine devBoot_inv hf hn hm hi.dec ?_ ?_
      · intro s hs
        have := hi.safe s hs
        simp only
        split <;> omega
      · have := hi.cap
        simp only; split <;> omega
    · exact hi
  | call op =>
    simp only [devStep]
    split
    · rename_i hup
      have hfr : (step cfg C d.w op).2.ctx.fresh = false := by
        rw [(step_identity cfg C d.w op).fresh]; exact hi.fresh hup
      have hb := hi.below hup
      have ha := hi.ahead hup
      have hcap := hi.cap
      obtain ⟨hcs, hcf⟩ := hc hup
      cases hst : step_nvm cfg C d.w op with
      | keep hs hnv hu =>
        have hwf : ∀ w', w' = (step cfg C d.w op).2 → writeFailed cfg d.w w' op = false := by
          rintro w' rfl
          unfold writeFailed
          split
          · rw [decide_eq_false_iff_not]; rintro ⟨h, _⟩; exact h hs
          · rfl
        refine ⟨by simp only; rw [hu]; exact hi.dec, ?_, ?_, fun _ => hfr, ?_, ?_, ?_⟩
        · simp only; rw [hu, hnv]; exact hi.safe
        · simp only; rw [hnv]; exact hcap
        · simp only; rw [hu, hs]; exact fun _ => hb
        · simp only; rw [hs, hnv]; exact fun _ => ha
        · simp only
          rw [hnv, hs, hwf _ rfl]
          simp only [ne_eq, not_true_eq_false, decide_false, Bool.or_false, if_false, Bool.false_eq_true]
          exact fun _ h => hi.near hup h
      | bump inp cap nvmW hop hs hlt he hnv hu =>
        have hle := mul_div_succ_le d.w.ctx.ssn cfg.kStore hK
        have hKd : cfg.kStore * (d.w.ctx.ssn / cfg.kStore) + d.w.ctx.ssn % cfg.kStore = d.w.ctx.ssn :=
          Nat.div_add_mod _ _
        have hKm := Nat.mod_lt d.w.ctx.ssn hK
        by_cases hdue : nvmWriteDue cfg d.w.ctx ∧ nvmW = none
        · -- a successful write
          rw [if_pos hdue] at hnv
          have hne : (step cfg C d.w op).2.nvm ≠ d.w.nvm := by rw [hnv]; omega
          refine ⟨?_, ?_, by simp only; omega, fun _ => hfr, ?_, by simp only; intro _; omega, ?_⟩
          · simp only
            rcases hu with hu | ⟨hu, _⟩
            · rw [hu]; exact hi.dec
            · rw [hu, List.pairwise_cons]; exact ⟨hb, hi.dec⟩
          · simp only
            intro s hsm
            rcases hu with hu | ⟨hu, _⟩
            · rw [hu] at hsm; have := hb s hsm; omega
            · rw [hu] at hsm
              rcases List.mem_cons.1 hsm with rfl | hsm
              · omega
              · have := hb s hsm; omega
          · simp only
            intro _ s hsm
            rcases hu with hu | ⟨hu, _⟩
            · rw [hu] at hsm; have := hb s hsm; omega
            · rw [hu] at hsm
              rcases List.mem_cons.1 hsm with rfl | hsm
              · omega
              · have := hb s hsm; omega
          · simp only
            intro _ _
            rw [if_pos hne, hnv, hs, Nat.zero_mul, Nat.add_zero]
            exact Nat.mul_div_le _ _
        · rw [if_neg hdue] at hnv
          by_cases hd : nvmWriteDue cfg d.w.ctx
          · -- a failed write: the number is not used
            have hnw : nvmW ≠ none := fun h => hdue ⟨hd, h⟩
            have hu' : usedSsns (step cfg C d.w op).2 = usedSsns d.w := by
              rcases hu with hu | ⟨_, h⟩
              · exact hu
              · exact absurd (h hd) hnw
            have hwf : writeFailed cfg d.w (step cfg C d.w op).2 op = true := by
              rw [hop]
              rw [hop] at hs
              cases nvmW with
              | none => exact absurd rfl hnw
              | some e =>
                unfold writeFailed
                simp only [decide_eq_true_eq]
                exact ⟨by omega, hd.1, hd.2.1, hd.2.2⟩
            refine ⟨by simp only; rw [hu']; exact hi.dec, ?_, by simp only; omega, fun _ => hfr, ?_, ?_, ?_⟩
            · simp only; rw [hu', hnv]; exact hi.safe
            · simp only; rw [hu']; intro _ s hsm; have := hb s hsm; omega
            · simp only; intro _; omega
            · simp only
              rw [hnv, hs, hwf]
              simp only [ne_eq, not_true_eq_false, decide_false, Bool.or_false, if_false, if_true]
              intro _ hw
              have := hi.near hup hw
              rw [Nat.add_mul, Nat.one_mul]
              omega
          · -- no write due: synchronised, and not a multiple
            have hnd : ¬((d.w.ctx.ssn + 1) % cfg.kStore = 0 ∨ d.w.ctx.echo ≠ .synchronized) :=
              fun h => hd ⟨hi.fresh hup, hn, h⟩
            have hmod : (d.w.ctx.ssn + 1) % cfg.kStore ≠ 0 := fun h => hnd (.inl h)
            have hsy : d.w.ctx.echo = .synchronized := Decidable.byContradiction fun h => hnd (.inr h)
            have hwr := hcs hsy
            have hnear := hi.near hup hwr
            have hlt' : d.w.ctx.ssn < d.w.nvm + cfg.kStore + cfg.fStore := by omega
            have hwf : writeFailed cfg d.w (step cfg C d.w op).2 op = false := by
              rw [hop]
              cases nvmW with
              | none => rfl
              | some e =>
                unfold writeFailed
                rw [decide_eq_false_iff_not]
                rintro ⟨_, h1, h2, h3⟩
                exact hnd h3
            refine ⟨?_, ?_, by simp only; omega, fun _ => hfr, ?_, by simp only; intro _; omega, ?_⟩
            · simp only
              rcases hu with hu | ⟨hu, _⟩
              · rw [hu]; exact hi.dec
              · rw [hu, List.pairwise_cons]; exact ⟨hb, hi.dec⟩
            · simp only
              intro s hsm
              rw [hnv]
              rcases hu with hu | ⟨hu, _⟩
              · rw [hu] at hsm; exact hi.safe s hsm
              · rw [hu] at hsm
                rcases List.mem_cons.1 hsm with rfl | hsm
                · exact hlt'
                · exact hi.safe s hsm
            · simp only
              intro _ s hsm
              rcases hu with hu | ⟨hu, _⟩
              · rw [hu] at hsm; have := hb s hsm; omega
              · rw [hu] at hsm
                rcases List.mem_cons.1 hsm with rfl | hsm
                · omega
                · have := hb s hsm; omega
            · simp only
              rw [hnv, hs, hwf, mul_div_succ_eq hmod]
              simp only [ne_eq, not_true_eq_false, decide_false, Bool.or_false, if_false, Bool.false_eq_true]
              exact fun _ _ => hnear
    · exact hi

theorem devRun_inv {cfg : Cfg} {C : Crypto} {prm : InitParams} {h : List DevOp} {d : Dev}
    (hf : prm.fresh = false) (hn : cfg.nvm = true) (hm : cfg.kStore + cfg.fStore < 2 ^ 63)
    (hK : 0 < cfg.kStore) (hi : DevInv cfg prm d) (hc : Disciplined cfg C prm d h) :
    DevInv cfg prm (devRun cfg C prm d h) := by
  induction h generalizing d with
  | nil => exact hi
  | cons op h ih => exact ih (devStep_inv hf hn hm hK hi hc.1) hc.2

/-- a device as it leaves the factory: switched off, nothing sent yet, some number in NVM -/
structure Unused (d : Dev) : Prop where
  off : d.up = false
  clean : d.w.log = []
  nvm : d.w.nvm < 2 ^ 63

theorem Unused.inv {cfg prm d} (h : Unused d) : DevInv cfg prm d := by
  have hu : usedSsns d.w = [] := by unfold usedSsns; rw [h.clean]; rfl
  have hoff := h.off
  exact ⟨by rw [hu]; exact .nil, by rw [hu]; simp, h.nvm, by rw [hoff]; simp, by rw [hoff]; simp,
    by rw [hoff]; simp, by rw [hoff]; simp⟩

/-- **C12** In the whole life of a device that keeps its master secret – any number of sessions,
reboots between calls and crashes inside calls, before or after the NVM write – the sequence numbers
under which messages are encrypted strictly increase (list newest first), so none is ever used
twice, provided at every moment (`Disciplined`)
* the server is synchronised only if it wrote NVM in this session, and
* the number of writes that failed in a row, times K, is at most F.

`_partial`: both conditions are needed: `C12_false_two_failed_writes`, `C12_false_early_sync`. -/
theorem C12_ssn_unique_partial (cfg : Cfg) (C : Crypto) (prm : InitParams) (d : Dev) (h : List DevOp)
    (hf : prm.fresh = false) (hn : cfg.nvm = true) (hm : cfg.kStore + cfg.fStore < 2 ^ 63)
    (hK : 0 < cfg.kStore) (hd : Unused d) (hc : Disciplined cfg C prm d h) :
    (usedSsns (devRun cfg C prm d h).w).Pairwise (· > ·) :=
  (devRun_inv hf hn hm hK hd.inv hc).dec

/-- **C12** (the restart margin) Under the same conditions a restart at any moment continues with a
sequence number larger than all that were ever used. -/
theorem C12_restart_above_partial (cfg : Cfg) (C : Crypto) (prm : InitParams) (d : Dev) (h : List DevOp)
    (hf : prm.fresh = false) (hn : cfg.nvm = true) (hm : cfg.kStore + cfg.fStore < 2 ^ 63)
    (hK : 0 < cfg.kStore) (hd : Unused d) (hc : Disciplined cfg C prm d h)
    (jn je : Bytes) (c : Ctx)
    (hboot : contextInit cfg C prm (.ok (devRun cfg C prm d h).w.nvm) jn je = .ok c) :
    ∀ s ∈ usedSsns (devRun cfg C prm d h).w, s < c.ssn := by
  have hi := devRun_inv hf hn hm hK hd.inv hc
  have hb := devBoot_inv (C := C) (prm := prm) (jn := jn) (je := je) hf hn hm hi.dec hi.safe hi.cap
  have := hb.below
  unfold devBoot at this
  rw [hboot] at this
  exact this rfl

/-- **C12** (the Echo challenge writes NVM) Whatever `coap2oscore` encrypts before the context is
synchronised, NVM holds the next sequence number afterwards. -/
theorem C12_challenge_writes (cfg : Cfg) (C : Crypto) (w : World) (inp : Bytes) (cap : Nat) (e : Option Err)
    (hf : w.ctx.fresh = false) (hn : cfg.nvm = true) (he : w.ctx.echo ≠ .synchronized)
    (hu : usedSsns (step cfg C w (.protect inp cap e)).2 ≠ usedSsns w) :
    (step cfg C w (.protect inp cap e)).2.nvm = w.ctx.ssn + 1 := by
  cases step_nvm cfg C w (.protect inp cap e) with
  | keep _ _ h => exact absurd h hu
  | bump i c nvmW hop hs hlt he' hnv hus =>
    have hd : nvmWriteDue cfg w.ctx := ⟨hf, hn, .inr he⟩
    rcases hus with h | ⟨_, h⟩
    · exact absurd h hu
    · rw [hnv, if_pos ⟨hd, h hd⟩]

/-- the part of the invariant that needs no discipline -/
structure NearInv (cfg : Cfg) (d : Dev) : Prop where
  cap : d.w.nvm < 2 ^ 63
  fresh : d.up = true → d.w.ctx.fresh = false
  ahead : d.up = true → d.w.nvm ≤ d.w.ctx.ssn
  near : d.up = true → d.wrote = true →
    cfg.kStore * (d.w.ctx.ssn / cfg.kStore) ≤ d.w.nvm + d.fails * cfg.kStore

theorem devBoot_near {cfg : Cfg} {C : Crypto} {prm : InitParams} {jn je : Bytes} {d : Dev}
    (hf : prm.fresh = false) (hn : cfg.nvm = true) (hm : cfg.kStore + cfg.fStore < 2 ^ 63)
    (hcap : d.w.nvm < 2 ^ 63) : NearInv cfg (devBoot cfg C prm jn je d) := by
  unfold devBoot
  split
  · rename_i c hc
    obtain ⟨iv, rk, ssn, sk, _, _, _, _, _, hssn, _, rfl⟩ := contextInit_ok hc
    unfold ssnInit at hssn
    rw [hf, hn] at hssn
    simp only [Bool.false_eq_true, if_false, if_true, R.ok_bind, R.pure_eq, R.ok.injEq] at hssn
    have hs : ssn = d.w.nvm + cfg.kStore + cfg.fStore := by
      rw [← hssn, Nat.mod_eq_of_lt (by omega)]; omega
    exact ⟨hcap, fun _ => hf, fun _ => by simp only; omega, fun _ h => by cases h⟩
  · exact ⟨hcap, fun h => by simp at h, fun h => by simp at h, fun h => by simp at h⟩

theorem devStep_near {cfg : Cfg} {C : Crypto} {prm : InitParams} {d : Dev} {op : DevOp}
    (hf : prm.fresh = false) (hn : cfg.nvm = true) (hm : cfg.kStore + cfg.fStore < 2 ^ 63)
    (hK : 0 < cfg.kStore) (hi : NearInv cfg d) : NearInv cfg (devStep cfg C prm d op) := by
  cases op with
  | reboot jn je => exact devBoot_near hf hn hm hi.cap
  | crash op written jn je =>
    simp only [devStep]
    split
    · refine devBoot_near hf hn hm ?_
      have hca := hi.cap
      simp only
      split
      · cases step_nvm cfg C d.w op with
        | keep _ h _ => rw [h]; exact hca
        | bump _ _ _ _ _ hlt _ h _ => rw [h]; split <;> omega
      · exact hca
    · exact hi
  | call op =>
    simp only [devStep]
    split
    · rename_i hup
      have hfr : (step cfg C d.w op).2.ctx.fresh = false := by
        rw [(step_identity cfg C d.w op).fresh]; exact hi.fresh hup
      have ha := hi.ahead hup
      have hcap := hi.cap
      cases step_nvm cfg C d.w op with
      | keep hs hnv hu =>
        have hwf : writeFailed cfg d.w (step cfg C d.w op).2 op = false := by
          unfold writeFailed
          split
          · rw [decide_eq_false_iff_not]; rintro ⟨h, _⟩; exact h hs
          · rfl
        refine ⟨by simp only; rw [hnv]; exact hcap, fun _ => hfr, by simp only; rw [hs, hnv]; exact fun _ => ha, ?_⟩
        simp only
        rw [hnv, hs, hwf]
        simp only [ne_eq, not_true_eq_false, decide_false, Bool.or_false, if_false, Bool.false_eq_true]
        exact fun _ h => hi.near hup h
      | bump inp cap nvmW hop hs hlt he hnv hu =>
        have hle := mul_div_succ_le d.w.ctx.ssn cfg.kStore hK
        by_cases hdue : nvmWriteDue cfg d.w.ctx ∧ nvmW = none
        · rw [if_pos hdue] at hnv
          have hne : (step cfg C d.w op).2.nvm ≠ d.w.nvm := by rw [hnv]; omega
          refine ⟨by simp only; omega, fun _ => hfr, by simp only; intro _; omega, ?_⟩
          simp only
          intro _ _
          rw [if_pos hne, hnv, hs, Nat.zero_mul, Nat.add_zero]
          exact Nat.mul_div_le _ _
        · rw [if_neg hdue] at hnv
          refine ⟨by simp only; omega, fun _ => hfr, by simp only; intro _; omega, ?_⟩
          simp only
          rw [hnv, hs]
          simp only [ne_eq, not_true_eq_false, decide_false, Bool.or_false, if_false]
          intro _ hw
          have hnear := hi.near hup hw
          by_cases hd : nvmWriteDue cfg d.w.ctx
          · have hnw : nvmW ≠ none := fun h => hdue ⟨hd, h⟩
            have hwf : writeFailed cfg d.w (step cfg C d.w op).2 op = true := by
              rw [hop]
              rw [hop] at hs
              cases nvmW with
              | none => exact absurd rfl hnw
              | some e =>
                unfold writeFailed
                simp only [decide_eq_true_eq]
                exact ⟨by omega, hd.1, hd.2.1, hd.2.2⟩
            rw [hwf, if_pos rfl, Nat.add_mul, Nat.one_mul]
            omega
          · have hmod : (d.w.ctx.ssn + 1) % cfg.kStore ≠ 0 := fun h => hd ⟨hi.fresh hup, hn, .inl h⟩
            rw [mul_div_succ_eq hmod]
            split
            · rw [Nat.add_mul]; omega
            · exact hnear
    · exact hi

/-- **C34** (distance) In every life of a device, with any crashes and failed writes: once NVM was
written in the current session, the stored number is at most the current one and less than one
interval behind it, plus one interval per write that failed since. -/
theorem C34_nvm_distance (cfg : Cfg) (C : Crypto) (prm : InitParams) (d : Dev) (h : List DevOp)
    (hf : prm.fresh = false) (hn : cfg.nvm = true) (hm : cfg.kStore + cfg.fStore < 2 ^ 63)
    (hK : 0 < cfg.kStore) (hd : Unused d)
    (hup : (devRun cfg C prm d h).up = true) (hw : (devRun cfg C prm d h).wrote = true) :
    (devRun cfg C prm d h).w.nvm ≤ (devRun cfg C prm d h).w.ctx.ssn ∧
    (devRun cfg C prm d h).w.ctx.ssn <
      (devRun cfg C prm d h).w.nvm + ((devRun cfg C prm d h).fails + 1) * cfg.kStore := by
  have hi : NearInv cfg (devRun cfg C prm d h) := by
    have h0 : NearInv cfg d := by
      have := hd.off
      exact ⟨hd.nvm, by rw [this]; simp, by rw [this]; simp, by rw [this]; simp⟩
    clear hup hw hd
    induction h generalizing d with
    | nil => exact h0
    | cons op h ih => exact ih _ (devStep_near hf hn hm hK h0)
  refine ⟨hi.ahead hup, ?_⟩
  have h1 := hi.near hup hw
  have h2 := Nat.div_add_mod (devRun cfg C prm d h).w.ctx.ssn cfg.kStore
  have h3 := Nat.mod_lt (devRun cfg C prm d h).w.ctx.ssn hK
  rw [Nat.add_mul, Nat.one_mul]
  omega

/-! ### non-vacuity and counterexamples (default store interval 10, margin 10) -/

instance (cfg : Cfg) (d : Dev) : Decidable (Calm cfg d) := by unfold Calm; infer_instance

instance decDisciplined (cfg : Cfg) (C : Crypto) (prm : InitParams) :
    (d : Dev) → (h : List DevOp) → Decidable (Disciplined cfg C prm d h)
  | d, [] => inferInstanceAs (Decidable (Calm cfg d))
  | d, op :: h =>
    have := decDisciplined cfg C prm (devStep cfg C prm d op) h
    inferInstanceAs (Decidable (Calm cfg d ∧ Disciplined cfg C prm (devStep cfg C prm d op) h))

/-- a new server device with 0 in NVM -/
def exDev : Dev := { w := exW exServerRebooted, up := false, wrote := false, fails := 0 }

/-- boot, first request, Echo challenge, request with the Echo value: synchronised -/
def exSyncLife : List DevOp :=
  [.reboot (List.replicate 13 0) exJunk,
   .call (.unprotect (sendOf exCfg (exW exClient) exGet) 256),
   .call (.protect [0x61, 0x81, 0x12, 0x34, 0x4A, 0xDC, 0xEF, 0x77, 0x77, 0x77, 0x77, 0x77, 0x77, 0x77, 0x77,
     0x77, 0x77, 0x77, 0x77] 256 none),
   .call (.unprotect (sendOf exCfg (afterSend exCfg (exW exClient) exGet)
     (exGet ++ [0xDC, 0xE4] ++ List.replicate 12 0x77)) 256)]

/-- a notification; `e` is the result of the NVM write, if one is due -/
def exNote (e : Option Err) : DevOp := .call (.protect exNotif 256 e)

/-- the whole life of the example: 8 notifications, one failed write, 3 notifications, a crash in the
middle of a call, and a request after the restart -/
def exLife : List DevOp :=
  exSyncLife ++ List.replicate 8 (exNote none) ++ [exNote (some .not_implemented)] ++
    List.replicate 3 (exNote none) ++ [.crash (.protect exNotif 256 none) false [] [], .call (.protect exGet 256 none)]

example : Unused exDev := ⟨rfl, rfl, by decide⟩

/-- the conditions of C12 hold for a life with a challenge, a failed write and a crash, in which 13
messages are sent with own sequence numbers -/
example : Disciplined exCfg toyCrypto (exServerParams false) exDev exLife ∧
    usedSsns (devRun exCfg toyCrypto (exServerParams false) exDev exLife).w =
      [41, 32, 31, 30, 28, 27, 26, 25, 24, 23, 22, 21, 20] := by
  decide +kernel

/-- **C12 is false in general (1)**: two periodic writes in a row fail (the margin F = 10 covers only
one of them), the device restarts, and sequence number 41 is used again. -/
theorem C12_false_two_failed_writes :
    let h := exSyncLife ++ List.replicate 8 (exNote none) ++ [exNote (some .not_implemented)] ++
      List.replicate 9 (exNote none) ++ [exNote (some .not_implemented)] ++ List.replicate 2 (exNote none) ++
      [.reboot [] [], .call (.protect exGet 256 none)]
    (usedSsns (devRun exCfg toyCrypto (exServerParams false) exDev h).w).count 41 = 2 := by
  decide +kernel

/-- **C12 is false in general (2)**: the server gets synchronised by a request that carries the Echo
value left in memory from before (here zeros), without having sent anything.  Then nothing is
written, and after a restart sequence number 20 is used again. -/
theorem C12_false_early_sync :
    let h : List DevOp :=
      [.reboot (List.replicate 13 0) exJunk,
       .call (.unprotect (sendOf exCfg (exW exClient) exGet) 256),
       .call (.unprotect (sendOf exCfg (afterSend exCfg (exW exClient) exGet)
         (exGet ++ [0xDC, 0xE4] ++ List.replicate 12 0)) 256),
       exNote none, .reboot (List.replicate 13 0) exJunk, .call (.protect exGet 256 none)]
    usedSsns (devRun exCfg toyCrypto (exServerParams false) exDev h).w = [20, 20] := by
  decide +kernel

end Verif
