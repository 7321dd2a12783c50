import Verif.Props.Echo
/-
C58: the buffer for the Echo value of the server's challenge.
-/
namespace Verif

theorem step_echo_len (cfg : Cfg) (C : Crypto) (w : World) (op : Op) :
    (step cfg C w op).2.ctx.echoVal.length ≤ w.ctx.echoVal.length := by
  cases op with
  | unprotect inp cap =>
    have := (oscore2coap_frame cfg C inp cap w.ctx).echoVal
    simp only [step]
    rw [this]
    exact Nat.le_refl _
  | protect inp cap nvmW =>
    simp only [step]
    have h := coap2oscore_effect cfg C nvmW inp cap w
    generalize (coap2oscore cfg C nvmW inp cap w).1 = r at h
    generalize (coap2oscore cfg C nvmW inp cap w).2 = w' at h
    cases h with
    | unchanged _ => exact Nat.le_refl _
    | emptyAck => exact Nat.le_refl _
    | @enc p s pt ev r w' hf hp hack hs hlen hpt hev henc =>
      have hw' : w'.ctx.echoVal = ev := by
        cases henc <;> simp [withEcho, bumped]
      rw [hw']
      split at hev
      · unfold cacheEchoVal at hev
        split at hev
        · cases hev
        · obtain ⟨h1, h2⟩ := memcpyS_ok.1 hev
          rw [h1]; exact h2
      · rw [hev]; exact Nat.le_refl _

/-- **C58** The value cached for comparison with the client's answer never exceeds the 12 bytes of its
buffer: in every history of calls of a context initialised in any way. -/
theorem C58_bounded_partial (cfg : Cfg) (C : Crypto) (p : InitParams) (nv : R Nat) (jn je : Bytes) (c : Ctx)
    (h : contextInit cfg C p nv jn je = .ok c) (hje : je.length = 12) (nvm : Nat) (log : List EncCall) (ops : List Op) :
    (run cfg C ⟨c, nvm, log⟩ ops).ctx.echoVal.length ≤ 12 := by
  obtain ⟨_, _, _, _, _, _, _, _, _, _, _, rfl⟩ := contextInit_ok h
  refine run_induction (fun w => w.ctx.echoVal.length ≤ 12) (fun w op hw => ?_) (by simp only [hje]; decide) ops
  exact Nat.le_trans (step_echo_len cfg C w op) hw

/-- **C58** A challenge whose Echo value fits what was cached before is cached unchanged (the first Echo
option counts). -/
theorem C58_cached (dest : Bytes) (opts : List Opt) (o : Opt) (h : opts.find? (fun o => o.num == optECHO) = some o)
    (hlen : o.value.length ≤ dest.length) : cacheEchoVal dest opts = .ok o.value := by
  unfold cacheEchoVal
  rw [h]
  exact memcpyS_ok.2 ⟨rfl, hlen⟩

/-- **C58_false** The buffer never grows back: once a challenge with an Echo value of `n` bytes was cached,
no challenge with a longer Echo value can be sent in any later history – protecting it fails. -/
theorem C58_false_shrinks (cfg : Cfg) (C : Crypto) (w : World) (n : Nat) (hn : w.ctx.echoVal.length ≤ n)
    (ops : List Op) (inp : Bytes) (cap : Nat) (nvmW : Option Err) (p : Pkt) (hp : coapDeserialize inp = .ok p)
    (hack : ¬(p.type = 2 ∧ p.code = 0)) (hecho : ∀ o ∈ p.opts, o.num = optECHO → n < o.value.length)
    (hv : (run cfg C w ops).ctx.echo = .verify) (b : Bytes) :
    (coap2oscore cfg C nvmW inp cap (run cfg C w ops)).1 ≠ .ok b := by
  have hl : (run cfg C w ops).ctx.echoVal.length ≤ n :=
    run_induction (fun w => w.ctx.echoVal.length ≤ n) (fun w op hw => Nat.le_trans (step_echo_len cfg C w op) hw) hn ops
  generalize run cfg C w ops = w1 at *
  intro hb
  have h := coap2oscore_effect cfg C nvmW inp cap w1
  rw [hb] at h
  generalize hr : (R.ok b : R Bytes) = r at h
  generalize (coap2oscore cfg C nvmW inp cap w1).2 = w' at h
  cases h with
  | unchanged hx => exact hx b hr.symm
  | emptyAck _ hp' hack' =>
    rw [hp] at hp'; obtain rfl := R.ok.inj hp'; exact hack hack'
  | @enc p' s pt ev r w' hf hp' _ hs hlen hpt hev henc =>
    rw [hp] at hp'; obtain rfl := R.ok.inj hp'
    rw [if_pos hv] at hev
    unfold cacheEchoVal at hev
    split at hev
    · cases hev
    · rename_i o ho
      have hval := (memcpyS_ok.1 hev).2
      have hmem := List.mem_of_find?_eq_some ho
      have hnum : o.num = optECHO := by simpa using List.find?_some ho
      have hs' := (optionSplit_ok (coapDeserialize_wf hp).nums hs).2
      rw [hs'] at hmem
      obtain ⟨o', h1, h2, h3⟩ := mem_redelta hmem
      unfold innerOpts at h1
      obtain ⟨a, ha1, ha2⟩ := List.mem_filterMap.1 h1
      split at ha2
      · rename_i hobs
        obtain rfl := Option.some.inj ha2
        simp only at h2
        rw [hobs, hnum] at h2
        exact absurd h2 (by decide)
      · split at ha2
        · obtain rfl := Option.some.inj ha2
          have := hecho a ha1 (by rw [h2, hnum])
          rw [h3] at this
          omega
        · cases ha2

/-- a challenge with an Echo value of one byte -/
def exShortChallenge : Bytes := [0x61, 0x81, 0x12, 0x34, 0x4A, 0xD1, 0xEF, 0x77]

/-- non-vacuity (and the failure on a concrete server): a rebooted server challenges once with a one-byte
Echo value; from then on the 12-byte challenge it could have sent before is refused. -/
example :
    let srv1 := afterRecv exCfg (exW exServerRebooted) (sendOf exCfg (exW exClient) exGet)
    let srv2 := afterSend exCfg srv1 exShortChallenge
    (step exCfg toyCrypto srv1 (.protect exChallenge 256 none)).1.isOk = true ∧
    (step exCfg toyCrypto srv1 (.protect exShortChallenge 256 none)).1.isOk = true ∧
    srv2.ctx.echoVal = [0x77] ∧ srv2.ctx.echo = .verify ∧
    (step exCfg toyCrypto srv2 (.protect exChallenge 256 none)).1 = .err .buffer_to_small := by
  decide +kernel

end Verif
