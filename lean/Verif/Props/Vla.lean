import Verif.Model.Vla
import Verif.Props.Exchange
/-
C82: the library built with variable length arrays behaves as the default build.
-/
namespace Verif.Vla

/-- The VLA build returns `b` where the default build returns `a`: the same, or the refusal of a too large buffer with the
other error code. -/
def SameR {α : Type} (a b : R α) : Prop :=
  b = a ∨ (a = .err .buffer_to_small ∧ b = .err .vla_insufficient_size)

/-- Same result (in the sense above) and the same new state. -/
def Same {σ α : Type} (a b : R α × σ) : Prop := b.2 = a.2 ∧ SameR a.1 b.1

theorem SameR.refl {α : Type} (a : R α) : SameR a a := .inl rfl

theorem Same.refl {σ α : Type} (a : R α × σ) : Same a a := ⟨rfl, .inl rfl⟩

theorem SameR.bind {α β : Type} {a a' : R α} {f f' : α → R β} (h : SameR a a') (hf : ∀ x, a = .ok x → SameR (f x) (f' x)) :
    SameR (a >>= f) (a' >>= f') := by
  rcases h with rfl | ⟨rfl, rfl⟩
  · cases a' with
    | ok x => exact hf x rfl
    | err e => exact .inl rfl
    | ub => exact .inl rfl
  · exact .inr ⟨rfl, rfl⟩

theorem Same.bind {σ α β : Type} {m m' : M σ α} {f f' : α → M σ β} {s : σ} (h : Same (m s) (m' s))
    (hf : ∀ x t, m s = (.ok x, t) → Same (f x t) (f' x t)) : Same ((m >>= f) s) ((m' >>= f') s) := by
  rw [M.run_bind, M.run_bind]
  rcases h1 : m s with ⟨r, t⟩
  rcases h2 : m' s with ⟨r', t'⟩
  rw [h1, h2] at h
  obtain ⟨ht, hr⟩ := h
  simp only at ht hr
  subst ht
  rcases hr with rfl | ⟨rfl, rfl⟩
  · cases r' with
    | ok x => exact hf x _ h1
    | err e => exact .refl _
    | ub => exact .refl _
  · exact ⟨rfl, .inr ⟨rfl, rfl⟩⟩

theorem Same.lift {σ α : Type} {a b : R α} (h : SameR a b) (s : σ) : Same ((M.lift a : M σ α) s) ((M.lift b : M σ α) s) :=
  ⟨rfl, h⟩

theorem new_same (b n : Nat) : SameR (checkBufferSize b n) (byteArrayNew b n) := by
  unfold checkBufferSize byteArrayNew
  split
  · exact .inr ⟨rfl, rfl⟩
  · exact .refl _

theorem encStructure_same (aad : Bytes) : SameR (Verif.encStructure aad) (encStructure aad) :=
  (new_same _ _).bind (fun _ _ => .refl _)

theorem coseEncrypt_same (C : Crypto) (pt n a k : Bytes) : SameR (Verif.coseEncrypt C pt n a k) (coseEncrypt C pt n a k) :=
  (encStructure_same a).bind (fun _ _ => .refl _)

theorem coseDecrypt_same (C : Crypto) (ct n a k : Bytes) : SameR (Verif.coseDecrypt C ct n a k) (coseDecrypt C ct n a k) :=
  (encStructure_same a).bind (fun _ _ => .refl _)

theorem coapSerialize_same (cfg : Cfg) (p : Pkt) (cap : Nat) :
    SameR (Verif.coapSerialize cfg p cap) (coapSerialize cfg p cap) := by
  unfold Verif.coapSerialize coapSerialize
  split
  · exact .refl _
  · exact (SameR.refl _).bind (fun _ _ => (new_same _ _).bind (fun _ _ => .refl _))

/-- The confidential options, encoded, fill the whole announced length although there is a payload: the announced length
(coap2oscore.c:621-630) adds up the lengths the options have in the input, and an option in front of which public options
are left out can need up to two bytes more. -/
def Misannounced (p : Pkt) : Prop :=
  ∃ s, optionSplit p = .ok s ∧ p.payload ≠ [] ∧ (encOpts s.e).length + 1 = plaintextLen p s.eLen

theorem memcpyS_ok {n : Nat} {b b' : Bytes} (h : memcpyS n b = .ok b') : b' = b ∧ (b = [] ∨ b.length ≤ n) := by
  unfold memcpyS checkBufferSize at h
  split at h
  · rename_i h0
    have hb : b = [] := List.eq_nil_of_length_eq_zero h0
    cases h; exact ⟨hb.symm, .inl hb⟩
  · split at h
    · cases h
    · cases h; exact ⟨rfl, .inr (by omega)⟩

theorem sub32_le {a b : Nat} (h : b ≤ a) : sub32 a b ≤ a - b := by
  unfold sub32
  have : a + 2 ^ 32 - b = (a - b) + 2 ^ 32 := by omega
  rw [this, Nat.add_mod_right]
  exact Nat.mod_le _ _

theorem plaintextSetup_same {cfg : Cfg} {p : Pkt} {e : List Opt} {plen : Nat} (h1 : 1 ≤ plen)
    (hpl : p.payload ≠ [] → (encOpts e).length + 1 ≠ plen) (hm : plen ≤ cfg.maxPlaintext) :
    plaintextSetup cfg p e plen = Verif.plaintextSetup cfg p e plen := by
  unfold Verif.plaintextSetup plaintextSetup
  cases h : optionsSerialize e cfg.eOptBuf with
  | err e => rfl
  | ub => rfl
  | ok ser =>
    obtain ⟨hs, -⟩ := optionsSerialize_ok.1 h
    simp only [R.ok_bind]
    cases h2 : memcpyS (plen - 1) ser with
    | err e => rfl
    | ub => rfl
    | ok ser' =>
      obtain ⟨rfl, hl⟩ := memcpyS_ok h2
      simp only [R.ok_bind]
      by_cases h0 : p.payload.length = 0
      · simp only [h0, if_true]
      · have hne := hpl (by intro h; rw [h] at h0; exact h0 rfl)
        rw [← hs] at hne
        have hlt : 1 + ser'.length < plen := by
          rcases hl with hl | hl
          · subst hl; simp at hne ⊢; omega
          · omega
        rw [if_neg h0, if_neg h0, if_neg (by omega), if_neg (by omega)]
        cases h3 : memcpyS (sub32 plen (1 + ser'.length + 1)) p.payload with
        | err e => rfl
        | ub => rfl
        | ok pl =>
          obtain ⟨rfl, hp⟩ := memcpyS_ok h3
          have hle := sub32_le (a := plen) (b := 1 + ser'.length + 1) (by omega)
          have hc : (p.code :: ser' ++ [0xFF] ++ p.payload).length ≤ plen := by
            simp only [List.length_append, List.length_cons, List.length_nil]
            rcases hp with hp | hp
            · rw [hp] at h0; exact absurd rfl h0
            · omega
          simp only [R.ok_bind]
          rw [List.take_of_length_le hc, if_neg (Nat.not_lt.2 hc), if_neg (Nat.not_lt.2 (Nat.le_trans hc hm))]

theorem encryptWrapper_same (cfg : Cfg) (C : Crypto) (nvmW : Option Err) (pt : Bytes) (p : Pkt) (w : World) :
    Same (Verif.encryptWrapper cfg C nvmW pt p w) (encryptWrapper cfg C nvmW pt p w) := by
  unfold Verif.encryptWrapper encryptWrapper
  refine (Same.refl _).bind fun v t _ => (Same.refl _).bind fun q t _ => (Same.refl _).bind fun o t _ =>
    (Same.refl _).bind fun r t _ => (Same.refl _).bind fun aad t _ =>
    (Same.lift (coseEncrypt_same C pt _ aad _) t).bind fun ct t _ => .refl _

theorem decryptWrapper_same (cfg : Cfg) (C : Crypto) (opt : Option OscOpt) (p : Pkt) (c : Ctx) :
    Same (Verif.decryptWrapper cfg C opt p c) (decryptWrapper cfg C opt p c) := by
  unfold Verif.decryptWrapper decryptWrapper
  refine (Same.refl _).bind fun v t _ => (Same.refl _).bind fun q t _ => (Same.refl _).bind fun n t _ =>
    (Same.refl _).bind fun aad t _ =>
    (Same.lift (coseDecrypt_same C _ n aad _) t).bind fun pt t _ => .refl _

theorem unprotectRequest_same (cfg : Cfg) (C : Crypto) (o : OscOpt) (p : Pkt) (c : Ctx) :
    Same (Verif.unprotectRequest cfg C o p c) (unprotectRequest cfg C o p c) := by
  unfold Verif.unprotectRequest unprotectRequest
  refine (Same.refl _).bind fun v t _ => (Same.refl _).bind fun m t _ => ?_
  split
  · exact .refl _
  · exact (Same.refl _).bind fun _ t _ => (decryptWrapper_same cfg C _ p t).bind fun r t _ => .refl _

theorem unprotectResponse_same (cfg : Cfg) (C : Crypto) (o : OscOpt) (p : Pkt) (c : Ctx) :
    Same (Verif.unprotectResponse cfg C o p c) (unprotectResponse cfg C o p c) := by
  unfold Verif.unprotectResponse unprotectResponse
  refine (Same.refl _).bind fun v t _ => ?_
  split
  · split
    · exact (Same.refl _).bind fun _ t _ => (Same.refl _).bind fun _ t _ =>
        (decryptWrapper_same cfg C _ p t).bind fun r t _ => .refl _
    · exact .refl _
  · exact (decryptWrapper_same cfg C _ p t).bind fun r t _ => .refl _

/-- **C82 (receiving).**  For every configuration, context, packet and output buffer `oscore2coap` of the VLA build
returns what the default build returns and leaves the same context behind; only the refusal of a message that is too
large for a local buffer has another error code. -/
theorem C82_unprotect (cfg : Cfg) (C : Crypto) (inp : Bytes) (cap : Nat) (c : Ctx) :
    Same (Verif.oscore2coap cfg C inp cap c) (oscore2coap cfg C inp cap c) := by
  unfold Verif.oscore2coap oscore2coap
  refine (Same.refl _).bind fun v t _ => (Same.refl _).bind fun _ t _ => (Same.refl _).bind fun q t _ =>
    (Same.refl _).bind fun o t _ => (Same.lift (new_same _ _) t).bind fun _ t _ => ?_
  split
  · exact (unprotectRequest_same cfg C o _ t).bind fun out t _ => Same.lift (coapSerialize_same cfg out cap) t
  · exact (unprotectResponse_same cfg C o _ t).bind fun out t _ => Same.lift (coapSerialize_same cfg out cap) t

theorem protectPkt_same (cfg : Cfg) (C : Crypto) (nvmW : Option Err) (p : Pkt) (cap : Nat) (w : World)
    (h : ¬Misannounced p) : Same (Verif.protectPkt cfg C nvmW p cap w) (protectPkt cfg C nvmW p cap w) := by
  unfold Verif.protectPkt protectPkt
  refine (Same.refl _).bind fun s t hs => (Same.lift (new_same _ _) t).bind fun _ t hb => ?_
  have hm : plaintextLen p s.eLen ≤ cfg.maxPlaintext := by
    simp only [M.run_lift, Prod.mk.injEq, checkBufferSize] at hb
    by_cases hlt : cfg.maxPlaintext < plaintextLen p s.eLen
    · rw [if_pos hlt] at hb; cases hb.1
    · omega
  rw [plaintextSetup_same (by unfold plaintextLen; omega)
    (fun hp he => h ⟨s, by simpa using congrArg Prod.fst hs, hp, he⟩) hm]
  refine (Same.refl _).bind fun pt t _ => ?_
  have hn : byteArrayNew (cfg.maxPlaintext + 8) (plaintextLen p s.eLen + 8) = .ok () := by
    unfold byteArrayNew; rw [if_neg (by omega)]
  rw [hn, M.bind_lift_ok]
  exact (Same.refl _).bind fun _ t _ => (encryptWrapper_same cfg C nvmW pt p t).bind fun r t _ =>
    Same.lift (coapSerialize_same cfg _ cap) t

/-- The CoAP message `inp` is one of those for which the options are longer than announced. -/
def MisannouncedMsg (inp : Bytes) : Prop := ∃ p, coapDeserialize inp = .ok p ∧ Misannounced p

/-- **C82 (sending), partial.**  For every configuration, context, message and output buffer `coap2oscore` of the VLA build
returns what the default build returns, with the same sequence number, the same interactions, the same AEAD calls and the
same value in non-volatile memory - except for messages whose confidential options, encoded, fill the announced length
although there is a payload (see `C82_false`). -/
theorem C82_protect_partial (cfg : Cfg) (C : Crypto) (nvmW : Option Err) (inp : Bytes) (cap : Nat) (w : World)
    (h : ¬MisannouncedMsg inp) :
    Same (Verif.coap2oscore cfg C nvmW inp cap w) (coap2oscore cfg C nvmW inp cap w) := by
  unfold Verif.coap2oscore coap2oscore
  refine (Same.refl _).bind fun v t _ => (Same.refl _).bind fun _ t _ => (Same.refl _).bind fun p t hp => ?_
  split
  · exact .refl _
  · exact protectPkt_same cfg C nvmW p cap t (fun hm => h ⟨p, by simpa using congrArg Prod.fst hp, hm⟩)

theorem step_same (cfg : Cfg) (C : Crypto) (w : World) (op : Op)
    (h : ∀ inp cap nvmW, op = .protect inp cap nvmW → ¬MisannouncedMsg inp) :
    Same (Verif.step cfg C w op) (step cfg C w op) := by
  cases op with
  | protect inp cap nvmW => exact C82_protect_partial cfg C nvmW inp cap w (h inp cap nvmW rfl)
  | unprotect inp cap =>
    have hh := C82_unprotect cfg C inp cap w.ctx
    exact ⟨by simp only [Verif.step, step]; rw [hh.1], hh.2⟩

/-- **C82 (histories), partial.**  After every history of calls without such a message the two builds are in the same
state: same contexts, same non-volatile memory, same AEAD calls. -/
theorem C82_history_partial (cfg : Cfg) (C : Crypto) (ops : List Op) (w : World)
    (h : ∀ inp cap nvmW, .protect inp cap nvmW ∈ ops → ¬MisannouncedMsg inp) :
    run cfg C w ops = Verif.run cfg C w ops := by
  induction ops generalizing w with
  | nil => rfl
  | cons op ops ih =>
    have h1 := step_same cfg C w op (fun inp cap nvmW ho => h inp cap nvmW (ho ▸ List.mem_cons_self))
    simp only [run, Verif.run, List.foldl_cons] at ih ⊢
    rw [h1.1]
    exact ih _ (fun inp cap nvmW hm => h inp cap nvmW (List.mem_cons_of_mem _ hm))

theorem eBytes_opt (req : Bool) (l : List Opt) : eBytes req l ≤ optBytesLen l := by
  induction l with
  | nil => simp [eBytes, optBytesLen]
  | cons o l ih =>
    have h1 : optExtraBytes o.delta ≤ 2 := optExtra_le o.delta
    have h2 : optExtraBytes o.len ≤ 2 := optExtra_le o.len
    simp only [optBytesLen, List.map_cons, List.sum_cons] at ih ⊢
    unfold eBytes
    split
    · split <;> omega
    · split <;> omega

/-- Messages that can be carried without loss are none of those: options in order, no public options other than Observe, or
a payload of 10 bytes and more, or none. -/
theorem carriable_announced {cfg : Cfg} {p : Pkt} (hn : numsOk 0 p.opts) (hi : Carriable cfg p) : ¬Misannounced p := by
  rintro ⟨s, hs, hne, he⟩
  obtain ⟨-, rfl⟩ := optionSplit_ok hn hs
  have hb := eBytes_opt (isRequest p) p.opts
  have hm := maxCoapOptions_le ⟨hi.bufs.1, hi.bufs.2.1⟩
  have ho := hi.optBytes
  have hin := hi.inner
  simp only at he
  rw [Nat.mod_eq_of_lt (by omega)] at he
  unfold plaintextLen at he
  rw [if_neg (fun h => hne (List.eq_nil_of_length_eq_zero h))] at he
  rcases hi.payload with hp | hp | hp
  · exact hne hp
  · have := inner_shortfall (req := isRequest p) hi.sorted (ePrev := 0) (by omega) (.inl rfl)
    omega
  · have hk : keptOuter p.opts = [] := by
      unfold keptOuter
      rw [outerOpts_eq, List.filter_filter, List.filter_eq_nil_iff]
      intro o ho
      have h6 := hp o ho
      by_cases hpub : PublicOption o.num
      · simp [h6 hpub, optOBSERVE]
      · simp [hpub]
    have := inner_exact (req := isRequest p) hi.sorted hk hi.noOscore
    omega

/-- **C82 (sending a carriable message), partial.**  Whatever the default build protects in a form the peer can recover
(the condition of C22 and C23), the VLA build turns into the same bytes. -/
theorem C82_carriable_partial {cfg : Cfg} {C : Crypto} {nvmW : Option Err} {inp b : Bytes} {cap : Nat} {w w' : World} {p : Pkt}
    (hsend : Verif.coap2oscore cfg C nvmW inp cap w = (.ok b, w')) (hp : coapDeserialize inp = .ok p)
    (hcar : Carriable cfg p) : coap2oscore cfg C nvmW inp cap w = (.ok b, w') := by
  have hn : numsOk 0 p.opts := (coapDeserialize_wf hp).nums
  have h := C82_protect_partial cfg C nvmW inp cap w (by
    rintro ⟨q, hq, hm⟩
    rw [hp] at hq
    cases hq
    exact carriable_announced hn hcar hm)
  rw [hsend] at h
  obtain ⟨h1, h2 | ⟨h2, -⟩⟩ := h
  · exact Prod.ext h2 h1
  · cases h2

/-- the conditions are met: the POST request of the examples, protected by the VLA build -/
example : coap2oscore exCfg toyCrypto none exPost 256 (exW exClient) =
    Verif.coap2oscore exCfg toyCrypto none exPost 256 (exW exClient) ∧
    (Verif.coap2oscore exCfg toyCrypto none exPost 256 (exW exClient)).1.isOk = true := by
  decide +kernel

theorem plaintextSetup_ub {cfg : Cfg} {p : Pkt} {e : List Opt} {plen : Nat} {pt : Bytes} (hne : p.payload ≠ [])
    (he : (encOpts e).length + 1 = plen) (h : Verif.plaintextSetup cfg p e plen = .ok pt) :
    plaintextSetup cfg p e plen = .ub := by
  unfold Verif.plaintextSetup at h
  unfold plaintextSetup
  obtain ⟨ser, h1, h⟩ := R.bind_eq_ok.1 h
  obtain ⟨ser', h2, -⟩ := R.bind_eq_ok.1 h
  obtain ⟨hs, -⟩ := optionsSerialize_ok.1 h1
  obtain ⟨rfl, -⟩ := memcpyS_ok h2
  rw [h1, R.ok_bind, h2, R.ok_bind, if_neg (fun h => hne (List.eq_nil_of_length_eq_zero h)), if_pos]
  rw [hs]; omega

/-- **C82 is false for every such message**: whenever the default build protects one, the VLA build writes behind its
array for the plaintext. -/
theorem C82_false_general {cfg : Cfg} {C : Crypto} {nvmW : Option Err} {inp b : Bytes} {cap : Nat} {w w' : World} {p : Pkt}
    (hp : coapDeserialize inp = .ok p) (hm : Misannounced p) (hack : ¬(p.type = 2 ∧ p.code = 0))
    (hsend : Verif.coap2oscore cfg C nvmW inp cap w = (.ok b, w')) :
    (coap2oscore cfg C nvmW inp cap w).1 = .ub := by
  obtain ⟨s, hs, hne, he⟩ := hm
  unfold Verif.coap2oscore at hsend
  unfold coap2oscore
  rw [M.bind_get] at hsend ⊢
  obtain ⟨_, w1, h1, hsend⟩ := M.bind_eq_ok.1 hsend
  obtain ⟨hf, rfl⟩ := Prod.mk.inj h1
  rw [hf, M.bind_lift_ok]
  rw [hp, M.bind_lift_ok, if_neg hack] at hsend
  rw [hp, M.bind_lift_ok, if_neg hack]
  unfold Verif.protectPkt at hsend
  unfold protectPkt
  rw [hs, M.bind_lift_ok] at hsend ⊢
  obtain ⟨_, w2, h2, hsend⟩ := M.bind_eq_ok.1 hsend
  obtain ⟨hb, rfl⟩ := Prod.mk.inj h2
  obtain ⟨pt, w3, h3, -⟩ := M.bind_eq_ok.1 hsend
  obtain ⟨hset, -⟩ := Prod.mk.inj h3
  have hb' : byteArrayNew cfg.maxPlaintext (plaintextLen p s.eLen) = .ok () := by
    rcases new_same cfg.maxPlaintext (plaintextLen p s.eLen) with h | ⟨h, -⟩
    · rw [h, hb]
    · rw [h] at hb; cases hb
  rw [hb', M.bind_lift_ok, plaintextSetup_ub hne he hset]
  rfl

/-- the case exists -/
example : MisannouncedMsg exDrop := by
  refine ⟨_, rfl, _, rfl, ?_, ?_⟩ <;> decide +kernel

/-- **C82 is false in general**: a client of the VLA build that protects the message `exDrop` - a GET with Uri-Host,
Uri-Query, EDHOC and Size2 options and a payload of one byte - writes behind the array for the plaintext; the default build
reports `ok` (and loses the payload, C22). -/
theorem C82_false :
    coap2oscore exCfg toyCrypto none exDrop 256 (exW exClient) = (.ub, exW exClient) ∧
    (Verif.coap2oscore exCfg toyCrypto none exDrop 256 (exW exClient)).1.isOk = true := by
  decide +kernel

end Verif.Vla
