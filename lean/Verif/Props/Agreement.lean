import Verif.Props.Delivered
import Verif.Props.Receive
/-
C90: injective agreement on requests.  The network may lose, repeat, reorder, change and invent packets; still the
server's application gets each request of the client's application at most once, and nothing else.
-/
namespace Verif
open Verif.Spec (IsMinimalBE)

/-! ### specification -/

/-- the packet is a request by its outer code (class 0) -/
def requestCode (inp : Bytes) : Bool := decide ((inp.getD 1 0).toNat < 32)

/-- what one call hands to the application, when it is a call with a request packet -/
def deliveredBy (op : Op) (res : R Bytes) : List (Bytes × Bytes) :=
  match op, res with
  | .unprotect inp _, .ok out => if requestCode inp then [(inp, out)] else []
  | _, _ => []

/-- What a receiver hands to its application from request packets during a history of calls, in order: the packet that
arrived and the message delivered. -/
def requestsDelivered (cfg : Cfg) (C : Crypto) : World → List Op → List (Bytes × Bytes)
  | _, [] => []
  | w, op :: h =>
    deliveredBy op (step cfg C w op).1 ++ requestsDelivered cfg C (step cfg C w op).2 h

/-- the delivered message is the one the peer's application passed to `coap2oscore` in call number `i` of its history -/
def SentInCall (hA : List Op) (i : Nat) (d : Bytes × Bytes) : Prop :=
  ∃ inp0 cap0 nvmW p0 p opts, hA[i]? = some (.protect inp0 cap0 nvmW) ∧ coapDeserialize inp0 = .ok p0 ∧
    coapDeserialize d.1 = .ok p ∧ DeliveredAs p p0 d.2 opts

/-- the sequence number on the wire is below 256 -/
def earlyNumber (d : Bytes × Bytes) : Bool :=
  match wirePiv d.1 with
  | some n => decide (n < 256)
  | none => false

/-! ### proof -/

theorem requestCode_eq {inp : Bytes} {p : Pkt} (h : coapDeserialize inp = .ok p) : requestCode inp = isRequest p := by
  unfold coapDeserialize at h
  obtain ⟨⟨q, t⟩, hq, h⟩ := R.bind_eq_ok.1 h
  obtain rfl := R.ok.inj h
  unfold coapParse at hq
  split at hq
  · rename_i h' c m1 m0 rest
    dsimp only at hq
    split at hq
    · obtain ⟨⟨o, pl⟩, _, hq⟩ := R.bind_eq_ok.1 hq
      obtain ⟨rfl, _⟩ := Prod.mk.inj (R.ok.inj hq)
      unfold requestCode isRequest
      simp only [List.getD_cons_succ, List.getD_cons_zero]
      rw [Bool.eq_iff_iff]
      simp only [decide_eq_true_eq, beq_iff_eq]
      omega
    · cases hq
  · cases hq

/-- a delivered packet parses -/
theorem delivered_parses {cfg : Cfg} {C : Crypto} {inp out : Bytes} {cap : Nat} {c : Ctx}
    (h : (oscore2coap cfg C inp cap c).1 = .ok out) :
    ∃ p t o, coapParse inp = .ok (p, t) ∧ coapDeserialize inp = .ok p ∧ oscoreOptionParser t = .ok o := by
  have hd : oscore2coap cfg C inp cap c = (.ok out, (oscore2coap cfg C inp cap c).2) := by rw [← h]
  generalize (oscore2coap cfg C inp cap c).2 = c' at hd
  unfold oscore2coap at hd
  obtain ⟨_, _, _, hd⟩ := M.bind_eq_ok.1 hd
  obtain ⟨_, _, _, hd⟩ := M.bind_eq_ok.1 hd
  obtain ⟨⟨p, t⟩, _, hp, hd⟩ := M.bind_eq_ok.1 hd
  obtain ⟨o, _, ho, _⟩ := M.bind_eq_ok.1 hd
  simp only [M.run_lift, Prod.mk.injEq] at hp ho
  refine ⟨p, t, o, hp.1, ?_, ho.1⟩
  unfold coapDeserialize
  rw [hp.1]; rfl

theorem deliveredBy_mem {op : Op} {res : R Bytes} {d : Bytes × Bytes} (hd : d ∈ deliveredBy op res) :
    ∃ cap, op = .unprotect d.1 cap ∧ res = .ok d.2 ∧ requestCode d.1 = true := by
  cases op with
  | unprotect inp cap =>
    cases res with
    | ok out =>
      unfold deliveredBy at hd
      dsimp only at hd
      split at hd
      · rename_i hq
        obtain rfl := List.mem_singleton.1 hd
        exact ⟨cap, rfl, rfl, hq⟩
      · cases hd
    | err e => cases hd
    | ub => cases hd
  | _ => cases hd

theorem requestsDelivered_mem {cfg : Cfg} {C : Crypto} {d : Bytes × Bytes} :
    ∀ {w : World} {h : List Op}, d ∈ requestsDelivered cfg C w h →
    ∃ a cap b, h = a ++ .unprotect d.1 cap :: b ∧ (step cfg C (run cfg C w a) (.unprotect d.1 cap)).1 = .ok d.2 ∧
      requestCode d.1 = true
  | _, [], hd => by cases hd
  | w, op :: h, hd => by
    rw [requestsDelivered] at hd
    rcases List.mem_append.1 hd with hd | hd
    · obtain ⟨cap, rfl, hs, hq⟩ := deliveredBy_mem hd
      exact ⟨[], cap, h, rfl, hs, hq⟩
    · obtain ⟨a, cap, b, rfl, hs, hq⟩ := requestsDelivered_mem hd
      exact ⟨op :: a, cap, b, rfl, hs, hq⟩

/-- what `C61` says about one delivery, with the Partial IV itself -/
theorem delivered_call {cfgS cfgR : Cfg} {C : Crypto} {w0 : World} {h : List Op} (h0 : w0.log = [])
    (hok : ∀ inp0 cap0 nvmW p0, Op.protect inp0 cap0 nvmW ∈ h → coapDeserialize inp0 = .ok p0 →
      InnerOk cfgS p0 ∧ isRequest p0 = true)
    {inp b : Bytes} {cap : Nat} {c : Ctx} (hreq : requestCode inp = true)
    (hauth : AuthenticFor C c inp (run cfgS C w0 h).log)
    (hdel : (oscore2coap cfgR C inp cap c).1 = .ok b) :
    ∃ h1 h2 inp0 cap0 nvmW p0 p t o opts piv, h = h1 ++ Op.protect inp0 cap0 nvmW :: h2 ∧
      coapDeserialize inp0 = .ok p0 ∧ coapDeserialize inp = .ok p ∧ DeliveredAs p p0 b opts ∧
      coapParse inp = .ok (p, t) ∧ isRequest p = true ∧ oscoreOptionParser t = .ok o ∧ o.piv.read = .ok piv ∧
      ssn2piv (run cfgS C w0 h1).ctx.ssn = .ok piv := by
  obtain ⟨p, t', o', hpt', hp, ho'⟩ := delivered_parses hdel
  have hr : isRequest p = true := by rw [← requestCode_eq hp]; exact hreq
  have hd : oscore2coap cfgR C inp cap c = (.ok b, (oscore2coap cfgR C inp cap c).2) := by rw [← hdel]
  obtain ⟨h1, h2, inp0, cap0, nvmW, p0, opts, opt, out, pt, rp, rk, nonce, aad, a, e, hh, hp0, hD, G, hm, hea⟩ :=
    delivered_core cfgS cfgR C w0 h h0 (fun i c n q hm hq => (hok i c n q hm hq).1) inp b cap c _ p hp hauth hd
  have hr0 := (hok inp0 cap0 nvmW p0 (by rw [hh]; simp) hp0).2
  obtain ⟨t, o, hpt, ho, rfl, hkid⟩ := G.kid hr
  have hread := G.read
  have hnr : ¬(msgType p = .response ∨ msgType p = .notification) := by
    have := msgType_request hr
    rintro (h | h)
    · exact this.1 h
    · exact this.2 h
  unfold readWrapper at hread
  rw [if_neg hnr] at hread
  unfold decPivKid OscOpt.read at hread
  obtain ⟨piv, hpiv, hread⟩ := R.bind_eq_ok.1 hread
  obtain ⟨kid, hk, hread⟩ := R.bind_eq_ok.1 hread
  obtain ⟨rfl, rfl⟩ := Prod.mk.inj (R.ok.inj hread)
  obtain ⟨piv0, hs, ha0⟩ := hm.req hr0
  obtain ⟨e1, e2⟩ := aad_inj ha0 G.haad hea G.str
  subst e2
  exact ⟨h1, h2, inp0, cap0, nvmW, p0, p, t, o, opts, piv0, hh, hp0, hp, hD, hpt, hr, ho, hpiv, hs⟩

theorem oneByte {n : Nat} {piv : Bytes} (h : ssn2piv n = .ok piv) (hn : n < 256) : piv.length = 1 := by
  obtain ⟨⟨hb, hne, hmin⟩, h1, _⟩ := ssn2piv_minimal h
  match piv, hne with
  | [x], _ => rfl
  | x :: y :: l, _ =>
    exfalso
    have hx : x ≠ 0 := by
      intro hx
      exact hmin (by simp) (by simp [hx])
    have hx' : 1 ≤ x.toNat := by
      rcases Nat.eq_zero_or_pos x.toNat with h0 | h0
      · exact absurd (UInt8.toNat_inj.1 (by simpa using h0)) hx
      · exact h0
    have hpow : 256 ≤ 256 ^ (y :: l).length := by
      rw [List.length_cons, Nat.pow_succ]
      have : 1 ≤ 256 ^ l.length := Nat.one_le_pow _ _ (by omega)
      omega
    have : 256 ≤ beVal (x :: y :: l) := by
      rw [beVal]
      calc 256 ≤ 1 * 256 ^ (y :: l).length := by omega
        _ ≤ x.toNat * 256 ^ (y :: l).length := Nat.mul_le_mul_right _ hx'
        _ ≤ _ := Nat.le_add_right _ _
    omega

theorem wirePiv_of {inp : Bytes} {p : Pkt} {t : List (Opt × Bytes)} {o : OscOpt} {piv : Bytes} {n : Nat}
    (hpt : coapParse inp = .ok (p, t)) (ho : oscoreOptionParser t = .ok o) (hpiv : o.piv.read = .ok piv)
    (hs : ssn2piv n = .ok piv) : wirePiv inp = some n ∧ beVal piv = n := by
  obtain ⟨hm1, hm2, _⟩ := (ssn2piv_minimal hs)
  refine ⟨?_, hm1.1⟩
  unfold wirePiv
  rw [hpt]
  simp only
  rw [ho]
  simp only
  rw [hpiv]
  cases piv with
  | nil => simp at hm2
  | cons x l => simp only; rw [hm1.1]

/-- Everything the receiver hands over as a request was not forged: each packet is authentic in the state the receiver is
in when it arrives (`AuthenticFor`: what the AEAD accepts, the peer encrypted). -/
def NoForgery (cfg : Cfg) (C : Crypto) (wB : World) (hB : List Op) (log : List EncCall) : Prop :=
  ∀ a inp cap b, hB = a ++ Op.unprotect inp cap :: b → AuthenticFor C (run cfg C wB a).ctx inp log

theorem distinct_numbers {cfgA cfgB : Cfg} {C : Crypto} {prm : InitParams} {nv : R Nat} {jn je : Bytes} {c₀ : Ctx}
    {nvm : Nat} {logB : List EncCall} (hW : 0 < cfgB.windowSize) (hinit : contextInit cfgB C prm nv jn je = .ok c₀)
    {wA : World} {hA : List Op} (h0 : wA.log = [])
    (hok : ∀ inp0 cap0 nvmW p0, Op.protect inp0 cap0 nvmW ∈ hA → coapDeserialize inp0 = .ok p0 →
      InnerOk cfgA p0 ∧ isRequest p0 = true) :
    ∀ {hB before : List Op},
      NoForgery cfgB C ⟨c₀, nvm, logB⟩ (before ++ hB) (run cfgA C wA hA).log →
      ((requestsDelivered cfgB C (run cfgB C ⟨c₀, nvm, logB⟩ before) hB).filter earlyNumber).Pairwise
        (fun d d' => wirePiv d.1 ≠ wirePiv d'.1)
  | [], _, _ => List.Pairwise.nil
  | op :: h, before, hna => by
    have hrec := distinct_numbers hW hinit h0 hok (hB := h) (before := before ++ [op])
      (by rw [List.append_assoc]; exact hna)
    have hrun : run cfgB C ⟨c₀, nvm, logB⟩ (before ++ [op]) =
        (step cfgB C (run cfgB C ⟨c₀, nvm, logB⟩ before) op).2 := by rw [run_append]; rfl
    rw [hrun] at hrec
    rw [requestsDelivered, List.filter_append, List.pairwise_append]
    refine ⟨?_, hrec, ?_⟩
    · unfold deliveredBy
      split
      · split
        · rw [List.filter_cons]
          split
          · exact List.pairwise_singleton _ _
          · exact List.Pairwise.nil
        · exact List.Pairwise.nil
      · exact List.Pairwise.nil
    · intro d hd d' hd' heq
      obtain ⟨hd, hearly⟩ := List.mem_filter.1 hd
      obtain ⟨hd', _⟩ := List.mem_filter.1 hd'
      obtain ⟨inp, out⟩ := d
      obtain ⟨cap, rfl, hs, hq⟩ := deliveredBy_mem hd
      obtain ⟨a, cap', b', rfl, hs', hq'⟩ := requestsDelivered_mem hd'
      obtain ⟨h1, _, _, _, _, _, p, t, o, _, piv, _, _, _, _, hpt, hr, ho, hpiv, hssn⟩ :=
        delivered_call h0 hok hq (hna before inp cap _ rfl) hs
      have hs'' : (oscore2coap cfgB C d'.1 cap' (run cfgB C ⟨c₀, nvm, logB⟩
          (before ++ Op.unprotect inp cap :: a)).ctx).1 = .ok d'.2 := by
        rw [run_append]; exact hs'
      obtain ⟨h1', _, _, _, _, _, p', t', o', _, piv', _, _, _, _, hpt', hr', ho', hpiv', hssn'⟩ :=
        delivered_call h0 hok hq' (hna (before ++ Op.unprotect inp cap :: a) d'.1 cap' b' (by simp)) hs''
      obtain ⟨w1, v1⟩ := wirePiv_of hpt ho hpiv hssn
      obtain ⟨w2, v2⟩ := wirePiv_of hpt' ho' hpiv' hssn'
      simp only at heq
      have hn : (run cfgA C wA h1).ctx.ssn < 256 := by
        unfold earlyNumber at hearly
        simp only [w1, decide_eq_true_eq] at hearly
        exact hearly
      rw [w1, w2] at heq
      have hsame : beVal piv' = beVal piv := by
        rw [v1, v2]; exact (Option.some.inj heq).symm
      have := (C04_no_replay_partial cfgB C prm nv jn je c₀ nvm logB hW hinit before a inp d'.1 cap cap' out p p' t t'
        o o' piv piv' hpt hr ho hpiv hpt' hr' ho' hpiv' hsame (.inl (oneByte hssn hn)) hs).1 d'.2
      exact this hs'

/-- choose a call for every delivery -/
theorem choose_calls {α : Type} {P : Nat → α → Prop} {l : List α} (h : ∀ d ∈ l, ∃ i, P i d) :
    ∃ is : List Nat, is.length = l.length ∧ ∀ x ∈ is.zip l, P x.1 x.2 := by
  induction l with
  | nil => exact ⟨[], rfl, by simp⟩
  | cons d l ih =>
    obtain ⟨i, hi⟩ := h d (by simp)
    obtain ⟨is, hl, his⟩ := ih (fun d hd => h d (by simp [hd]))
    refine ⟨i :: is, by simp [hl], ?_⟩
    intro x hx
    rw [List.zip_cons_cons] at hx
    rcases List.mem_cons.1 hx with rfl | hx
    · exact hi
    · exact his x hx

theorem nodup_of_keys {α κ : Type} {f : Nat → κ} {g : α → κ} {l : List α} (hp : l.Pairwise (fun a b => g a ≠ g b)) :
    ∀ {is : List Nat}, is.length = l.length → (∀ x ∈ is.zip l, g x.2 = f x.1) → is.Nodup := by
  induction hp with
  | nil =>
    intro is hl _
    cases is with
    | nil => exact List.nodup_nil
    | cons => cases hl
  | @cons d l hd _ ih =>
    intro is hl his
    cases is with
    | nil => exact List.nodup_nil
    | cons i is =>
      simp only [List.length_cons, Nat.add_right_cancel_iff] at hl
      rw [List.nodup_cons]
      refine ⟨?_, ih hl (fun x hx => his x (by rw [List.zip_cons_cons]; exact List.mem_cons_of_mem _ hx))⟩
      intro hi
      obtain ⟨k, hk, hk2⟩ := List.mem_iff_getElem.1 hi
      have hk' : k < l.length := by omega
      have hz : (is[k], l[k]) ∈ is.zip l := by
        have : (is.zip l)[k]'(by rw [List.length_zip]; omega) = (is[k], l[k]) := List.getElem_zip
        rw [← this]; exact List.getElem_mem _
      have e1 := his (i, d) (by rw [List.zip_cons_cons]; simp)
      have e2 := his (is[k], l[k]) (by rw [List.zip_cons_cons]; exact List.mem_cons_of_mem _ hz)
      simp only at e1 e2
      rw [hk2] at e2
      exact hd l[k] (List.getElem_mem _) (e1.trans e2.symm)

/-- **C90** A client (any history of calls `hA`, in which it protects requests) and a server (any history of calls `hB`
after `oscore_context_init`, any packets arriving in any order: lost, repeated, delayed, changed, invented), with an AEAD
under which no packet is a forgery.  Then the requests with sequence numbers below 256 that the server hands to its
application can be attributed to calls of the client: each to a call in which the client's application passed exactly
that message (`DeliveredAs`), and no call to two deliveries.  Nothing is executed that was not asked for, and nothing
twice.

Partial: for sequence numbers from 256 on the second half is false (`C90_false`), and a request packet whose outer code
was changed to that of a response is not counted (`C04_false_relabelled`). -/
theorem C90_partial (cfgA cfgB : Cfg) (C : Crypto) (prm : InitParams) (nv : R Nat) (jn je : Bytes) (c₀ : Ctx) (nvm : Nat)
    (logB : List EncCall) (hW : 0 < cfgB.windowSize) (hinit : contextInit cfgB C prm nv jn je = .ok c₀)
    (wA : World) (hA hB : List Op) (h0 : wA.log = [])
    (hok : ∀ inp0 cap0 nvmW p0, Op.protect inp0 cap0 nvmW ∈ hA → coapDeserialize inp0 = .ok p0 →
      InnerOk cfgA p0 ∧ isRequest p0 = true)
    (hforge : NoForgery cfgB C ⟨c₀, nvm, logB⟩ hB (run cfgA C wA hA).log) :
    ∃ calls : List Nat, calls.Nodup ∧
      calls.length = ((requestsDelivered cfgB C ⟨c₀, nvm, logB⟩ hB).filter earlyNumber).length ∧
      ∀ x ∈ calls.zip ((requestsDelivered cfgB C ⟨c₀, nvm, logB⟩ hB).filter earlyNumber), SentInCall hA x.1 x.2 := by
  have key : ∀ d ∈ (requestsDelivered cfgB C ⟨c₀, nvm, logB⟩ hB).filter earlyNumber, ∃ i, SentInCall hA i d ∧
      wirePiv d.1 = some (run cfgA C wA (hA.take i)).ctx.ssn := by
    intro d hd
    obtain ⟨a, cap, b, rfl, hs, hq⟩ := requestsDelivered_mem (List.mem_filter.1 hd).1
    obtain ⟨h1, h2, inp0, cap0, nvmW, p0, p, t, o, opts, piv, hh, hp0, hp, hD, hpt, hr, ho, hpiv, hssn⟩ :=
      delivered_call h0 hok hq (hforge a d.1 cap b rfl) hs
    refine ⟨h1.length, ⟨inp0, cap0, nvmW, p0, p, opts, ?_, hp0, hp, hD⟩, ?_⟩
    · rw [hh]; simp
    · rw [(wirePiv_of hpt ho hpiv hssn).1, hh, List.take_left]
  obtain ⟨is, hl, his⟩ := choose_calls key
  refine ⟨is, ?_, hl, fun x hx => (his x hx).1⟩
  have hd := distinct_numbers (cfgA := cfgA) (before := []) (hB := hB) (nvm := nvm) (logB := logB) hW hinit h0 hok hforge
  exact nodup_of_keys (g := fun d => wirePiv d.1) (f := fun i => some (run cfgA C wA (hA.take i)).ctx.ssn) hd hl
    (fun x hx => (his x hx).2)

/-! ### witnesses -/

/-- with an AEAD that accepts only what the call `e` encrypted nothing is a forgery -/
theorem ideal_authentic {e : EncCall} {a0 : Bytes} (ha : encStructure e.aad = .ok a0) (c : Ctx) (inp : Bytes) :
    AuthenticFor (idealCrypto [(e.key, e.nonce, a0, e.pt)]) c inp [e] := by
  intro nonce a ct pt _ h
  refine ⟨e, by simp, ?_⟩
  simp only [idealCrypto] at h
  split at h
  · split at h
    · rename_i hin
      obtain rfl := Option.some.inj h
      simp only [List.mem_singleton, Prod.mk.injEq] at hin
      obtain ⟨_, h1, h2, h3⟩ := hin
      exact ⟨h1.symm, by rw [h2]; exact ha, h3.symm⟩
    · cases h
  · cases h

theorem exGet_calls : ∀ inp0 cap0 nvmW p0, Op.protect inp0 cap0 nvmW ∈ exGetHist → coapDeserialize inp0 = .ok p0 →
    InnerOk exCfg p0 ∧ isRequest p0 = true := by
  intro inp0 cap0 nvmW p0 hm hp
  simp only [exGetHist, List.mem_singleton, Op.protect.injEq] at hm
  obtain ⟨rfl, _, _⟩ := hm
  have e : coapDeserialize exGet = .ok ((coapDeserialize exGet).getD ⟨0, 0, 0, 0, [], [], []⟩) :=
    R.eq_getD _ (by decide +kernel)
  rw [R.ok.inj (hp.symm.trans e)]
  exact ⟨exGetPkt_inner, by decide +kernel⟩

/-- non-vacuity: GET /tv is sent once; its packet arrives three times, and a changed one in between.  The hypotheses of
`C90_partial` hold and exactly one request is delivered. -/
theorem C90_example :
    contextInit exCfg exIdeal (exServerParams true) (.ok 0) (List.replicate 13 0) exJunk = .ok exServer ∧
    (exW exClient).log = [] ∧
    (∀ inp0 cap0 nvmW p0, Op.protect inp0 cap0 nvmW ∈ exGetHist → coapDeserialize inp0 = .ok p0 →
      InnerOk exCfg p0 ∧ isRequest p0 = true) ∧
    (∀ hB, NoForgery exCfg exIdeal (exW exServer) hB (run exCfg exIdeal (exW exClient) exGetHist).log) ∧
    requestsDelivered exCfg exIdeal (exW exServer) [.unprotect exGetWire 256, .unprotect exGetInjected 256,
      .unprotect exGetWire 256, .unprotect exGetWire 256] = [(exGetWire, exGet)] ∧
    earlyNumber (exGetWire, exGet) = true := by
  refine ⟨by decide +kernel, rfl, exGet_calls, ?_, by decide +kernel, by decide +kernel⟩
  intro hB a inp cap b _
  have hlog : (run exCfg exIdeal (exW exClient) exGetHist).log = [exGetCall] := by decide +kernel
  rw [hlog]
  exact ideal_authentic (R.eq_getD _ (by decide +kernel)) _ _

/-- the AEAD call of a client that sends `exGet` with the sequence number 256 -/
def ex256Call : EncCall :=
  ((afterSend exCfg (exW { exClient with ssn := 256 }) exGet).log)[0]?.getD ⟨[], [], [], [], none⟩

/-- an AEAD for that call alone -/
def exIdeal256 : Crypto := idealCrypto [(ex256Call.key, ex256Call.nonce, (encStructure ex256Call.aad).getD [], ex256Call.pt)]

/-- **C90 is false from sequence number 256 on**: the client sends GET /tv once, nothing is forged, the packet arrives
twice, and the server's application gets two requests, which cannot be two calls of the client. -/
theorem C90_false :
    contextInit exCfg exIdeal256 (exServerParams true) (.ok 0) (List.replicate 13 0) exJunk = .ok exServer ∧
    (∀ hB, NoForgery exCfg exIdeal256 (exW exServer) hB
      (run exCfg exIdeal256 (exW { exClient with ssn := 256 }) exGetHist).log) ∧
    ¬ ∃ calls : List Nat, calls.Nodup ∧
      calls.length = (requestsDelivered exCfg exIdeal256 (exW exServer)
        [.unprotect exReplay256 256, .unprotect exReplay256 256]).length ∧
      ∀ x ∈ calls.zip (requestsDelivered exCfg exIdeal256 (exW exServer)
        [.unprotect exReplay256 256, .unprotect exReplay256 256]), SentInCall exGetHist x.1 x.2 := by
  refine ⟨by decide +kernel, ?_, ?_⟩
  · intro hB a inp cap b _
    have hlog : (run exCfg exIdeal256 (exW { exClient with ssn := 256 }) exGetHist).log = [ex256Call] := by decide +kernel
    rw [hlog]
    exact ideal_authentic (R.eq_getD _ (by decide +kernel)) _ _
  · rw [show requestsDelivered exCfg exIdeal256 (exW exServer) [.unprotect exReplay256 256, .unprotect exReplay256 256] =
      [(exReplay256, exGet), (exReplay256, exGet)] by decide +kernel]
    rintro ⟨calls, hnd, hl, hall⟩
    have zero : ∀ i, SentInCall exGetHist i (exReplay256, exGet) → i = 0 := by
      rintro (_ | i) ⟨_, _, _, _, _, _, h, _⟩
      · rfl
      · cases h
    match calls, hl with
    | [i, j], _ =>
      have hi := zero i (hall (i, _) (by simp))
      have hj := zero j (hall (j, _) (by simp))
      rw [hi, hj] at hnd
      simp at hnd

end Verif
