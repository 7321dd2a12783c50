import Verif.Props.OscoreRfc
import Verif.Props.OscoreSafe
import Verif.Props.Receive
/-
C88: a device with several security contexts.  The library works on one context per call; RFC 8613, 8.2 step 2 leaves the
choice of the context to the application, which can try one after the other.  Proved here: whatever their order, the packet is
delivered by the context it was made for and all others stay as they are.
-/
namespace Verif
open Verif.Rfc8613 Safe

/-- The application's loop: call `oscore2coap` with one context after the other until one delivers a message.  The result is
the message (or `none` if every context refused the packet) and the contexts afterwards; an access outside of an object
(`ub`) ends everything. -/
def tryAll (cfg : Cfg) (C : Crypto) (inp : Bytes) (cap : Nat) : List Ctx → R (Option Bytes) × List Ctx
  | [] => (.ok none, [])
  | c :: cs =>
    match oscore2coap cfg C inp cap c with
    | (.ok out, c') => (.ok (some out), c' :: cs)
    | (.ub, c') => (.ub, c' :: cs)
    | (.err _, c') => ((tryAll cfg C inp cap cs).1, c' :: (tryAll cfg C inp cap cs).2)

/-- the context answers the packet with an error and stays as it is -/
def Refuses (cfg : Cfg) (C : Crypto) (inp : Bytes) (cap : Nat) (c : Ctx) : Prop :=
  ∃ e, oscore2coap cfg C inp cap c = (.err e, c)

theorem tryAll_refused {cfg : Cfg} {C : Crypto} {inp : Bytes} {cap : Nat} {pre : List Ctx} (post : List Ctx)
    (h : ∀ c ∈ pre, Refuses cfg C inp cap c) :
    tryAll cfg C inp cap (pre ++ post) = ((tryAll cfg C inp cap post).1, pre ++ (tryAll cfg C inp cap post).2) := by
  induction pre with
  | nil => rfl
  | cons c cs ih =>
    obtain ⟨e, he⟩ := h c (by simp)
    rw [List.cons_append, tryAll, he]
    dsimp only
    rw [ih (fun x hx => h x (by simp [hx]))]
    rfl

theorem tryAll_found {cfg : Cfg} {C : Crypto} {inp out : Bytes} {cap : Nat} {pre post : List Ctx} {s s' : Ctx}
    (h : ∀ c ∈ pre, Refuses cfg C inp cap c) (hs : oscore2coap cfg C inp cap s = (.ok out, s')) :
    tryAll cfg C inp cap (pre ++ s :: post) = (.ok (some out), pre ++ s' :: post) := by
  rw [tryAll_refused _ h, tryAll, hs]

/-- A packet that another endpoint made by RFC 8613 is refused with an error, not with an access outside of an object, by a
context in which it does not authenticate. -/
theorem made_refused {cfg : Cfg} {C : Crypto} {m : Msg} {b key n kid piv own : Bytes} {kctx kid' : Option Bytes} {cap : Nat} {c : Ctx}
    (hb : Rfc8613.protect C key n kid piv (optionValue own kctx kid') m = some b) (hfit : m.Fits cfg) (hlen : b.length < 65536)
    (hown : own.length ≤ 5) (hv : (optionValue own kctx kid').length ≤ 255) (huri : 0 < cfg.uriMax)
    (hk : m.isReq ∨ own = [] ∨ (kid'.getD []).length ≤ 7)
    (hid : c.recipientId.length ≤ 7) (hiv : c.commonIv.length ≤ 13) (hcap : cfg.maxCoapOptions + 13 ≤ cap)
    (hrej : Rejected C c b) : Refuses cfg C b cap c := by
  have h8 := C08_forgery_changes_nothing cfg C b cap c hrej
  have hno : ∀ pt, ¬Authentic C c b pt := fun pt h => not_rejected h hrej
  have hnub : (oscore2coap cfg C b cap c).1 ≠ .ub := by
    obtain ⟨ct, henc, rfl⟩ := protect_some hb
    obtain ⟨t, o, hparse, hopt, hpiv, _, hkid, hpl, hkl⟩ := received_parse hfit (ct := ct) hown hv hlen
    have hr : Reads o own (kid'.getD []) := ⟨hpiv, hkid, hpl, hkl⟩
    unfold oscore2coap
    rw [M.bind_get]
    refine mlift_nub freshness_nub fun _ _ => ?_
    have hwf := (coapParse_wf hparse).1
    rw [hparse, M.bind_lift_ok]
    dsimp only
    rw [hopt, M.bind_lift_ok]
    refine mlift_nub check_nub fun _ _ => ?_
    generalize hP : oscorePkgGenerate m.pkt (redelta 0 (outerOpts m.pkt.opts)) ct (optionValue own kctx kid') = P at *
    have hser : ∀ out : Pkt, out.token = P.token → ∀ s : Ctx, ((M.lift (coapSerialize cfg out cap) : M Ctx Bytes) s).1 ≠ .ub := by
      intro out ht s
      have := hwf.token
      exact coapSerialize_nub (by rw [ht]; omega)
    cases hreq : isRequest P with
    | true =>
      rw [if_pos rfl]
      exact mbind_nub (unprotectRequest_nub hparse hopt hreq huri hiv hid hr hown fun pt hd => absurd hd (hno pt))
        fun out s ho => hser out (request_token ho) s
    | false =>
      rw [if_neg (by simp)]
      refine mbind_nub (unprotectResponse_nub hparse hopt huri hiv hreq hr hown ?_ fun pt hd => absurd hd (hno pt))
        fun out s ho => hser out (response_token ho) s
      intro hne
      rcases hk with h | h | h
      · exfalso
        have hr' : isRequest m.pkt = true := by rw [isRequest_pkt]; exact decide_eq_true h
        have := (outer_msgType_request (ct := ct) (v := optionValue own kctx kid') hr').1
        rw [hP, hreq] at this
        cases this
      · exact absurd h hne
      · exact h
  cases hx : oscore2coap cfg C b cap c with
  | mk r c' =>
    rw [hx] at h8 hnub
    obtain rfl : c' = c := h8.2
    cases r with
    | ok v => exact absurd rfl (h8.1 v)
    | ub => exact absurd rfl hnub
    | err e => exact ⟨e, hx⟩

/-- A request does not authenticate in a context with another Recipient ID. -/
theorem other_id_rejected {cfg : Cfg} {C : Crypto} {m : Msg} {b key iv id piv : Bytes} {kctx : Option Bytes} {c : Ctx}
    (hb : request C key iv id piv kctx m = some b) (hfit : m.Fits cfg) (hreq : m.isReq) (hlen : b.length < 65536)
    (hp : piv.length ≤ 5) (hv : (optionValue piv kctx (some id)).length ≤ 255) (hne : c.recipientId ≠ id) : Rejected C c b := by
  intro n a ct' hch
  exfalso
  obtain ⟨ct, henc, rfl⟩ := protect_some hb
  obtain ⟨t, o, hparse, hopt, hpiv, _, hkid, hpl, hkl⟩ := received_parse hfit (ct := ct) hp hv hlen
  have hr' : isRequest m.pkt = true := by rw [isRequest_pkt]; exact decide_eq_true hreq
  have hR := (outer_msgType_request (ct := ct) (v := optionValue piv kctx (some id)) hr').1
  cases hch with
  | request ho hq hn =>
    obtain ⟨t', o', h1, h2, h3⟩ := ho
    rw [hparse] at h1
    simp only [R.ok.injEq, Prod.mk.injEq] at h1
    obtain ⟨rfl, rfl⟩ := h1
    rw [hopt] at h2
    obtain rfl := R.ok.inj h2
    unfold OscOpt.read at h3
    rw [hpiv, hkid] at h3
    simp only [R.ok_bind, R.pure_eq, R.ok.injEq, Prod.mk.injEq, Option.getD_some] at h3
    exact hne h3.2.symm
  | ownPiv ho hq =>
    obtain ⟨t', o', h1, h2, h3⟩ := ho
    rw [hparse] at h1
    simp only [R.ok.injEq, Prod.mk.injEq] at h1
    obtain ⟨rfl, rfl⟩ := h1
    rw [hR] at hq; cases hq
  | samePiv h1 _ _ hq =>
    rw [hparse] at h1
    simp only [R.ok.injEq, Prod.mk.injEq] at h1
    obtain ⟨rfl, rfl⟩ := h1
    rw [hR] at hq; cases hq

/-- **C88** (requests) A request that RFC 8613 makes for the context `srv` is delivered, whatever other contexts the device
tries before or after it, if those tried before have another Recipient ID or at least other keys (contexts that differ in the
ID Context only: the packet does not authenticate in them).  Only `srv` changes, as in a call with `srv` alone. -/
theorem C88_request (cfg : Cfg) (C : Crypto) (hC : C.Lawful) (m : Msg) (b piv : Bytes) (kctx : Option Bytes)
    (cap : Nat) (srv : Ctx) (pre post : List Ctx)
    (hrq : request C srv.recipientKey srv.commonIv srv.recipientId piv kctx m = some b)
    (hpre : ∀ c ∈ pre, c.recipientId ≠ srv.recipientId ∨ Rejected C c b)
    (hsz : ∀ c ∈ pre, c.recipientId.length ≤ 7 ∧ c.commonIv.length ≤ 13)
    (hfit : m.Fits cfg) (hreq : m.isReq) (huri : uriRoom m < cfg.uriMax) (hb : b.length < 65536)
    (hp : 1 ≤ piv.length ∧ piv.length ≤ 5) (hid : srv.recipientId.length + piv.length ≤ 7)
    (hv : (optionValue piv kctx (some srv.recipientId)).length ≤ 255) (hiv : srv.commonIv.length = 13)
    (hssn : srv.ssn < 0x7FFFFF) (hsync : srv.echo = .synchronized) (hfresh : srv.window.valid (beVal piv) = true)
    (hdis : Distinct srv.inter) (hroom : HasRoom srv.inter m.token) (hcap : m.wire.length ≤ cap)
    (hbuf : cfg.maxCoapOptions + 13 ≤ cap) :
    ∃ srv', oscore2coap cfg C b cap srv = (.ok m.wire, srv') ∧
      tryAll cfg C b cap (pre ++ srv :: post) = (.ok (some m.wire), pre ++ srv' :: post) := by
  obtain ⟨srv', h1, _⟩ := C67_receive_request_partial cfg C hC m b piv kctx cap srv hrq hfit hreq huri hb hp hid hv hiv hssn hsync
    hfresh hdis hroom hcap
  refine ⟨srv', h1, tryAll_found (fun c hc => ?_) h1⟩
  have hrej : Rejected C c b := by
    rcases hpre c hc with h | h
    · exact other_id_rejected hrq hfit hreq hb hp.2 hv h
    · exact h
  exact made_refused hrq hfit hb hp.2 hv (by omega) (.inl hreq) (hsz c hc).1 (hsz c hc).2 hbuf hrej

/-- **C88** (responses) The response to a request of the context `cl` is delivered, whatever the other contexts are, whatever
requests of theirs are outstanding (even with the same token), if it does not authenticate in those tried before. -/
theorem C88_response (cfg : Cfg) (C : Crypto) (hC : C.Lawful) (m : Msg) (b kid piv : Bytes)
    (kctx kid' : Option Bytes) (cap : Nat) (cl : Ctx) (pre post : List Ctx)
    (hrs : responseSameNonce C cl.recipientKey cl.commonIv kid piv kctx kid' m = some b)
    (hpre : ∀ c ∈ pre, Rejected C c b) (hsz : ∀ c ∈ pre, c.recipientId.length ≤ 7 ∧ c.commonIv.length ≤ 13)
    (hlast : cl.nonce = nonce kid piv cl.commonIv) (hobs : ¬m.observes)
    (hfit : m.Fits cfg) (hrsp : ¬m.isReq) (huri : uriRoom m < cfg.uriMax) (hb : b.length < 65536)
    (hid : kid.length + piv.length ≤ 7)
    (hv : (optionValue [] kctx kid').length ≤ 255) (hiv : cl.commonIv.length = 13)
    (hssn : cl.ssn < 0x7FFFFF) (hdis : Distinct cl.inter) (hrem : Remembers cl.inter m.token kid piv)
    (hcap : m.wire.length ≤ cap) (hbuf : cfg.maxCoapOptions + 13 ≤ cap) :
    ∃ cl', oscore2coap cfg C b cap cl = (.ok m.wire, cl') ∧
      tryAll cfg C b cap (pre ++ cl :: post) = (.ok (some m.wire), pre ++ cl' :: post) := by
  obtain ⟨cl', h1⟩ := C67_receive_response_partial cfg C hC m b kid piv kctx kid' cap cl hrs hlast hobs hfit hrsp huri hb hid hv hiv
    hssn hdis hrem hcap
  exact ⟨cl', h1, tryAll_found (fun c hc => made_refused hrs hfit hb (by simp) hv (by omega) (.inr (.inl rfl)) (hsz c hc).1
    (hsz c hc).2 hbuf (hpre c hc)) h1⟩

/-- **C88** (notifications and other responses with a Partial IV of their own) -/
theorem C88_notification (cfg : Cfg) (C : Crypto) (hC : C.Lawful) (m : Msg) (b own kid piv : Bytes)
    (kctx kid' : Option Bytes) (cap : Nat) (cl : Ctx) (pre post : List Ctx)
    (hrs : responseNewPiv C cl.recipientKey cl.commonIv cl.recipientId own kid piv kctx kid' m = some b)
    (hpre : ∀ c ∈ pre, Rejected C c b) (hsz : ∀ c ∈ pre, c.recipientId.length ≤ 7 ∧ c.commonIv.length ≤ 13)
    (hkid : kid' = some cl.recipientId ∨ kid' = none ∧ cl.recipientId = [])
    (hnew : m.observes → cl.notifInit = true → cl.notifNum < beVal own)
    (hfit : m.Fits cfg) (hrsp : ¬m.isReq) (huri : uriRoom m < cfg.uriMax) (hb : b.length < 65536)
    (hp : 1 ≤ own.length ∧ own.length ≤ 5) (hrid : cl.recipientId.length ≤ 7) (hid : kid.length + piv.length ≤ 7)
    (hv : (optionValue own kctx kid').length ≤ 255) (hiv : cl.commonIv.length = 13)
    (hssn : cl.ssn < 0x7FFFFF) (hdis : Distinct cl.inter) (hrem : Remembers cl.inter m.token kid piv)
    (hcap : (delivered m).wire.length ≤ cap) (hbuf : cfg.maxCoapOptions + 13 ≤ cap) :
    ∃ cl', oscore2coap cfg C b cap cl = (.ok (delivered m).wire, cl') ∧
      tryAll cfg C b cap (pre ++ cl :: post) = (.ok (some (delivered m).wire), pre ++ cl' :: post) := by
  obtain ⟨cl', h1⟩ := C67_receive_notification_partial cfg C hC m b own kid piv kctx kid' cap cl hrs hkid hnew hfit hrsp huri hb hp
    hrid hid hv hiv hssn hdis hrem hcap
  have hk : (kid'.getD []).length ≤ 7 := by
    rcases hkid with h | ⟨h, -⟩
    · rw [h]; exact hrid
    · rw [h]; simp
  exact ⟨cl', h1, tryAll_found (fun c hc => made_refused hrs hfit hb hp.2 hv (by omega) (.inr (.inr hk)) (hsz c hc).1
    (hsz c hc).2 hbuf (hpre c hc)) h1⟩

/-- **C88** (nobody's packet) A request for an ID that is none of the device's Recipient IDs is delivered by no context and
changes none. -/
theorem C88_unknown (cfg : Cfg) (C : Crypto) (m : Msg) (b key iv id piv : Bytes) (kctx : Option Bytes) (cap : Nat) (cs : List Ctx)
    (hrq : request C key iv id piv kctx m = some b) (hno : ∀ c ∈ cs, c.recipientId ≠ id)
    (hsz : ∀ c ∈ cs, c.recipientId.length ≤ 7 ∧ c.commonIv.length ≤ 13)
    (hfit : m.Fits cfg) (hreq : m.isReq) (huri : 0 < cfg.uriMax) (hb : b.length < 65536)
    (hp : piv.length ≤ 5) (hv : (optionValue piv kctx (some id)).length ≤ 255) (hbuf : cfg.maxCoapOptions + 13 ≤ cap) :
    tryAll cfg C b cap cs = (.ok none, cs) := by
  have := tryAll_refused (cfg := cfg) (C := C) (inp := b) (cap := cap) (pre := cs) [] (fun c hc =>
    made_refused hrq hfit hb hp hv huri (.inl hreq) (hsz c hc).1 (hsz c hc).2 hbuf
      (other_id_rejected hrq hfit hreq hb hp hv (hno c hc)))
  rw [List.append_nil] at this
  rw [this]
  simp [tryAll]

/-- **C88** (any bytes at all) Whatever is received, a context in which the packet does not authenticate is the same after
the whole loop, wherever it stands in the list; and if a message is delivered, it authenticated in one of the contexts. -/
theorem C88_others_unchanged (cfg : Cfg) (C : Crypto) (inp : Bytes) (cap : Nat) (cs : List Ctx) :
    (tryAll cfg C inp cap cs).2.length = cs.length ∧
    (∀ (i : Nat) (c : Ctx), cs[i]? = some c → Rejected C c inp → (tryAll cfg C inp cap cs).2[i]? = some c) ∧
    (∀ out, (tryAll cfg C inp cap cs).1 = .ok (some out) → ∃ c ∈ cs, ∃ pt, Authentic C c inp pt ∧
      (oscore2coap cfg C inp cap c).1 = .ok out) := by
  induction cs with
  | nil =>
    refine ⟨rfl, ?_, ?_⟩
    · intro i c h; simp at h
    · intro out h; simp [tryAll] at h
  | cons c cs ih =>
    obtain ⟨h1, h2, h3⟩ := ih
    have hhead : Rejected C c inp → (oscore2coap cfg C inp cap c).2 = c :=
      fun h => (C08_forgery_changes_nothing cfg C inp cap c h).2
    have hau : ∀ out, (oscore2coap cfg C inp cap c).1 = .ok out → ∃ pt, Authentic C c inp pt := by
      intro out ho
      rcases C08_authentic_or_unchanged cfg C inp cap c with h | ⟨n, a, ct, pt, h⟩
      · exact absurd ho (h.1 out)
      · exact ⟨pt, n, a, ct, h⟩
    cases hx : oscore2coap cfg C inp cap c with
    | mk r c' =>
      rw [hx] at hhead hau
      dsimp only at hhead hau
      rw [tryAll, hx]
      cases r with
      | ok v =>
        refine ⟨rfl, ?_, ?_⟩
        · intro i d hd hrej
          cases i with
          | zero =>
            simp only [List.getElem?_cons_zero, Option.some.injEq] at hd ⊢
            subst hd; exact hhead hrej
          | succ i => exact hd
        · intro out ho
          simp only [R.ok.injEq, Option.some.injEq] at ho
          subst ho
          obtain ⟨pt, hp⟩ := hau v rfl
          exact ⟨c, by simp, pt, hp, by rw [hx]⟩
      | ub =>
        refine ⟨rfl, ?_, ?_⟩
        · intro i d hd hrej
          cases i with
          | zero =>
            simp only [List.getElem?_cons_zero, Option.some.injEq] at hd ⊢
            subst hd; exact hhead hrej
          | succ i => exact hd
        · intro out ho; cases ho
      | err e =>
        refine ⟨by simp [h1], ?_, ?_⟩
        · intro i d hd hrej
          cases i with
          | zero =>
            simp only [List.getElem?_cons_zero, Option.some.injEq] at hd ⊢
            subst hd; exact hhead hrej
          | succ i => exact h2 i d hd hrej
        · intro out ho
          obtain ⟨d, hd, rest⟩ := h3 out ho
          exact ⟨d, by simp [hd], rest⟩

/-- **C88** (why the loop must go on after every error) An application that goes on to the next context only after
`oscore_kid_recipient_id_mismatch` misses requests: a context whose sequence numbers are used up answers every packet, for
whomever it is, with another error before it looks at the kid. -/
theorem C88_error_code (cfg : Cfg) (C : Crypto) (inp : Bytes) (cap : Nat) (c : Ctx) (h : 0x7FFFFF ≤ c.ssn) :
    oscore2coap cfg C inp cap c = (.err .oscore_ssn_overflow, c) := by
  unfold oscore2coap
  rw [M.bind_get, show checkFreshness c = .err .oscore_ssn_overflow by
    unfold checkFreshness ssnOverflow; rw [if_pos (by omega)]]
  rfl

/-- a device with a used-up context and one for another peer, before and after the example server -/
def exDevice : List Ctx := [{ exServer with recipientId := [0x0D], ssn := 0x7FFFFF }, { exServer with recipientId := [] }]

/-- `C88_request`, `C88_unknown` -/
example : (∃ srv', tryAll exCfg toyCrypto (sendOf exCfg (exW exClient) exGet) 256 (exDevice ++ exServer :: exDevice) =
      (.ok (some exGet), exDevice ++ srv' :: exDevice)) ∧
    tryAll exCfg toyCrypto (sendOf exCfg (exW exClient) exGet) 256 exDevice = (.ok none, exDevice) := by
  have hin : exServer.inter = Table.init 3 := by decide +kernel
  have hrq : request toyCrypto exServer.recipientKey exServer.commonIv exServer.recipientId [0x00] none exGetM =
      some (sendOf exCfg (exW exClient) exGet) := by decide +kernel
  have hsz : ∀ c ∈ exDevice, c.recipientId.length ≤ 7 ∧ c.commonIv.length ≤ 13 := by decide +kernel
  have hne : ∀ c ∈ exDevice, c.recipientId ≠ exServer.recipientId := by decide +kernel
  refine ⟨?_, C88_unknown exCfg toyCrypto exGetM _ _ _ _ [0x00] none 256 exDevice hrq hne hsz exGetM_fits (by decide)
    (by decide) (by decide +kernel) (by decide) (by decide +kernel) (by decide)⟩
  obtain ⟨s, -, h⟩ := C88_request exCfg toyCrypto toyCrypto_lawful exGetM _ [0x00] none 256 exServer exDevice exDevice hrq
    (fun c hc => .inl (hne c hc)) hsz exGetM_fits (by decide) (by decide +kernel) (by decide +kernel) (by decide)
    (by decide +kernel) (by decide +kernel) (by decide +kernel) (by decide +kernel) (by decide +kernel) (by decide +kernel)
    (by rw [hin]; exact distinct_init 3) (by rw [hin]; exact ⟨by decide, by intro r h; simp [Table.init] at h⟩)
    (by decide +kernel) (by decide)
  exact ⟨s, h⟩

/-- another context of the client's device, that has asked another server with the same token and the same sequence number -/
def exAskedToo : Ctx := { exAsked with recipientKey := List.replicate 16 0xEE }

/-- the response to `exAsked` -/
def exAnswerB : Bytes := (responseSameNonce toyCrypto exAsked.recipientKey exAsked.commonIv [0x0C] [0x00] none none exRspM).getD []

theorem exAskedToo_rejects : Rejected toyCrypto exAskedToo exAnswerB := by
  have hi : exAskedToo.inter = [some ⟨.request, [0x00], [0x0C], [0x4A], [0x74, 0x76]⟩, none, none] := by decide +kernel
  have key : ∃ p t o, coapParse exAnswerB = .ok (p, t) ∧ oscoreOptionParser t = .ok o ∧ o.read = .ok ([], []) ∧ isRequest p = false ∧
      toyCrypto.aeadDec exAskedToo.recipientKey exAskedToo.nonce (Rfc8613.aad [0x0C] [0x00]) 8 p.payload = none := by
    refine ⟨⟨1, 2, 0x44, 0x1234, [0x4A], [⟨9, [], 9⟩], exAnswerB.drop 7⟩, [(⟨9, [], 9⟩, exAnswerB.drop 6)],
      ⟨.null, .null, .null⟩, ?_, ?_, ?_, ?_, ?_⟩ <;> decide +kernel
  obtain ⟨p, t, o, h1, h2, h3, h4, h5⟩ := key
  intro n a ct hch
  cases hch with
  | request ho hq =>
    obtain ⟨t', o', g1, -⟩ := ho
    rw [h1] at g1
    simp only [R.ok.injEq, Prod.mk.injEq] at g1
    obtain ⟨rfl, rfl⟩ := g1
    rw [h4] at hq; cases hq
  | ownPiv ho hq hpiv =>
    obtain ⟨t', o', g1, g2, g3⟩ := ho
    rw [h1] at g1
    simp only [R.ok.injEq, Prod.mk.injEq] at g1
    obtain ⟨rfl, rfl⟩ := g1
    rw [h2] at g2
    obtain rfl := R.ok.inj g2
    rw [h3] at g3
    simp only [R.ok.injEq, Prod.mk.injEq] at g3
    exact absurd g3.1.symm hpiv
  | samePiv g1 g2 g3 hq hr ht =>
    rw [h1] at g1
    simp only [R.ok.injEq, Prod.mk.injEq] at g1
    obtain ⟨rfl, rfl⟩ := g1
    rw [hi] at hr
    simp only [List.mem_cons, Option.some.injEq, List.not_mem_nil, reduceCtorEq, or_false] at hr
    subst hr
    exact h5

/-- `C88_response`: both contexts wait for an answer to the token 4A; the one asked first in the list is not the one meant -/
example : ∃ cl', tryAll exCfg toyCrypto exAnswerB 256 [exAskedToo, exAsked, exAskedToo] =
    (.ok (some exRsp), [exAskedToo, cl', exAskedToo]) := by
  have hrs : responseSameNonce toyCrypto exAsked.recipientKey exAsked.commonIv [0x0C] [0x00] none none exRspM = some exAnswerB := by
    decide +kernel
  obtain ⟨s, -, h⟩ := C88_response exCfg toyCrypto toyCrypto_lawful exRspM exAnswerB [0x0C] [0x00] none none 256 exAsked [exAskedToo]
    [exAskedToo] hrs (by simpa using exAskedToo_rejects) (by decide +kernel) (by decide +kernel) (by decide) exRspM_fits (by decide)
    (by decide +kernel) (by decide +kernel) (by decide) (by decide) (by decide +kernel) (by decide +kernel) exAsked_distinct
    exAsked_remembers (by decide +kernel) (by decide)
  exact ⟨s, h⟩

end Verif
