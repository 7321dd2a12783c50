import Verif.Lemmas.SafeLemmas
import Verif.Lemmas.Toy
import Verif.Lemmas.Examples
import Verif.Spec.CoapSpec
import Verif.Props.PivNonce
import Verif.Lemmas.CheckedLemmas
/-
C66: memory safety of the two OSCORE calls.  `ub` in the model is a read or write outside an object,
a NULL dereference or the use of an indeterminate byte.
-/
namespace Verif
namespace Safe

/-! ### the URI path of the merged message -/

theorem room_append (a b : List Opt) : Spec.uriPathRoom (a ++ b) = Spec.uriPathRoom a + Spec.uriPathRoom b := by
  simp [Spec.uriPathRoom]

theorem room_perm {a b : List Opt} (h : a.Perm b) : Spec.uriPathRoom a = Spec.uriPathRoom b := by
  unfold Spec.uriPathRoom
  exact ((h.filter _).map _).sum_nat

theorem room_redelta (prev : Nat) (l : List Opt) : Spec.uriPathRoom (redelta prev l) = Spec.uriPathRoom l := by
  induction l generalizing prev with
  | nil => rfl
  | cons o os ih =>
    have := ih o.num
    simp only [Spec.uriPathRoom, redelta, List.filter_cons] at *
    by_cases h : o.num = 11
    · simp only [h, decide_true, if_true, List.map_cons, List.sum_cons] at *; omega
    · simp only [h, decide_false] at *
      exact this

theorem room_filter (l : List Opt) :
    Spec.uriPathRoom (l.filter (fun o => o.num != optOSCORE && o.num != optOBSERVE)) = Spec.uriPathRoom l := by
  unfold Spec.uriPathRoom
  rw [List.filter_filter]
  congr 2
  apply List.filter_congr
  intro o _
  by_cases h : o.num = 11
  · simp [h, optOSCORE, optOBSERVE]
  · simp [h]

/-- What is assumed of a plaintext that passed authentication together with the packet `p`: it has a
code, at most ten complete options, and the Uri-Path segments do not fill the URI buffer exactly. -/
structure PlainOk (cfg : Cfg) (p : Pkt) (pt : Bytes) : Prop where
  nonempty : pt ≠ []
  options : Spec.Framed 10 pt.tail
  size : pt.length < 65536
  path : ∀ e pl, optionsDeserialize pt.tail 10 = .ok (e, pl) →
    Spec.uriPathRoom p.opts + Spec.uriPathRoom e ≠ cfg.uriMax

theorem payloadParser_ok {pt : Bytes} {c : UInt8} {e : List Opt} {pl : Bytes} (h : payloadParser pt = .ok (c, e, pl)) :
    optionsDeserialize pt.tail 10 = .ok (e, pl) := by
  cases pt with
  | nil => cases h
  | cons x r =>
    unfold payloadParser at h
    obtain ⟨⟨e', pl'⟩, h1, h2⟩ := R.bind_eq_ok.1 h
    simp only [R.pure_eq, R.ok.injEq, Prod.mk.injEq] at h2
    obtain ⟨rfl, rfl, rfl⟩ := h2
    exact h1

theorem pkg_nub {cfg : Cfg} {p : Pkt} {pt : Bytes} (hp : PlainOk cfg p pt) : oCoapPkgGenerate pt p ≠ .ub := by
  unfold oCoapPkgGenerate
  refine bind_nub (payloadParser_nub hp.nonempty hp.options hp.size) fun x _ => ?_
  obtain ⟨c, e, pl⟩ := x
  refine bind_nub ?_ fun _ _ => by intro h; cases h
  unfold optionsReorder
  exact bind_nub check_nub fun _ _ => by intro h; cases h

theorem pkg_room {cfg : Cfg} {p out : Pkt} {pt : Bytes} (hp : PlainOk cfg p pt) (h : oCoapPkgGenerate pt p = .ok out) :
    Spec.uriPathRoom out.opts ≠ cfg.uriMax ∧ out.token = p.token := by
  unfold oCoapPkgGenerate at h
  obtain ⟨⟨c, e, pl⟩, h1, h⟩ := R.bind_eq_ok.1 h
  obtain ⟨os, h2, h⟩ := R.bind_eq_ok.1 h
  simp only [R.pure_eq, R.ok.injEq] at h
  subst h
  have h3 := hp.path e pl (payloadParser_ok h1)
  unfold optionsReorder at h2
  obtain ⟨_, _, h2⟩ := R.bind_eq_ok.1 h2
  simp only [R.pure_eq, R.ok.injEq] at h2
  subst h2
  refine ⟨?_, rfl⟩
  simp only
  rw [room_redelta, room_perm (exSort_perm _ _), room_append, room_filter]
  exact h3

/-- the nonce source of `decrypt_wrapper` is safe -/
def OptOk (p : Pkt) : Option OscOpt → Prop
  | none => isRequest p = false
  | some o => ∃ piv kid, Reads o piv kid ∧ piv.length ≤ 5 ∧ kid.length ≤ 7

theorem msgType_resp {p : Pkt} (h : isRequest p = false) : msgType p = .response ∨ msgType p = .notification := by
  unfold msgType
  rw [h]
  cases getObserveValue p.opts with
  | none => exact Or.inl rfl
  | some v => exact Or.inr rfl

/-- `pt` is what the AEAD makes of the packet in this call -/
def Decrypts (C : Crypto) (opt : Option OscOpt) (p : Pkt) (c : Ctx) (pt : Bytes) : Prop :=
  ∃ rp rk nonce aad, readWrapper c.inter (msgType p) p.token (decPivKid opt) = .ok (rp, rk) ∧ decNonce c opt = .ok nonce ∧
    createAad rk rp = .ok aad ∧ coseDecrypt C p.payload nonce aad c.recipientKey = .ok pt

theorem Decrypts.authentic {C : Crypto} {opt : Option OscOpt} {p : Pkt} {c : Ctx} {pt inp : Bytes} {t : List (Opt × Bytes)} {o : OscOpt}
    (hp : coapParse inp = .ok (p, t)) (ho : oscoreOptionParser t = .ok o)
    (hreq : isRequest p = true → opt = some o ∧ kidMatches c o = .ok true)
    (hrsp : isRequest p = false → opt = if o.piv.len ≠ 0 then some o else none) (h : Decrypts C opt p c pt) :
    Authentic C c inp pt := by
  obtain ⟨rp, rk, nonce, aad, h1, h2, h3, h4⟩ := h
  exact ⟨_, _, _, checked hp ho hreq hrsp h1 h2 h3 h4⟩

theorem decryptWrapper_nub {cfg : Cfg} {C : Crypto} {opt : Option OscOpt} {p : Pkt} {c : Ctx}
    (huri : 0 < cfg.uriMax) (hiv : c.commonIv.length ≤ 13) (hopt : OptOk p opt)
    (hpt : ∀ pt, Decrypts C opt p c pt → PlainOk cfg p pt) :
    (decryptWrapper cfg C opt p c).1 ≠ .ub := by
  unfold decryptWrapper
  rw [M.bind_get]
  refine mlift_nub (readWrapper_nub ?_) fun x hx => ?_
  · cases opt with
    | none => exact Or.inl (msgType_resp hopt)
    | some o =>
      obtain ⟨piv, kid, hr, _, _⟩ := hopt
      refine Or.inr ?_
      simp only [decPivKid, OscOpt.read]
      rw [hr.readPiv, hr.readKid]
      intro h; cases h
  · obtain ⟨rp, rk⟩ := x
    refine mlift_nub ?_ fun nonce hnonce => mlift_nub aad_nub fun aad haad => mlift_nub coseDecrypt_nub fun pt hd => ?_
    · cases opt with
      | none => intro h; cases h
      | some o =>
        obtain ⟨piv, kid, hr, h5, h7⟩ := hopt
        simp only [decNonce, OscOpt.read]
        rw [hr.readPiv, hr.readKid]
        exact createNonce_nub h7 h5 hiv
    · have hp := hpt _ ⟨rp, rk, nonce, aad, hx, hnonce, haad, hd⟩
      have hst : ∀ (f : M Ctx (Pkt × Bytes)),
          (if opt.isSome = true then (M.modify (fun c : Ctx => { c with nonce := nonce }) >>= fun _ => f) else f) c =
            f { c with nonce := nonce } := by
        intro f
        cases opt with
        | some o => rfl
        | none =>
          simp only [decNonce, R.ok.injEq] at hnonce
          subst hnonce
          rfl
      show ((if opt.isSome = true then (M.modify (fun c : Ctx => { c with nonce := nonce }) >>= fun _ => _) else _) c).1 ≠ .ub
      rw [hst]
      refine mlift_nub (pkg_nub hp) fun out hout => ?_
      refine mlift_nub (uriPathCreate_nub huri (pkg_room hp hout).1) fun uri _ => mlift_nub updateWrapper_nub fun t _ => ?_
      intro h; cases h

theorem decryptWrapper_out {cfg : Cfg} {C : Crypto} {opt : Option OscOpt} {p out : Pkt} {pt : Bytes} {c c' : Ctx}
    (h : decryptWrapper cfg C opt p c = (.ok (out, pt), c')) :
    out.token = p.token ∧ Decrypts C opt p c pt := by
  have he := decryptWrapper_effect cfg C opt p c
  have hr : (decryptWrapper cfg C opt p c).1 = .ok (out, pt) := by rw [h]
  rw [hr] at he
  generalize (decryptWrapper cfg C opt p c).2 = c2 at he
  cases he with
  | unchanged h => exact absurd rfl (h _)
  | auth h1 h2 h3 h4 h5 =>
    rcases h5 with ⟨out', uri, h6, h7, h8, h9⟩ | ⟨h6, _⟩
    · cases h6
      refine ⟨?_, _, _, _, _, h1, h2, h3, h4⟩
      unfold oCoapPkgGenerate at h7
      obtain ⟨⟨c, e, pl⟩, _, h7⟩ := R.bind_eq_ok.1 h7
      obtain ⟨os, _, h7⟩ := R.bind_eq_ok.1 h7
      cases h7
      rfl
    · exact absurd rfl (h6 _)

/-- Conditions on the fixed part of the context, the caller's buffer and the received packet. -/
structure RecvArgs (cfg : Cfg) (c : Ctx) (inp : Bytes) (cap : Nat) : Prop where
  /-- URI buffer of the build, Recipient ID and Common IV of the context -/
  uri : 0 < cfg.uriMax
  rid : c.recipientId.length ≤ 7
  iv : c.commonIv.length ≤ 13
  /-- the caller's buffer -/
  room : cfg.maxCoapOptions + 13 ≤ cap
  /-- the packet: a UDP datagram, not truncated -/
  size : inp.length < 65536
  framed : Spec.FramedPacket inp
  /-- its OSCORE option(s) are complete -/
  options : ∀ p, coapDeserialize inp = .ok p → ∀ o ∈ p.opts, o.num = 9 → Spec.OscoreComplete o.value
  /-- a response with a Partial IV has a KID of at most 7 bytes -/
  kid : ∀ p, coapDeserialize inp = .ok p → isRequest p = false → ∀ o ∈ p.opts, o.num = 9 →
    ∀ piv kctx kid, Spec.OscoreFields o.value piv kctx kid → piv ≠ [] → kid.length ≤ 7

/-- The conditions under which `oscore2coap` is shown not to leave any object: on the context and
the caller's buffer, on the received packet, and on what the AEAD lets pass. -/
structure RecvOk (cfg : Cfg) (C : Crypto) (c : Ctx) (inp : Bytes) (cap : Nat) : Prop extends RecvArgs cfg c inp cap where
  /-- the authenticated plaintext -/
  plain : ∀ p, coapDeserialize inp = .ok p → ∀ pt, Authentic C c inp pt →
    PlainOk cfg p pt ∧ (isRequest p = true → ∀ o ∈ p.opts, o.num = 9 →
      ∀ piv kctx kid, Spec.OscoreFields o.value piv kctx kid → piv ≠ [])

theorem fields_piv {v piv kctx kid : Bytes} (h : Spec.OscoreFields v piv kctx kid) : piv.length ≤ 5 := by
  cases h <;> simp_all

theorem afterRequest_nub {cfg : Cfg} {p : Pkt} {o : OscOpt} {pt piv kid : Bytes} {c : Ctx} (hr : Reads o piv kid) (hp : PlainOk cfg p pt)
    (hpiv : piv ≠ []) : (afterRequest o pt c).1 ≠ .ub := by
  unfold afterRequest
  rw [M.bind_get]
  cases he : c.echo with
  | reboot => intro h; cases h
  | verify =>
    simp only
    have hnub : echoValIsFresh c.echoVal pt ≠ .ub := by
      unfold echoValIsFresh
      refine bind_nub (payloadParser_nub hp.nonempty hp.options hp.size) fun x _ => ?_
      obtain ⟨_, opts, _⟩ := x
      simp only
      split
      · intro h; cases h
      · split <;> (intro h; cases h)
    cases hf : echoValIsFresh c.echoVal pt with
    | ub => exact absurd hf hnub
    | err e => intro h; cases h
    | ok u =>
      simp only [hr.readPiv]
      intro h; cases h
  | synchronized =>
    simp only [hr.readPiv]
    rw [M.bind_lift_ok]
    cases piv with
    | nil => exact absurd rfl hpiv
    | cons b l => intro h; cases h

theorem unprotectRequest_nub {cfg : Cfg} {C : Crypto} {o : OscOpt} {p : Pkt} {c : Ctx} {piv kid inp : Bytes} {t : List (Opt × Bytes)}
    (hp : coapParse inp = .ok (p, t)) (ho : oscoreOptionParser t = .ok o) (hreq : isRequest p = true)
    (huri : 0 < cfg.uriMax) (hiv : c.commonIv.length ≤ 13) (hid : c.recipientId.length ≤ 7)
    (hr : Reads o piv kid) (h5 : piv.length ≤ 5)
    (hpt : ∀ pt, Authentic C c inp pt → PlainOk cfg p pt ∧ piv ≠ []) :
    (unprotectRequest cfg C o p c).1 ≠ .ub := by
  unfold unprotectRequest
  rw [M.bind_get]
  refine mlift_nub ?_ fun m hm => ?_
  · unfold kidMatches
    split
    · intro h; cases h
    · rw [hr.readKid]; intro h; cases h
  · cases m with
    | false => intro h; cases h
    | true =>
      rw [if_neg (by simp)]
      have hkid : kid.length ≤ 7 := by
        unfold kidMatches at hm
        split at hm
        · cases hm
        · rename_i hlen
          rw [hr.kidLen] at hlen
          have : kid.length = c.recipientId.length := Classical.byContradiction fun h => hlen h
          omega
      have ha : ∀ {pt}, Decrypts C (some o) p c pt → Authentic C c inp pt := fun h =>
        h.authentic hp ho (fun _ => ⟨rfl, hm⟩) (fun h => by rw [hreq] at h; cases h)
      refine mlift_nub ?_ fun _ _ => mbind_nub (decryptWrapper_nub huri hiv ⟨piv, kid, hr, h5, hkid⟩ fun pt h => (hpt pt (ha h)).1) ?_
      · unfold checkReplay
        split
        · rw [hr.readPiv]
          simp only [R.ok_bind]
          split <;> (intro h; cases h)
        · intro h; cases h
      · intro x c' hx
        obtain ⟨out, pt⟩ := x
        have := hpt pt (ha (decryptWrapper_out hx).2)
        exact mbind_nub (afterRequest_nub hr this.1 this.2) fun _ _ _ => by intro h; cases h

theorem unprotectResponse_nub {cfg : Cfg} {C : Crypto} {o : OscOpt} {p : Pkt} {c : Ctx} {piv kid inp : Bytes} {t : List (Opt × Bytes)}
    (hp : coapParse inp = .ok (p, t)) (ho : oscoreOptionParser t = .ok o) (huri : 0 < cfg.uriMax) (hiv : c.commonIv.length ≤ 13) (hreq : isRequest p = false)
    (hr : Reads o piv kid) (h5 : piv.length ≤ 5) (h7 : piv ≠ [] → kid.length ≤ 7)
    (hpt : ∀ pt, Authentic C c inp pt → PlainOk cfg p pt) :
    (unprotectResponse cfg C o p c).1 ≠ .ub := by
  unfold unprotectResponse
  rw [M.bind_get]
  have hopt : o.piv.len ≠ 0 → OptOk p (some o) := by
    intro h
    refine ⟨piv, kid, hr, h5, h7 ?_⟩
    rintro rfl
    exact h hr.pivLen
  have hpt' : ∀ pt, Decrypts C (if o.piv.len ≠ 0 then some o else none) p c pt → PlainOk cfg p pt := fun pt h =>
    hpt pt (h.authentic hp ho (fun h => by rw [hreq] at h; cases h) (fun _ => rfl))
  by_cases hobs : isObserve p.opts = true
  · rw [if_pos hobs]
    by_cases hl : o.piv.len ≠ 0
    · rw [if_pos hl] at hpt'
      rw [if_pos hl, hr.readPiv, M.bind_lift_ok]
      refine mlift_nub ?_ fun _ _ => mbind_nub (decryptWrapper_nub huri hiv (hopt hl) hpt') fun x c' _ => ?_
      · unfold checkNotification piv2ssn
        rw [if_neg (by omega)]
        simp only [R.ok_bind]
        split <;> (intro h; cases h)
      · obtain ⟨out, pt⟩ := x
        refine mbind_nub ?_ fun _ _ _ => by intro h; cases h
        unfold notificationUpdate piv2ssn
        rw [if_neg (by omega), M.bind_lift_ok]
        intro h; cases h
    · rw [if_neg hl]
      intro h; cases h
  · rw [if_neg hobs]
    refine mbind_nub (decryptWrapper_nub huri hiv ?_ hpt') fun x c' _ => by intro h; cases h
    by_cases hl : o.piv.len ≠ 0
    · rw [if_pos hl]; exact hopt hl
    · rw [if_neg hl]; exact hreq


/-! ### unprotect -/

theorem request_token {cfg : Cfg} {C : Crypto} {o : OscOpt} {p out : Pkt} {c c' : Ctx}
    (h : unprotectRequest cfg C o p c = (.ok out, c')) : out.token = p.token := by
  unfold unprotectRequest at h
  rw [M.bind_get] at h
  obtain ⟨m, s1, h1, h⟩ := M.bind_eq_ok.1 h
  cases m with
  | false => cases h
  | true =>
    rw [if_neg (by simp)] at h
    obtain ⟨_, s2, h2, h⟩ := M.bind_eq_ok.1 h
    obtain ⟨⟨q, pt⟩, s3, h3, h⟩ := M.bind_eq_ok.1 h
    obtain ⟨_, s4, _, h⟩ := M.bind_eq_ok.1 h
    have h' : (R.ok q, s4) = (R.ok out, c') := h
    simp only [Prod.mk.injEq, R.ok.injEq] at h'
    rw [← h'.1]
    exact (decryptWrapper_out h3).1

theorem response_token {cfg : Cfg} {C : Crypto} {o : OscOpt} {p out : Pkt} {c c' : Ctx}
    (h : unprotectResponse cfg C o p c = (.ok out, c')) : out.token = p.token := by
  unfold unprotectResponse at h
  rw [M.bind_get] at h
  by_cases hobs : isObserve p.opts = true
  · rw [if_pos hobs] at h
    by_cases hl : o.piv.len ≠ 0
    · rw [if_pos hl] at h
      obtain ⟨_, s1, _, h⟩ := M.bind_eq_ok.1 h
      obtain ⟨_, s2, _, h⟩ := M.bind_eq_ok.1 h
      obtain ⟨⟨q, pt⟩, s3, h3, h⟩ := M.bind_eq_ok.1 h
      obtain ⟨_, s4, _, h⟩ := M.bind_eq_ok.1 h
      have h' : (R.ok q, s4) = (R.ok out, c') := h
      simp only [Prod.mk.injEq, R.ok.injEq] at h'
      rw [← h'.1]
      exact (decryptWrapper_out h3).1
    · rw [if_neg hl] at h; cases h
  · rw [if_neg hobs] at h
    obtain ⟨⟨q, pt⟩, s3, h3, h⟩ := M.bind_eq_ok.1 h
    have h' : (R.ok q, s3) = (R.ok out, c') := h
    simp only [Prod.mk.injEq, R.ok.injEq] at h'
    rw [← h'.1]
    exact (decryptWrapper_out h3).1

theorem freshness_nub {c : Ctx} : checkFreshness c ≠ .ub := by
  unfold checkFreshness; split <;> (intro h; cases h)

theorem unprotect_nub {cfg : Cfg} {C : Crypto} {c : Ctx} {inp : Bytes} {cap : Nat} (h : RecvOk cfg C c inp cap) :
    (oscore2coap cfg C inp cap c).1 ≠ .ub := by
  unfold oscore2coap
  rw [M.bind_get]
  refine mlift_nub freshness_nub fun _ _ => mlift_nub (coapParse_nub h.framed h.size) fun x hx => ?_
  obtain ⟨p, t⟩ := x
  have hparse := hx
  have hp : coapDeserialize inp = .ok p := by unfold coapDeserialize; rw [hx]; rfl
  obtain ⟨hwf, hopts, hpre⟩ := coapParse_wf hx
  have hmem : ∀ x ∈ t, x.1 ∈ p.opts := fun x hx => by rw [hopts]; exact List.mem_map_of_mem hx
  have hsafe := parserGo_safe (t := t) (fun x hx h9 => h.options p hp x.1 (hmem x hx) h9) hpre none
  refine mlift_nub hsafe.1 fun o ho => mlift_nub check_nub fun _ _ => ?_
  rcases hsafe.2 o ho with hn | ⟨x, hx, h9, piv, kctx, kid, hf, hr⟩
  · cases hn
  have h5 := fields_piv hf
  have hser : ∀ out : Pkt, out.token = p.token → ∀ s : Ctx, ((M.lift (coapSerialize cfg out cap) : M Ctx Bytes) s).1 ≠ .ub := by
    intro out ht s
    have hroom := h.room
    have := hwf.token
    exact coapSerialize_nub (by rw [ht]; omega)
  cases hreq : isRequest p with
  | true =>
    rw [if_pos rfl]
    refine mbind_nub (unprotectRequest_nub hparse ho hreq h.uri h.iv h.rid hr h5 fun pt hd => ?_) fun out s ho => hser out (request_token ho) s
    obtain ⟨h1, h2⟩ := h.plain p hp pt hd
    exact ⟨h1, h2 hreq _ (hmem x hx) h9 piv kctx kid hf⟩
  | false =>
    rw [if_neg (by simp)]
    exact mbind_nub (unprotectResponse_nub hparse ho h.uri h.iv hreq hr h5 (h.kid p hp hreq _ (hmem x hx) h9 piv kctx kid hf)
      fun pt hd => (h.plain p hp pt hd).1) fun out s ho => hser out (response_token ho) s

/-! ### protect -/

/-- an option that goes into the plaintext (RFC 8613 §4.1: everything but Uri-Host, Uri-Port,
OSCORE, EDHOC, Proxy-Uri and Proxy-Scheme) -/
def isInner (o : Opt) : Bool := !([3, 7, 9, 21, 35, 39].contains o.num)

/-- The conditions under which `coap2oscore` is shown not to leave any object. -/
structure SendOk (cfg : Cfg) (c : Ctx) (inp : Bytes) (cap : Nat) : Prop where
  uri : 0 < cfg.uriMax
  sid : c.senderId.length ≤ 7
  iv : c.commonIv.length ≤ 13
  room : cfg.maxCoapOptions + 13 ≤ cap
  ack : inp.length ≤ cap
  /-- the application's message is complete, with ascending option numbers -/
  size : inp.length < 65536
  framed : Spec.FramedPacket inp
  sorted : ∀ p, coapDeserialize inp = .ok p → Spec.sortedFrom 0 p.opts
  /-- the confidential options fit the 100-byte scratch buffer even with the longest headers -/
  inner : ∀ p, coapDeserialize inp = .ok p →
    ((p.opts.filter isInner).map (fun o => 5 + o.value.length)).sum ≤ cfg.eOptBuf
  /-- the payload leaves room for them in the plaintext buffer -/
  plain : ∀ p, coapDeserialize inp = .ok p → 2 + cfg.eOptBuf + p.payload.length ≤ cfg.maxPlaintext
  /-- the Uri-Path segments do not fill the URI buffer exactly -/
  path : ∀ p, coapDeserialize inp = .ok p → Spec.uriPathRoom p.opts ≠ cfg.uriMax

theorem isInner_of {o : Opt} (h : o.num = optOBSERVE ∨ isClassE o.num = true) : isInner o = true := by
  unfold isInner
  rcases h with h | h
  · rw [h]; decide
  · unfold isClassE optURI_HOST optURI_PORT optOSCORE optPROXY_URI optPROXY_SCHEME optEDHOC at h
    simp only [Bool.and_eq_true, bne_iff_ne, ne_eq] at h
    simp only [List.contains_eq_mem, List.mem_cons, List.not_mem_nil, or_false, Bool.not_eq_true', decide_eq_false_iff_not, not_or]
    omega

theorem inner_bytes (req : Bool) (l : List Opt) :
    optBytesLen (innerOpts req l) ≤ ((l.filter isInner).map (fun o => 5 + o.value.length)).sum := by
  induction l with
  | nil => simp [innerOpts, optBytesLen]
  | cons o os ih =>
    have ih' : optBytesLen (innerOpts req os) ≤ ((os.filter isInner).map (fun o => 5 + o.value.length)).sum := ih
    unfold innerOpts at ih' ⊢
    rw [List.filterMap_cons, List.filter_cons]
    by_cases ho : o.num = optOBSERVE
    · simp only [if_pos ho]
      rw [if_pos (isInner_of (Or.inl ho))]
      simp only [optBytesLen, List.map_cons, List.sum_cons, Opt.len] at *
      cases req <;> simp at * <;> omega
    · simp only [if_neg ho]
      by_cases hc : isClassE o.num = true
      · simp only [if_pos hc]
        rw [if_pos (isInner_of (Or.inr hc))]
        simp only [optBytesLen, List.map_cons, List.sum_cons, Opt.len] at *
        omega
      · simp only [if_neg hc]
        by_cases hi : isInner o = true
        · rw [if_pos hi]
          simp only [List.map_cons, List.sum_cons]
          omega
        · rw [if_neg hi]
          exact ih'

theorem extra_mono {a b : Nat} (h : a ≤ b) : optExtraBytes a ≤ optExtraBytes b := by
  unfold optExtraBytes; repeat' split
  all_goals omega

/-- the announced length of the inner options is never more than what is written -/
theorem eBytes_le_enc {req : Bool} {l : List Opt} {p0 prev : Nat} (hs : Spec.sortedFrom p0 l) (hp : prev ≤ p0) :
    eBytes req l ≤ (encOpts (redelta prev (innerOpts req l))).length := by
  induction l generalizing p0 prev with
  | nil => simp [eBytes]
  | cons o os ih =>
    obtain ⟨h1, h2, h3, h4⟩ := hs
    have hd : (o.num + 65536 - prev) % 65536 = o.num - prev := by omega
    have hm : optExtraBytes o.delta ≤ optExtraBytes (o.num - prev) := extra_mono (by omega)
    have hskip := ih h4 (show prev ≤ o.num by omega)
    have htake := ih h4 (Nat.le_refl o.num)
    unfold innerOpts at hskip htake ⊢
    rw [List.filterMap_cons]
    unfold eBytes
    by_cases ho : o.num = optOBSERVE
    · simp only [if_pos ho, redelta, encOpts, hd, List.length_append, optHeader_length]
      cases req
      · simp only [Opt.len] at *; simp at *; omega
      · simp only [Opt.len, if_true] at *; omega
    · simp only [if_neg ho]
      by_cases hc : isClassE o.num = true
      · simp only [if_pos hc, redelta, encOpts, hd, List.length_append, optHeader_length]
        simp only [Opt.len] at *; omega
      · simp only [if_neg hc]; omega

theorem plaintextSetup_nub {cfg : Cfg} {p : Pkt} (hs : Spec.sortedFrom 0 p.opts)
    (hin : optBytesLen (innerOpts (isRequest p) p.opts) ≤ cfg.eOptBuf)
    (hpl : 2 + cfg.eOptBuf + p.payload.length ≤ cfg.maxPlaintext) :
    plaintextSetup cfg p (redelta 0 (innerOpts (isRequest p) p.opts))
      (plaintextLen p (eBytes (isRequest p) p.opts % 65536)) ≠ .ub := by
  have hex := eBytes_le_enc (req := isRequest p) hs (Nat.le_refl 0)
  have hle : (encOpts (redelta 0 (innerOpts (isRequest p) p.opts))).length ≤ cfg.eOptBuf := by
    have := encOpts_length_le (redelta 0 (innerOpts (isRequest p) p.opts))
    rw [optBytesLen_redelta] at this
    omega
  have hm : eBytes (isRequest p) p.opts % 65536 ≤ eBytes (isRequest p) p.opts := Nat.mod_le _ _
  generalize eBytes (isRequest p) p.opts % 65536 = eL at *
  generalize redelta 0 (innerOpts (isRequest p) p.opts) = e at *
  unfold plaintextSetup
  rw [optionsSerialize_ok.2 ⟨rfl, hle⟩]
  simp only [R.ok_bind]
  refine bind_nub memcpyS_nub fun ser hser => ?_
  obtain ⟨rfl, h2⟩ := memcpyS_ok.1 hser
  unfold plaintextLen at *
  by_cases hp : p.payload.length = 0
  · rw [if_pos hp, if_pos hp]
    rw [if_neg (by omega)]
    intro h; cases h
  · rw [if_neg hp, if_neg hp]
    rw [if_neg (by omega)]
    refine bind_nub memcpyS_nub fun pl hpl' => ?_
    obtain ⟨rfl, h3⟩ := memcpyS_ok.1 hpl'
    simp only [List.cons_append, List.length_cons, List.length_append, List.length_nil]
    rw [if_neg (by omega), if_neg (by omega)]
    intro h; cases h

theorem ssn2piv_nub {n : Nat} : ssn2piv n ≠ .ub := by
  unfold ssn2piv
  split
  · intro h; cases h
  · simp only; split <;> (intro h; cases h)

theorem encryptWrapper_nub {cfg : Cfg} {C : Crypto} {nvmW : Option Err} {pt : Bytes} {p : Pkt} {w : World}
    (huri : 0 < cfg.uriMax) (hiv : w.ctx.commonIv.length ≤ 13) (hid : w.ctx.senderId.length ≤ 7)
    (hroom : Spec.uriPathRoom p.opts ≠ cfg.uriMax) : (encryptWrapper cfg C nvmW pt p w).1 ≠ .ub := by
  unfold encryptWrapper
  rw [M.bind_get]
  refine mbind_nub ?_ fun x w1 hx => ?_
  · unfold pickNonce
    rw [M.bind_get]
    split
    · refine mlift_nub ssn2piv_nub fun piv hpiv => mbind_nub ?_ fun _ w1 _ => ?_
      · rw [generateNewSsn_eq]
        unfold generateNewSsn at *
        simp only
        repeat' split
        all_goals (intro h; cases h)
      · exact mlift_nub (createNonce_nub hid (ssn2piv_minimal hpiv).2.2 hiv) fun _ _ => by intro h; cases h
    · intro h; cases h
  · obtain ⟨piv, kid, kctx, nonce⟩ := x
    refine mlift_nub ?_ fun opt _ => mlift_nub (readWrapper_nub (Or.inr (by intro h; cases h))) fun y _ => ?_
    · unfold oscoreOptionGenerate
      refine bind_nub check_nub fun _ _ => ?_
      split <;> (intro h; cases h)
    · obtain ⟨rp, rk⟩ := y
      refine mlift_nub aad_nub fun aad _ => mlift_nub coseEncrypt_nub fun ct _ => ?_
      rw [M.bind_modify]
      split
      · rw [M.bind_modify]
        exact mlift_nub (uriPathCreate_nub huri hroom) fun _ _ => mlift_nub updateWrapper_nub fun _ _ => by intro h; cases h
      · exact mlift_nub (uriPathCreate_nub huri hroom) fun _ _ => mlift_nub updateWrapper_nub fun _ _ => by intro h; cases h

theorem cacheEcho_nub {e : List Opt} {w : World} : (cacheEcho e w).1 ≠ .ub := by
  unfold cacheEcho
  rw [M.bind_get]
  split
  · refine mlift_nub ?_ fun _ _ => by intro h; cases h
    unfold cacheEchoVal
    split
    · intro h; cases h
    · exact memcpyS_nub
  · intro h; cases h

theorem cacheEcho_identity {e : List Opt} {w w' : World} (h : cacheEcho e w = (.ok (), w')) :
    w'.ctx.commonIv = w.ctx.commonIv ∧ w'.ctx.senderId = w.ctx.senderId := by
  unfold cacheEcho at h
  rw [M.bind_get] at h
  split at h
  · obtain ⟨v, s, h1, h⟩ := M.bind_eq_ok.1 h
    have h1' : (_, w) = (R.ok v, s) := h1
    simp only [Prod.mk.injEq] at h1'
    have h' : (R.ok (), _) = (R.ok (), w') := h
    simp only [Prod.mk.injEq, true_and] at h'
    rw [← h', ← h1'.2]
    exact ⟨rfl, rfl⟩
  · have h' : (R.ok (), w) = (R.ok (), w') := h
    simp only [Prod.mk.injEq, true_and] at h'
    rw [← h']
    exact ⟨rfl, rfl⟩

theorem protect_nub {cfg : Cfg} {C : Crypto} {nvmW : Option Err} {w : World} {inp : Bytes} {cap : Nat}
    (h : SendOk cfg w.ctx inp cap) : (coap2oscore cfg C nvmW inp cap w).1 ≠ .ub := by
  unfold coap2oscore
  rw [M.bind_get]
  refine mlift_nub freshness_nub fun _ _ => mlift_nub ?_ fun p hp => ?_
  · exact bind_nub (coapParse_nub h.framed h.size) fun _ _ => by intro h; cases h
  have hwf := coapDeserialize_wf hp
  split
  · rw [if_neg (by have := h.ack; omega)]
    intro h; cases h
  · unfold protectPkt
    refine mlift_nub ?_ fun s hs => mlift_nub check_nub fun _ _ => ?_
    · unfold optionSplit; split <;> (intro h; cases h)
    obtain ⟨_, rfl⟩ := optionSplit_ok hwf.nums hs
    refine mlift_nub (plaintextSetup_nub (h.sorted p hp) (Nat.le_trans (inner_bytes _ _) (h.inner p hp)) (h.plain p hp)) fun pt _ => ?_
    refine mbind_nub cacheEcho_nub fun _ w1 hw1 => ?_
    obtain ⟨e1, e2⟩ := cacheEcho_identity hw1
    refine mbind_nub (encryptWrapper_nub h.uri (by rw [e1]; exact h.iv) (by rw [e2]; exact h.sid) (h.path p hp)) fun x w2 _ => ?_
    obtain ⟨ct, opt⟩ := x
    have := h.room
    have := hwf.token
    refine coapSerialize_nub ?_
    show 4 + p.token.length + _ < cap
    omega

end Safe

open Safe

/-- **C66** (partial) `oscore2coap` never reads or writes outside an object, whatever the context
holds (replay window, Echo state, interactions, cached nonce) and whatever the crypto library
returns, under the conditions of `RecvOk`.  Missing: the packets excluded there, each of which
really breaks the property (witnesses below and `C16_false_*`, `C22_false_eleven_options`,
`C32_false_*`, `C33_false_exact_fit`). -/
theorem C66_unprotect_safe_partial (cfg : Cfg) (C : Crypto) (c : Ctx) (inp : Bytes) (cap : Nat)
    (h : RecvOk cfg C c inp cap) : (oscore2coap cfg C inp cap c).1 ≠ .ub := unprotect_nub h

/-- **C66** (partial) A sender without the keys (no packet of his authenticates) cannot make
`oscore2coap` leave an object with complete packets, unless he sends a response whose option
carries a Partial IV and a KID longer than 7 bytes. -/
theorem C66_outsider_partial (cfg : Cfg) (C : Crypto) (c : Ctx) (inp : Bytes) (cap : Nat)
    (huri : 0 < cfg.uriMax) (hid : c.recipientId.length ≤ 7) (hiv : c.commonIv.length ≤ 13)
    (hcap : cfg.maxCoapOptions + 13 ≤ cap) (hsize : inp.length < 65536) (hframed : Spec.FramedPacket inp)
    (hopts : ∀ p, coapDeserialize inp = .ok p → ∀ o ∈ p.opts, o.num = 9 → Spec.OscoreComplete o.value)
    (hkid : ∀ p, coapDeserialize inp = .ok p → isRequest p = false → ∀ o ∈ p.opts, o.num = 9 →
      ∀ piv kctx kid, Spec.OscoreFields o.value piv kctx kid → piv ≠ [] → kid.length ≤ 7)
    (hforge : Rejected C c inp) : (oscore2coap cfg C inp cap c).1 ≠ .ub :=
  unprotect_nub ⟨⟨huri, hid, hiv, hcap, hsize, hframed, hopts, hkid⟩, fun p hp pt h => absurd hforge (not_rejected h)⟩

/-- **C66** (partial) `coap2oscore` never reads or writes outside an object, whatever the context
holds, whatever the crypto library and the NVM return, under the conditions of `SendOk`. -/
theorem C66_protect_safe_partial (cfg : Cfg) (C : Crypto) (nvmW : Option Err) (w : World) (inp : Bytes) (cap : Nat)
    (h : SendOk cfg w.ctx inp cap) : (coap2oscore cfg C nvmW inp cap w).1 ≠ .ub := protect_nub h

/-- the conditions on the arguments of one call, for a device that started with context `c` -/
def ArgsOk (cfg : Cfg) (c : Ctx) : Op → Prop
  | .protect inp cap _ => SendOk cfg c inp cap
  | .unprotect inp cap => RecvArgs cfg c inp cap

/-- what the AEAD accepts in this state, if anything, is a message the library can process -/
def PlaintextsOk (cfg : Cfg) (C : Crypto) (c : Ctx) : Op → Prop
  | .protect _ _ _ => True
  | .unprotect inp _ => ∀ p, coapDeserialize inp = .ok p → ∀ pt, Authentic C c inp pt →
      PlainOk cfg p pt ∧ (isRequest p = true → ∀ o ∈ p.opts, o.num = 9 →
        ∀ piv kctx kid, Spec.OscoreFields o.value piv kctx kid → piv ≠ [])

theorem argsOk_identity {cfg : Cfg} {c c' : Ctx} {op : Op} (hi : SameIdentity c c') (h : ArgsOk cfg c op) :
    ArgsOk cfg c' op := by
  obtain ⟨_, _, e1, e2, _, e3, e4⟩ := hi
  cases op with
  | protect inp cap nvmW =>
    exact ⟨h.uri, by rw [e2]; exact h.sid, by rw [e1]; exact h.iv, h.room, h.ack, h.size, h.framed, h.sorted, h.inner,
      h.plain, h.path⟩
  | unprotect inp cap =>
    exact ⟨h.uri, by rw [e3]; exact h.rid, by rw [e1]; exact h.iv, h.room, h.size, h.framed, h.options, h.kid⟩

/-- **C66** (partial) Along every history of calls, sent and received in any order, with any NVM
failures, no call leaves an object: the conditions only concern the calls' own arguments, the
fixed identity of the context and the plaintext of a packet that the AEAD accepts, never the rest of the state an earlier
call left behind. -/
theorem C66_history_partial (cfg : Cfg) (C : Crypto) (w : World) (pre : List Op) (op : Op)
    (h : ArgsOk cfg w.ctx op) (hpl : PlaintextsOk cfg C (run cfg C w pre).ctx op) :
    (step cfg C (run cfg C w pre) op).1 ≠ .ub := by
  have hop := argsOk_identity (run_identity cfg C w pre) h
  cases op with
  | protect inp cap nvmW => exact protect_nub hop
  | unprotect inp cap => exact unprotect_nub ⟨hop, hpl⟩

/-- **C66** (partial) The same for a history without luck for the attackers: whatever the device receives and the AEAD does
not accept, in any order with whatever it sends, no call leaves an object. -/
theorem C66_outsiders_history_partial (cfg : Cfg) (C : Crypto) (w : World) (pre : List Op) (inp : Bytes) (cap : Nat)
    (h : RecvArgs cfg w.ctx inp cap) (hforge : Rejected C (run cfg C w pre).ctx inp) :
    (step cfg C (run cfg C w pre) (.unprotect inp cap)).1 ≠ .ub :=
  C66_history_partial cfg C w pre _ h (fun _ _ _ hp => absurd hforge (not_rejected hp))

/-- a response for token 4A whose option carries Partial IV 05 and the 8-byte KID 01…08; its
ciphertext is eight zero bytes -/
def exLongKid : Bytes :=
  [0x61, 0x44, 0x12, 0x34, 0x4A, 0x9A, 0x09, 0x05, 1, 2, 3, 4, 5, 6, 7, 8, 0xFF, 0, 0, 0, 0, 0, 0, 0, 0]

/-- **C66 is false**: anyone who knows the token of an outstanding request – it travels in clear –
can send a client a complete, 25-byte response whose KID has 8 bytes; before anything is
authenticated, `create_nonce` writes in front of its buffer.  This holds for every build, every
crypto library and every context. -/
theorem C66_false_response_kid (cfg : Cfg) (C : Crypto) (c : Ctx) (cap : Nat) (r : Rec)
    (hs : c.ssn < 0x7FFFFF) (hout : c.inter.get [0x4A] = .ok r) :
    (oscore2coap cfg C exLongKid cap c).1 = .ub := by
  have e1 : checkFreshness c = .ok () := by
    unfold checkFreshness ssnOverflow; rw [if_neg (by omega)]
  have hpe : (coapParse exLongKid) = .ok
      (⟨1, 2, 0x44, 0x1234, [0x4A], [⟨9, [0x09, 0x05, 1, 2, 3, 4, 5, 6, 7, 8], 9⟩], [0, 0, 0, 0, 0, 0, 0, 0]⟩,
       [(⟨9, [0x09, 0x05, 1, 2, 3, 4, 5, 6, 7, 8], 9⟩, [0x09, 0x05, 1, 2, 3, 4, 5, 6, 7, 8, 0xFF, 0, 0, 0, 0, 0, 0, 0, 0])]) := by
    decide +kernel
  have ho : oscoreOptionParser [((⟨9, [0x09, 0x05, 1, 2, 3, 4, 5, 6, 7, 8], 9⟩ : Opt),
      [0x09, 0x05, 1, 2, 3, 4, 5, 6, 7, 8, 0xFF, 0, 0, 0, 0, 0, 0, 0, 0])] = .ok
      ⟨⟨1, [5, 1, 2, 3, 4, 5, 6, 7, 8, 0xFF, 0, 0, 0, 0, 0, 0, 0, 0]⟩, .null,
       ⟨8, [1, 2, 3, 4, 5, 6, 7, 8, 0xFF, 0, 0, 0, 0, 0, 0, 0, 0]⟩⟩ := by decide +kernel
  unfold oscore2coap
  rw [M.bind_get, e1, M.bind_lift_ok, hpe, M.bind_lift_ok]
  simp only
  rw [ho, M.bind_lift_ok]
  have hb : checkBufferSize cfg.maxPlaintext (sub32 ([0, 0, 0, 0, 0, 0, 0, 0] : Bytes).length 8) = .ok () :=
    checkBufferSize_ok.2 (by unfold sub32; simp)
  rw [hb, M.bind_lift_ok, if_neg (by decide)]
  rw [M.run_bind]
  have key : (unprotectResponse cfg C
      ⟨⟨1, [5, 1, 2, 3, 4, 5, 6, 7, 8, 0xFF, 0, 0, 0, 0, 0, 0, 0, 0]⟩, .null,
       ⟨8, [1, 2, 3, 4, 5, 6, 7, 8, 0xFF, 0, 0, 0, 0, 0, 0, 0, 0]⟩⟩
      ⟨1, 2, 0x44, 0x1234, [0x4A], [⟨9, [0x09, 0x05, 1, 2, 3, 4, 5, 6, 7, 8], 9⟩], [0, 0, 0, 0, 0, 0, 0, 0]⟩ c) = (.ub, c) := by
    unfold unprotectResponse
    rw [M.bind_get, if_neg (by decide), if_pos (by decide)]
    suffices dw : decryptWrapper cfg C (some
        ⟨⟨1, [5, 1, 2, 3, 4, 5, 6, 7, 8, 0xFF, 0, 0, 0, 0, 0, 0, 0, 0]⟩, .null,
         ⟨8, [1, 2, 3, 4, 5, 6, 7, 8, 0xFF, 0, 0, 0, 0, 0, 0, 0, 0]⟩⟩)
        ⟨1, 2, 0x44, 0x1234, [0x4A], [⟨9, [0x09, 0x05, 1, 2, 3, 4, 5, 6, 7, 8], 9⟩], [0, 0, 0, 0, 0, 0, 0, 0]⟩ c = (.ub, c) by
      rw [M.run_bind, dw]
    unfold decryptWrapper
    rw [M.bind_get]
    have hrd : ∀ x, readWrapper c.inter (msgType ⟨1, 2, 0x44, 0x1234, [0x4A], [⟨9, [0x09, 0x05, 1, 2, 3, 4, 5, 6, 7, 8], 9⟩], [0, 0, 0, 0, 0, 0, 0, 0]⟩) [0x4A] x =
        .ok (r.piv, r.kid) := by
      intro x
      unfold readWrapper
      rw [if_pos (by decide), hout]
      rfl
    rw [hrd, M.bind_lift_ok]
    have hn : decNonce c (some ⟨⟨1, [5, 1, 2, 3, 4, 5, 6, 7, 8, 0xFF, 0, 0, 0, 0, 0, 0, 0, 0]⟩, .null,
       ⟨8, [1, 2, 3, 4, 5, 6, 7, 8, 0xFF, 0, 0, 0, 0, 0, 0, 0, 0]⟩⟩) = .ub := rfl
    simp only
    rw [hn]
    rfl
  rw [key]

/-- such a client exists: the example client after sending its first request -/
example : (afterSend exCfg (exW exClient) exGet).ctx.inter.get [0x4A] =
    .ok ⟨.request, [0], exClient.senderId, [0x4A], [0x74, 0x76]⟩ := by decide +kernel

/-- a complete CoAP message with one option whose value has 256 bytes (a legal length) -/
def exLen256 : Bytes := [0x40, 0x01, 0x12, 0x34, 0xBD, 0xF3, 0x0D, 0xF2] ++ List.replicate 254 0

/-- **C66 is false**: a legal 256-byte option value is taken for an empty one, and the parser then
follows bytes of the value past the end of the packet. -/
theorem C66_false_length : coapDeserialize exLen256 = .ub ∧
    exLen256 = Spec.wire 1 0 0 0x01 0x1234 [] [(11, 0x0D :: 0xF2 :: List.replicate 254 0)] [] := by decide +kernel

/-- a request with two If-Match options; the first ends exactly at the end of the 100-byte scratch
buffer -/
def exFull : Bytes := [0x40, 0x01, 0x12, 0x34, 0x1D, 85] ++ List.replicate 98 0x61 ++ [0x00]

/-- **C66 is false**: when a confidential option ends exactly at the end of the scratch buffer, the
header of the next one is written behind it (for every crypto library and every context that may
still send). -/
theorem C66_false_scratch (C : Crypto) (nvmW : Option Err) (cap : Nat) (w : World) (hs : w.ctx.ssn < 0x7FFFFF) :
    (coap2oscore {} C nvmW exFull cap w).1 = .ub := by
  have e1 : checkFreshness w.ctx = .ok () := by
    unfold checkFreshness ssnOverflow; rw [if_neg (by omega)]
  have hp : coapDeserialize exFull = .ok ⟨1, 0, 0x01, 0x1234, [],
      [⟨1, List.replicate 98 0x61, 1⟩, ⟨0, [], 1⟩], []⟩ := by decide +kernel
  unfold coap2oscore
  rw [M.bind_get, e1, M.bind_lift_ok, hp, M.bind_lift_ok, if_neg (by decide)]
  unfold protectPkt
  have hsplit : optionSplit ⟨1, 0, 0x01, 0x1234, [], [⟨1, List.replicate 98 0x61, 1⟩, ⟨0, [], 1⟩], []⟩ =
      .ok ⟨[⟨1, List.replicate 98 0x61, 1⟩, ⟨0, [], 1⟩], [], 101⟩ := by rfl
  rw [hsplit, M.bind_lift_ok]
  simp only
  rw [show checkBufferSize (({} : Cfg).maxPlaintext) (plaintextLen ⟨1, 0, 0x01, 0x1234, [], [⟨1, List.replicate 98 0x61, 1⟩, ⟨0, [], 1⟩], []⟩ 101) =
    .ok () by decide +kernel, M.bind_lift_ok]
  rw [show plaintextSetup {} ⟨1, 0, 0x01, 0x1234, [], [⟨1, List.replicate 98 0x61, 1⟩, ⟨0, [], 1⟩], []⟩
    [⟨1, List.replicate 98 0x61, 1⟩, ⟨0, [], 1⟩]
    (plaintextLen ⟨1, 0, 0x01, 0x1234, [], [⟨1, List.replicate 98 0x61, 1⟩, ⟨0, [], 1⟩], []⟩ 101) = .ub by decide +kernel]
  rfl

/-- the packet a key holder can send: KID of the client, no Partial IV, correctly authenticated -/
def exNoPiv : Bytes :=
  [0x41, 0x02, 0x12, 0x34, 0x4A] ++ [byte (0x90 + 1 + exClient.senderId.length), 0x08] ++ exClient.senderId ++ [0xFF] ++
    (match createNonce exClient.senderId [] exClient.commonIv, (createAad exClient.senderId [] >>= encStructure) with
     | .ok n, .ok a => (toyCrypto.aeadEnc exClient.senderKey n a 8 [0x01]).getD []
     | _, _ => [])

/-- **C66 is false**: an authenticated request without a Partial IV makes a synchronised server
dereference NULL (line 420). -/
theorem C66_false_no_piv : (oscore2coap exCfg toyCrypto exNoPiv 256 exServer).1 = .ub := by decide +kernel

/-! ### Non-vacuity -/

/-- decidable version of the framing conditions, for examples -/
def framedB : Nat → Nat → Bytes → Bool
  | 0, _, _ => false
  | _ + 1, _, [] => true
  | f + 1, k, h :: r =>
    if h = 0xFF then true
    else if h.toNat / 16 = 15 then true
    else
      let d := Spec.extBytes (h.toNat / 16)
      let l := Spec.extBytes (h.toNat % 16)
      let n := Spec.extValue (h.toNat % 16) ((r.drop d).take l)
      match k with
      | 0 => false
      | k + 1 => h.toNat % 16 ≤ 14 && d + l + n ≤ r.length && (n ≤ 255 || (269 ≤ n && n ≤ 524)) && framedB f k (r.drop (d + l + n))

theorem framedB_sound (f k : Nat) (b : Bytes) (h : framedB f k b = true) : Spec.Framed k b := by
  induction f generalizing k b with
  | zero => simp [framedB] at h
  | succ f ih =>
    cases b with
    | nil => exact .done k
    | cons x r =>
      by_cases hff : x = 0xFF
      · subst hff; exact .payload k r
      · by_cases h15 : x.toNat / 16 = 15
        · exact .reserved k x r h15
        · cases k with
          | zero => simp [framedB, hff, h15] at h
          | succ k =>
            simp only [framedB, hff, h15, if_false, Bool.and_eq_true, decide_eq_true_eq, Bool.or_eq_true] at h
            obtain ⟨⟨⟨h1, h2⟩, h3⟩, h4⟩ := h
            generalize hd : Spec.extBytes (x.toNat / 16) = d at *
            generalize hl : Spec.extBytes (x.toNat % 16) = l at *
            generalize hn : Spec.extValue (x.toNat % 16) ((r.drop d).take l) = n at *
            have hr : r = r.take d ++ (r.drop d).take l ++ (r.drop (d + l)).take n ++ r.drop (d + l + n) := by
              rw [List.append_assoc, List.append_assoc]
              have e1 : (r.drop (d + l)).take n ++ r.drop (d + l + n) = r.drop (d + l) := by
                rw [← List.drop_drop (i := n), List.take_append_drop]
              rw [e1, ← List.drop_drop, List.take_append_drop, List.take_append_drop]
            have := Spec.Framed.option k x (r.take d) ((r.drop d).take l) ((r.drop (d + l)).take n) (r.drop (d + l + n))
              (by rw [hd]; simp; omega) (by rw [hl]; simp; omega) h1 (by rw [hn]; simp; omega)
              (by simp only [List.length_take, List.length_drop]; omega) (ih _ _ h4)
            rw [← hr] at this
            exact this

/-- the example request meets the conditions of the sending theorem -/
example : SendOk exCfg exClient exGet 256 := by
  have hp : coapDeserialize exGet = .ok ⟨1, 0, 1, 0x1234, [0x4A], [⟨11, [0x74, 0x76], 11⟩], []⟩ := by decide +kernel
  refine ⟨by decide, by decide +kernel, by decide +kernel, by decide, by decide, by decide, ?_, ?_, ?_, ?_, ?_⟩
  · intro h c m1 m0 rest e
    simp only [exGet, List.cons.injEq] at e
    obtain ⟨rfl, _, _, _, rfl⟩ := e
    exact ⟨1, framedB_sound 5 1 _ (by decide +kernel)⟩
  all_goals
    intro p hp'
    rw [hp] at hp'
    cases hp'
    decide +kernel

theorem toy_dec {k n a c pt : Bytes} (h : toyCrypto.aeadDec k n a 8 c = some pt) : pt = c.take (c.length - 8) := by
  simp only [toyCrypto] at h
  split at h
  · exact (Option.some.inj h).symm
  · cases h

/-- the protected example request meets the conditions of the receiving theorem -/
example : RecvOk exCfg toyCrypto exServer (sendOf exCfg (exW exClient) exGet) 256 := by
  have hp : ∃ p, coapDeserialize (sendOf exCfg (exW exClient) exGet) = .ok p ∧ isRequest p = true ∧
      (∀ o ∈ p.opts, o.num = 9 ∧ o.value = [0x09, 0x00] ++ exClient.senderId) ∧ p.opts.length = 1 ∧
      p.payload.take (p.payload.length - 8) = [0x01, 0xB2, 0x74, 0x76] := by
    refine ⟨(coapDeserialize (sendOf exCfg (exW exClient) exGet)).getD ⟨0, 0, 0, 0, [], [], []⟩, R.eq_getD _ (by decide +kernel), ?_, ?_, ?_, ?_⟩
    all_goals decide +kernel
  obtain ⟨p, hp, hreq, hopt, _, hpl⟩ := hp
  have hfields : ∀ v, v = [0x09, 0x00] ++ exClient.senderId → ∀ piv kctx kid, Spec.OscoreFields v piv kctx kid → piv ≠ [] := by
    rintro v hv piv kctx kid h rfl
    cases h with
    | empty => cases hv
    | plain f _ r hn => rw [(List.cons.inj hv).1] at hn; exact absurd hn (by decide)
    | context f _ s kctx r hn => rw [(List.cons.inj hv).1] at hn; exact absurd hn (by decide)
  refine ⟨⟨by decide, by decide +kernel, by decide +kernel, by decide, by decide +kernel, ?_, ?_, ?_⟩, ?_⟩
  · intro h c m1 m0 rest e
    have : Spec.Framed 5 (((sendOf exCfg (exW exClient) exGet).drop 4).drop (((sendOf exCfg (exW exClient) exGet).headD 0).toNat % 16)) :=
      framedB_sound 9 5 _ (by decide +kernel)
    rw [e] at this
    exact ⟨5, this⟩
  · intro q hq o ho _
    rw [hp] at hq; cases hq
    rw [(hopt o ho).2]
    exact ⟨by decide +kernel, Or.inr ⟨[0], [], _, Spec.OscoreFields.plain 0x09 [0] exClient.senderId (by decide) (by decide) (by decide)⟩⟩
  · intro q hq hr
    rw [hp] at hq; cases hq
    rw [hreq] at hr; cases hr
  · rintro q hq pt ⟨n, a, ct, hck, hd⟩
    rw [hp] at hq; cases hq
    have hct : ct = p.payload := hck.payload hp
    subst hct
    have := toy_dec hd
    rw [hpl] at this
    subst this
    refine ⟨⟨by decide, framedB_sound 5 10 _ (by decide +kernel), by decide, ?_⟩, fun _ o ho _ => hfields _ (hopt o ho).2⟩
    intro e pl he
    have he' : optionsDeserialize ([0x01, 0xB2, 0x74, 0x76] : Bytes).tail 10 = .ok ([⟨11, [0x74, 0x76], 11⟩], []) := by decide +kernel
    rw [he'] at he
    cases he
    have h0 : Spec.uriPathRoom p.opts = 0 := by
      unfold Spec.uriPathRoom
      rw [List.filter_eq_nil_iff.2 (fun o ho => by simp [(hopt o ho).1])]
      rfl
    rw [h0]
    decide +kernel

end Verif
