import Verif.Props.Exchanges
import Verif.Props.Nvm
import Verif.Props.Echo
/-
C76: two parties over a network that loses messages and injects forgeries, with restarts of both.
-/
namespace Verif
open Verif

/-! ### specification -/

/-- one party, as far as the protocol is concerned -/
structure Party where
  /-- the exchanges it has not finished -/
  pending : List Exch
  /-- RFC 8613, B.1.2: just restarted, waiting for its Echo value, or sure that the peer is live -/
  phase : EchoState
  /-- the Echo value it sent in this session -/
  challenge : Option Bytes
  /-- the longest Echo value it can send -/
  room : Nat

/-- what the two parties have in common -/
structure Link where
  /-- both remember the nonce of the same message -/
  same : Bool
  /-- tokens whose newest request was lost -/
  stale : List Bytes

structure Net2 where
  A : Party
  B : Party
  link : Link

/-- what is to happen at the receiver -/
inductive Expect where
  /-- it gets nothing -/
  | nothing
  /-- it gets the message -/
  | delivered (m : CMsg)
  /-- the call fails with this error -/
  | refused (e : Err)
  /-- the call fails -/
  | rejected

/-- what happens did happen -/
def Matches : Expect → Option (R Bytes) → Prop
  | .nothing, r => r = none
  | .delivered m, r => ∃ x, r = some x ∧ Delivered m x
  | .refused e, r => r = some (.err e)
  | .rejected, r => ∃ x, r = some x ∧ ∀ out, x ≠ .ok out

/-- an event -/
inductive NEv where
  /-- a party protects a message and sends it; it arrives, or is lost -/
  | send (m : CMsg) (lost : Bool)
  /-- a forgery arrives -/
  | forged (toA : Bool) (pkt : Bytes) (cap : Nat)
  /-- power loss and restart; the buffers hold arbitrary bytes -/
  | restart (ofA : Bool) (jn je : Bytes)

/-- `X` sends `p`; `none` if it may not: a server that waits for its Echo value to come back sends nothing without
an Echo value -/
def sendBy (n : Nat) (p : Pkt) (X : Party) : Option Party :=
  match outstandingAfter n X.pending p with
  | none => none
  | some S =>
    if X.phase = .verify then
      match echoOf p.opts with
      | some e => if e.length ≤ X.room then some { X with pending := S, challenge := some e, room := e.length } else none
      | none => none
    else some { X with pending := S }

/-- the message carries a sequence number of its own -/
def ownNumber (X : Party) (p : Pkt) : Bool :=
  isRequest p || p.opts.any (fun o => o.num == 6) || X.phase == .verify

/-- `Y` gets `p`; `none` where nothing is promised: no place for the exchange, or an Echo value although `Y` sent none -/
def receiveBy (n : Nat) (m : CMsg) (p : Pkt) (Y : Party) : Option (Party × Expect) :=
  match outstandingAfter n Y.pending p with
  | none => none
  | some S =>
    if isRequest p then
      match Y.phase with
      | .reboot => some ({ Y with pending := S, phase := .verify }, .refused .first_request_after_reboot)
      | .verify =>
        match Y.challenge with
        | none =>
          if echoOf p.opts = none then some ({ Y with pending := S }, .refused .echo_validation_failed) else none
        | some e =>
          if echoOf p.opts = some e then some ({ Y with pending := S, phase := .synchronized }, .delivered m)
          else some ({ Y with pending := S }, .refused .echo_validation_failed)
      | .synchronized => some ({ Y with pending := S }, .delivered m)
    else some ({ Y with pending := S }, .delivered m)

/-- one message from `X` to `Y` -/
def exchange (n : Nat) (m : CMsg) (p : Pkt) (lost : Bool) (X Y : Party) (l : Link) : Option (Party × Party × Link × Expect) :=
  match sendBy n p X with
  | none => none
  | some X' =>
    if lost then
      some (X', Y, { same := l.same && !ownNumber X p,
                     stale := if isRequest p then p.token :: l.stale else l.stale }, .nothing)
    else if isRequest p = false ∧ (p.token ∈ l.stale ∨ (ownNumber X p = false ∧ l.same = false)) then none
    else
      match receiveBy n m p Y with
      | none => none
      | some (Y', e) =>
        some (X', Y', { same := true,
                        stale := if isRequest p then l.stale.filter (fun t => t != p.token) else l.stale }, e)

/-- a party after a restart: it remembers nothing -/
def restarted (je : Bytes) : Party := { pending := [], phase := .reboot, challenge := none, room := je.length }

/-- one event; `none` if it is not allowed or nothing is promised about it.  Only a party that keeps its keys
(`ctx_fresh` false) may restart. -/
def NetStep (cfg : Cfg) (pa pb : InitParams) (N : Net2) (ev : NEv) (N' : Net2) (e : Expect) : Prop :=
  match ev with
  | .send m lost => ∃ p, coapDeserialize m.inp = .ok p ∧ Sendable cfg p m.capS m.capR ∧
      if m.fromA then ∃ X Y l, exchange cfg.interactions m p lost N.A N.B N.link = some (X, Y, l, e) ∧ N' = ⟨X, Y, l⟩
      else ∃ X Y l, exchange cfg.interactions m p lost N.B N.A N.link = some (X, Y, l, e) ∧ N' = ⟨Y, X, l⟩
  | .forged _ _ _ => N' = N ∧ e = .rejected
  | .restart ofA jn je => jn.length = 13 ∧ e = .nothing ∧
      if ofA then pa.fresh = false ∧ N' = { N with A := restarted je, link := { N.link with same := false } }
      else pb.fresh = false ∧ N' = { N with B := restarted je, link := { N.link with same := false } }

/-- a history of events with what is to happen -/
def NetRun (cfg : Cfg) (pa pb : InitParams) : Net2 → List NEv → List Expect → Prop
  | _, [], [] => True
  | N, ev :: evs, e :: es => ∃ N', NetStep cfg pa pb N ev N' e ∧ NetRun cfg pa pb N' evs es
  | _, _, _ => False

/-! ### the devices -/

/-- restart of a device: `oscore_context_init` (security_context.c:104-165) with the number in non-volatile memory -/
def reinitWorld (cfg : Cfg) (C : Crypto) (prm : InitParams) (jn je : Bytes) (w : World) : World :=
  match contextInit cfg C prm (.ok w.nvm) jn je with
  | .ok c => { w with ctx := c }
  | _ => w

/-- one event on the devices: what the receiver's call returns, and both devices -/
def netStep (cfg : Cfg) (C : Crypto) (pa pb : InitParams) (s : World × World) : NEv → Option (R Bytes) × (World × World)
  | .send m false =>
    if m.fromA then (some (transfer cfg C m s.1 s.2).1, (transfer cfg C m s.1 s.2).2)
    else (some (transfer cfg C m s.2 s.1).1, ((transfer cfg C m s.2 s.1).2.2, (transfer cfg C m s.2 s.1).2.1))
  | .send m true =>
    if m.fromA then (none, ((step cfg C s.1 (.protect m.inp m.capS none)).2, s.2))
    else (none, (s.1, (step cfg C s.2 (.protect m.inp m.capS none)).2))
  | .forged toA pkt cap =>
    if toA then (some (step cfg C s.1 (.unprotect pkt cap)).1, ((step cfg C s.1 (.unprotect pkt cap)).2, s.2))
    else (some (step cfg C s.2 (.unprotect pkt cap)).1, (s.1, (step cfg C s.2 (.unprotect pkt cap)).2))
  | .restart ofA jn je =>
    if ofA then (none, (reinitWorld cfg C pa jn je s.1, s.2)) else (none, (s.1, reinitWorld cfg C pb jn je s.2))

/-- a history on the devices -/
def netRun (cfg : Cfg) (C : Crypto) (pa pb : InitParams) : World × World → List NEv → List (Option (R Bytes))
  | _, [] => []
  | s, ev :: evs => (netStep cfg C pa pb s ev).1 :: netRun cfg C pa pb (netStep cfg C pa pb s ev).2 evs

/-! ### the invariant -/

/-- the same identity: keys and IDs -/
structure SameId (c c0 : Ctx) : Prop where
  idContext : c.idContext = c0.idContext
  iv : c.commonIv = c0.commonIv
  sid : c.senderId = c0.senderId
  skey : c.senderKey = c0.senderKey
  rid : c.recipientId = c0.recipientId
  rkey : c.recipientKey = c0.recipientKey

theorem SameId.trans {a b c : Ctx} (h : SameId a b) (g : SameId b c) : SameId a c :=
  ⟨h.1.trans g.1, h.2.trans g.2, h.3.trans g.3, h.4.trans g.4, h.5.trans g.5, h.6.trans g.6⟩

theorem SameId.mirror {a b a0 b0 : Ctx} (ha : SameId a a0) (hb : SameId b b0) (h : Mirror a0 b0) : Mirror a b :=
  ⟨by rw [hb.rid, ha.sid]; exact h.id, by rw [hb.rkey, ha.skey]; exact h.key, by rw [hb.iv, ha.iv]; exact h.iv⟩

theorem SameId.ids {a a0 : Ctx} (ha : SameId a a0) (h : IdsOk a0) : IdsOk a :=
  ⟨by rw [ha.sid]; exact h.id, by rw [ha.idContext]; exact h.ctx, by rw [ha.iv]; exact h.iv, by rw [ha.skey]; exact h.key⟩

/-- a device carries out the part of a party -/
structure Plays (cfg : Cfg) (prm : InitParams) (c0 : Ctx) (X : Party) (x : World) : Prop where
  id : SameId x.ctx c0
  phase : x.ctx.echo = X.phase
  chal : ∀ e, X.challenge = some e → x.ctx.echoVal = e
  room : x.ctx.echoVal.length = X.room
  track : Tracks cfg.interactions x.ctx.inter X.pending
  nlen : x.ctx.nonce.length = 13
  fresh : prm.fresh = false → x.ctx.fresh = false
  ahead : prm.fresh = false → x.nvm ≤ x.ctx.ssn
  near : prm.fresh = false → X.phase = .synchronized → cfg.kStore * (x.ctx.ssn / cfg.kStore) ≤ x.nvm
  wrote : prm.fresh = false → X.phase ≠ .synchronized → X.challenge ≠ none → x.nvm = x.ctx.ssn

/-- what `y` remembers of the numbers of `x` is below what `x` will use, also after a restart -/
def Below (cfg : Cfg) (prm : InitParams) (x : World) (y : Ctx) : Prop :=
  ∃ u, u ≤ x.ctx.ssn ∧ WinBelow y.window u ∧ (y.notifInit = true → y.notifNum < u) ∧
    (prm.fresh = false → u ≤ x.nvm + cfg.kStore + cfg.fStore)

/-- both hold the same request for a token -/
def Agree (stale : List Bytes) (t1 t2 : Table) : Prop :=
  ∀ tok, tok ∉ stale → ∀ r s, Outstanding t1 tok r → Outstanding t2 tok s → r.piv = s.piv ∧ r.kid = s.kid

theorem Agree.swap {l : List Bytes} {t1 t2 : Table} (h : Agree l t1 t2) : Agree l t2 t1 :=
  fun tok ht r s hr hs => let ⟨h1, h2⟩ := h tok ht s r hs hr; ⟨h1.symm, h2.symm⟩

/-- the two devices carry out the protocol -/
structure Plays2 (cfg : Cfg) (pa pb : InitParams) (a0 b0 : Ctx) (X Y : Party) (l : Link) (x y : World) : Prop where
  px : Plays cfg pa a0 X x
  py : Plays cfg pb b0 Y y
  bx : Below cfg pa x y.ctx
  byx : Below cfg pb y x.ctx
  agree : Agree l.stale x.ctx.inter y.ctx.inter
  same : l.same = true → x.ctx.nonce = y.ctx.nonce

theorem Plays2.swap {cfg : Cfg} {pa pb : InitParams} {a0 b0 : Ctx} {X Y : Party} {l : Link} {x y : World}
    (h : Plays2 cfg pa pb a0 b0 X Y l x y) : Plays2 cfg pb pa b0 a0 Y X l y x :=
  ⟨h.py, h.px, h.byx, h.bx, h.agree.swap, fun e => (h.same e).symm⟩

theorem distinct_same {t : Table} (h : Distinct t) {r s : Rec} (hr : some r ∈ t) (hs : some s ∈ t) (e : r.token = s.token) : r = s := by
  obtain ⟨i, hi⟩ := mem_iff_get.1 hr
  obtain ⟨j, hj⟩ := mem_iff_get.1 hs
  have := h.token i j r s hi hj e
  subst this
  rw [hi] at hj
  simpa using hj

/-- a request entered at one side -/
theorem Agree.request_lost {cfg : Cfg} {l : List Bytes} {t1 t1' t2 : Table} {ty : MsgType} {tok uri rp rk : Bytes} (h : Agree l t1 t2)
    (hd : Distinct t1) (hu : updateWrapper cfg t1 ty tok uri rp rk = .ok t1') : Agree (tok :: l) t1' t2 := by
  intro tk htk r s hr hs
  rw [List.mem_cons, not_or] at htk
  rcases updateWrapper_mem hd hu r hr.1 with h1 | h1
  · exact h tk htk.2 r s ⟨h1, hr.2⟩ hs
  · exact absurd (hr.2.symm.trans h1.1) htk.1

/-- a request entered at both sides -/
theorem Agree.request {cfg : Cfg} {l : List Bytes} {t1 t1' t2 t2' : Table} {p : Pkt} {uri rp rk : Bytes} (h : Agree l t1 t2)
    (hreq : isRequest p = true) (hd1 : Distinct t1) (hd2 : Distinct t2) (hd1' : Distinct t1') (hd2' : Distinct t2')
    (hu1 : updateWrapper cfg t1 (msgType p) p.token uri rp rk = .ok t1')
    (hu2 : updateWrapper cfg t2 (msgType p) p.token uri rp rk = .ok t2') :
    Agree (l.filter (fun t => t != p.token)) t1' t2' := by
  intro tk htk r s hr hs
  obtain ⟨r0, g1, g2, g3, g4⟩ := updateWrapper_new hreq hd1 hu1
  obtain ⟨s0, k1, k2, k3, k4⟩ := updateWrapper_new hreq hd2 hu2
  by_cases e : tk = p.token
  · subst e
    rw [distinct_same hd1' hr.1 g1 (hr.2.trans g2.symm), distinct_same hd2' hs.1 k1 (hs.2.trans k2.symm)]
    exact ⟨g3.trans k3.symm, g4.trans k4.symm⟩
  · have hl : tk ∉ l := fun hh => htk (List.mem_filter.2 ⟨hh, by simpa using e⟩)
    rcases updateWrapper_mem hd1 hu1 r hr.1 with h1 | h1
    · rcases updateWrapper_mem hd2 hu2 s hs.1 with h2 | h2
      · exact h tk hl r s ⟨h1, hr.2⟩ ⟨h2, hs.2⟩
      · exact absurd (hs.2.symm.trans h2.1) e
    · exact absurd (hr.2.symm.trans h1.1) e

/-- a response takes a request out -/
theorem Agree.response {cfg : Cfg} {l : List Bytes} {t1 t1' t2 : Table} {p : Pkt} {uri rp rk : Bytes} (h : Agree l t1 t2)
    (hrsp : isRequest p = false) (hd1 : Distinct t1)
    (hu1 : updateWrapper cfg t1 (msgType p) p.token uri rp rk = .ok t1') : Agree l t1' t2 := by
  intro tk htk r s hr hs
  rcases updateWrapper_mem hd1 hu1 r hr.1 with h1 | h1
  · exact h tk htk r s ⟨h1, hr.2⟩ hs
  · rcases msgType_response hrsp with e | e
    · exact absurd e h1.2.2.2.1
    · exact absurd e h1.2.2.2.2

theorem reinit_below (n cur : Nat) : ∀ x ∈ reinitList n cur, x ≤ cur := by
  induction n generalizing cur with
  | zero => intro x hx; cases hx
  | succ n ih =>
    intro x hx
    rw [reinitList, List.mem_append, List.mem_singleton] at hx
    rcases hx with hx | rfl
    · have := ih _ x hx
      split at this <;> omega
    · exact Nat.le_refl _

theorem WinBelow.reinit (w : ReplayWindow) (cur : Nat) : WinBelow (w.reinit cur) (cur + 1) :=
  ⟨fun x hx => .inl (by have := reinit_below _ _ x hx; omega), by omega⟩

/-- what is sent -/
theorem sendBy_some {n : Nat} {p : Pkt} {X X' : Party} (h : sendBy n p X = some X') :
    outstandingAfter n X.pending p = some X'.pending ∧ X'.phase = X.phase ∧
    (X.phase = .verify → ∃ e, echoOf p.opts = some e ∧ e.length ≤ X.room ∧ X'.challenge = some e ∧ X'.room = e.length) ∧
    (X.phase ≠ .verify → X'.challenge = X.challenge ∧ X'.room = X.room) := by
  unfold sendBy at h
  split at h
  · cases h
  · rename_i S hS
    split at h
    · rename_i hv
      split at h
      · rename_i e he
        split at h
        · rename_i hl
          simp only [Option.some.injEq] at h
          subst h
          exact ⟨hS, rfl, fun _ => ⟨e, he, hl, rfl, rfl⟩, fun hn => absurd hv hn⟩
        · cases h
      · cases h
    · rename_i hv
      simp only [Option.some.injEq] at h
      subst h
      exact ⟨hS, rfl, fun hh => absurd hh hv, fun _ => ⟨rfl, rfl⟩⟩

theorem new_own {p : Pkt} {X : Party} {e : EchoState} (h : e = X.phase) : needsNewPiv (msgType p) e = ownNumber X p := by
  subst h
  unfold needsNewPiv ownNumber
  cases hr : isRequest p with
  | true =>
    have := (msgType_request hr).1
    simp [this]
  | false =>
    have hob : isObserve p.opts = p.opts.any (fun o => o.num == 6) := rfl
    rw [← hob]
    congr 1
    cases ho : isObserve p.opts with
    | true => rw [(isObserve_msgType hr).1 ho]; rfl
    | false =>
      rcases msgType_response hr with e | e
      · rw [e]; rfl
      · rw [(isObserve_msgType hr).2 e] at ho; cases ho

/-- what the device has after a message was sent -/
structure Sent (cfg : Cfg) (prm : InitParams) (c0 : Ctx) (p : Pkt) (X X' : Party) (x x' : World) : Prop where
  plays : Plays cfg prm c0 X' x'
  upd : ∃ uri rp rk, updateWrapper cfg x.ctx.inter (msgType p) p.token uri rp rk = .ok x'.ctx.inter
  window : x'.ctx.window = x.ctx.window
  notifNum : x'.ctx.notifNum = x.ctx.notifNum
  notifInit : x'.ctx.notifInit = x.ctx.notifInit
  own : ownNumber X p = true → x'.ctx.ssn = x.ctx.ssn + 1 ∧ (prm.fresh = false → x.ctx.ssn + 1 ≤ x'.nvm + cfg.kStore + cfg.fStore)
  reuse : ownNumber X p = false → x'.ctx.ssn = x.ctx.ssn ∧ x'.ctx.nonce = x.ctx.nonce
  nvm : prm.fresh = false → x.nvm ≤ x'.nvm

/-- a device can send what its party may send -/
theorem sends {cfg : Cfg} {C : Crypto} (hC : C.Lawful) (ha : AeadTotal C) (hmax : cfg.uriMax ≤ 255) {prm : InitParams} {c0 : Ctx}
    (hids : IdsOk c0) (hnvm : prm.fresh = false → 0 < cfg.kStore ∧ cfg.nvm = true) {X X' : Party} {x : World} {m : CMsg} {p : Pkt}
    (h : Plays cfg prm c0 X x) (hssn : x.ctx.ssn < 0x7FFFFF) (hp : coapDeserialize m.inp = .ok p) (hs : Sendable cfg p m.capS m.capR)
    (hX : sendBy cfg.interactions p X = some X') :
    ∃ b x', coap2oscore cfg C none m.inp m.capS x = (.ok b, x') ∧ b.length < 65536 ∧ Sent cfg prm c0 p X X' x x' := by
  obtain ⟨ho, hph, hv, hnv⟩ := sendBy_some hX
  have hcache : x.ctx.echo = .verify → ∃ e, echoOf p.opts = some e ∧ e.length ≤ X.room ∧ X'.challenge = some e ∧ X'.room = e.length ∧
      cacheEchoVal x.ctx.echoVal (redelta 0 (innerOpts (isRequest p) p.opts)) = .ok e := by
    intro he
    obtain ⟨e, h1, h2, h3, h4⟩ := hv (by rw [← h.phase]; exact he)
    refine ⟨e, h1, h2, h3, h4, ?_⟩
    have hpl := echo_plain (isRequest p) p.opts
    rw [h1] at hpl
    unfold cacheEchoVal
    cases hf : (redelta 0 (innerOpts (isRequest p) p.opts)).find? (fun o => o.num == optECHO) with
    | none => rw [hf] at hpl; cases hpl
    | some q =>
      rw [hf] at hpl
      simp only [Option.map_some, Option.some.injEq] at hpl
      simp only
      rw [hpl]
      exact memcpyS_ok.2 ⟨rfl, by rw [h.room]; exact h2⟩
  obtain ⟨b, x', hsend, hb⟩ := protect_succeeds_echo hC ha (h.id.ids hids) hssn hmax
    (fun he => let ⟨e, _, _, _, _, h5⟩ := hcache he; ⟨e, h5⟩) hp hs (fun _ => h.nlen) h.track ho
  obtain ⟨v, hvv⟩ := protect_ok hsend hp hs.notAck
  have hfr := coap2oscore_frame cfg C none m.inp m.capS x
  rw [hsend] at hfr
  simp only at hfr
  have hnew : v.new = ownNumber X p := hvv.new.trans (new_own h.phase)
  have hlen : x'.ctx.nonce.length = 13 := by
    rw [hvv.nonce']
    cases hn : v.new with
    | true => exact createNonce_length (hvv.ifNew hn).2.2.2.1
    | false => rw [(hvv.ifReuse hn).2.2.2.1]; exact h.nlen
  -- the table
  have htrk : Tracks cfg.interactions x'.ctx.inter X'.pending := by
    have hupd := hvv.upd
    rw [← hvv.inter'] at hupd
    cases hr : isRequest p with
    | true =>
      have huri := (C33_uri_path_partial p.opts cfg.uriMax (by have := hs.uri; omega)).1 hs.uri
      have hu := hvv.uri
      rw [huri] at hu
      simp only [R.ok.injEq] at hu
      have hn : v.new = true := by rw [hnew]; unfold ownNumber; rw [hr]; rfl
      obtain ⟨q, hq, hql⟩ := ssn2piv_short (n := x.ctx.ssn) (by omega)
      have hread := hvv.read
      have hty := msgType_request hr
      unfold readWrapper at hread
      rw [if_neg (fun e => e.elim hty.1 hty.2)] at hread
      simp only [R.ok.injEq, Prod.mk.injEq] at hread
      have hpiv := (hvv.ifNew hn).1
      rw [hq] at hpiv
      simp only [R.ok.injEq] at hpiv
      obtain ⟨t', ht', htk⟩ := h.track.request (cfg := cfg) hr ho hs.uri hmax hs.token (piv := v.rp) (kid := v.rk)
        (by rw [← hread.1, ← hpiv]; exact hql) (by rw [← hread.2, (hvv.ifNew hn).2.1]; exact (h.id.ids hids).id)
      rw [hu, hupd] at ht'
      simp only [R.ok.injEq] at ht'
      rw [ht']; exact htk
    | false =>
      obtain ⟨-, h2⟩ := h.track.response (cfg := cfg) hr ho hs.token
      obtain ⟨t', ht', htk⟩ := h2 v.uri v.rp v.rk
      rw [hupd] at ht'
      simp only [R.ok.injEq] at ht'
      rw [ht']; exact htk
  -- the Echo value
  have hev := hvv.ev
  have hec : (∀ e, X'.challenge = some e → x'.ctx.echoVal = e) ∧ x'.ctx.echoVal.length = X'.room := by
    rw [hvv.echoVal']
    by_cases he : x.ctx.echo = .verify
    · rw [if_pos he] at hev
      obtain ⟨e, -, -, h3, h4, h5⟩ := hcache he
      rw [h5] at hev
      simp only [R.ok.injEq] at hev
      rw [← hev, h3, h4]
      exact ⟨fun e' he' => by simpa using he', rfl⟩
    · rw [if_neg he] at hev
      obtain ⟨h1, h2⟩ := hnv (by rw [← h.phase]; exact he)
      rw [hev, h1, h2]
      exact ⟨h.chal, h.room⟩
  have hdue : prm.fresh = false → (nvmWriteDue cfg x.ctx ↔ (x.ctx.ssn + 1) % cfg.kStore = 0 ∨ X.phase ≠ .synchronized) := by
    intro hf
    unfold nvmWriteDue
    rw [h.phase]
    exact ⟨fun hh => hh.2.2, fun hh => ⟨h.fresh hf, (hnvm hf).2, hh⟩⟩
  have hnv' : prm.fresh = false → ownNumber X p = true → x'.ctx.ssn = x.ctx.ssn + 1 ∧
      x'.nvm = if (x.ctx.ssn + 1) % cfg.kStore = 0 ∨ X.phase ≠ .synchronized then x.ctx.ssn + 1 else x.nvm := by
    intro hf hn
    rw [← hnew] at hn
    obtain ⟨-, -, -, -, -, h6, h7⟩ := hvv.ifNew hn
    refine ⟨h6, ?_⟩
    rw [h7]
    by_cases hd : nvmWriteDue cfg x.ctx
    · rw [if_pos hd, if_pos ((hdue hf).1 hd)]
    · rw [if_neg hd, if_neg (fun hh => hd ((hdue hf).2 hh))]
  have hre : ownNumber X p = false → x'.ctx.ssn = x.ctx.ssn ∧ x'.ctx.nonce = x.ctx.nonce ∧ x'.nvm = x.nvm := by
    intro hn
    rw [← hnew] at hn
    obtain ⟨-, -, -, h4, h5, h6⟩ := hvv.ifReuse hn
    exact ⟨h5, by rw [hvv.nonce', h4], h6⟩
  have hah : prm.fresh = false → x'.nvm ≤ x'.ctx.ssn := by
    intro hf
    have := h.ahead hf
    cases hn : ownNumber X p with
    | true =>
      obtain ⟨h1, h2⟩ := hnv' hf hn
      rw [h1, h2]; split <;> omega
    | false => obtain ⟨h1, -, h3⟩ := hre hn; omega
  refine ⟨b, x', hsend, hb, ⟨⟨SameId.trans ⟨hfr.idContext, hfr.commonIv, hfr.senderId, hfr.senderKey, hfr.recipientId, hfr.recipientKey⟩ h.id,
    by rw [hfr.echo, hph]; exact h.phase, hec.1, hec.2, htrk, hlen, fun hf => by rw [hfr.fresh]; exact h.fresh hf, hah, ?_, ?_⟩,
    ⟨v.uri, v.rp, v.rk, by rw [hvv.inter']; exact hvv.upd⟩, hfr.window, hfr.notifNum, hfr.notifInit, ?_, fun hn => ⟨(hre hn).1, (hre hn).2.1⟩, ?_⟩⟩
  · intro hf hsy
    rw [hph] at hsy
    have hnear := h.near hf hsy
    cases hn : ownNumber X p with
    | true =>
      obtain ⟨h1, h2⟩ := hnv' hf hn
      rw [h1, h2]
      split
      · exact Nat.mul_div_le _ _
      · rename_i hc
        rw [not_or] at hc
        rw [mul_div_succ_eq hc.1]; exact hnear
    | false => obtain ⟨h1, -, h3⟩ := hre hn; rw [h1, h3]; exact hnear
  · intro hf hns hch
    rw [hph] at hns
    cases hn : ownNumber X p with
    | true =>
      obtain ⟨h1, h2⟩ := hnv' hf hn
      rw [h1, h2, if_pos (.inr hns)]
    | false =>
      obtain ⟨h1, -, h3⟩ := hre hn
      have hnv2 : X.phase ≠ .verify := by
        intro e; unfold ownNumber at hn; rw [e] at hn; simp at hn
      rw [h1, h3]
      exact h.wrote hf hns (by rw [← (hnv hnv2).1]; exact hch)
  · intro hn
    refine ⟨?_, fun hf => ?_⟩
    · rw [← hnew] at hn; exact (hvv.ifNew hn).2.2.2.2.2.1
    · obtain ⟨h1, h2⟩ := hnv' hf hn
      rw [h2]
      split
      · omega
      · rename_i hc
        rw [not_or, Classical.not_not] at hc
        have h3 := h.near hf hc.2
        have h4 := Nat.div_add_mod x.ctx.ssn cfg.kStore
        have h5 := Nat.mod_lt x.ctx.ssn (hnvm hf).1
        omega
  · intro hf
    have := h.ahead hf
    cases hn : ownNumber X p with
    | true =>
      obtain ⟨h1, h2⟩ := hnv' hf hn
      rw [h2]; split <;> omega
    | false => rw [(hre hn).2.2]; exact Nat.le_refl _

theorem Below.sent {cfg : Cfg} {prm : InitParams} {c0 y : Ctx} {p : Pkt} {X X' : Party} {x x' : World} (h : Below cfg prm x y)
    (hs : Sent cfg prm c0 p X X' x x') : Below cfg prm x' y := by
  obtain ⟨u, h1, h2, h3, h4⟩ := h
  refine ⟨u, ?_, h2, h3, fun hf => ?_⟩
  · cases hn : ownNumber X p with
    | true => have := (hs.own hn).1; omega
    | false => have := (hs.reuse hn).1; omega
  · have := h4 hf; have := hs.nvm hf; omega

theorem Sent.ssn_le {cfg : Cfg} {prm : InitParams} {c0 : Ctx} {p : Pkt} {X X' : Party} {x x' : World}
    (hs : Sent cfg prm c0 p X X' x x') : x.ctx.ssn ≤ x'.ctx.ssn ∧ x'.ctx.ssn ≤ x.ctx.ssn + 1 := by
  cases hn : ownNumber X p with
  | true => have := (hs.own hn).1; omega
  | false => have := (hs.reuse hn).1; omega

/-- a device that received something -/
theorem Plays.received {cfg : Cfg} {prm : InitParams} {c0 : Ctx} {Y : Party} {y : World} (h : Plays cfg prm c0 Y y) {n : Bytes}
    {t : Table} {S : List Exch} {w2 : ReplayWindow} {ph : EchoState} {nn : Nat} {ni : Bool} (hn : n.length = 13)
    (ht : Tracks cfg.interactions t S)
    (hph : ph = Y.phase ∨ (Y.phase = .reboot ∧ ph = .verify) ∨ (Y.phase = .verify ∧ Y.challenge ≠ none ∧ ph = .synchronized)) :
    Plays cfg prm c0 { Y with pending := S, phase := ph }
      { y with ctx := { y.ctx with nonce := n, inter := t, window := w2, echo := ph, notifNum := nn, notifInit := ni } } := by
  refine ⟨⟨h.id.1, h.id.2, h.id.3, h.id.4, h.id.5, h.id.6⟩, rfl, h.chal, h.room, ht, hn, h.fresh, h.ahead, fun hf hs => ?_, fun hf hs hc => ?_⟩
  · simp only at hs ⊢
    rcases hph with e | ⟨-, e⟩ | ⟨e1, e2, -⟩
    · exact h.near hf (by rw [← e]; exact hs)
    · rw [e] at hs; cases hs
    · rw [h.wrote hf (by rw [e1]; decide) e2]; exact Nat.mul_div_le _ _
  · simp only at hs hc ⊢
    refine h.wrote hf ?_ hc
    rcases hph with e | ⟨e, -⟩ | ⟨e, -⟩
    · rw [← e]; exact hs
    · rw [e]; decide
    · rw [e]; decide

theorem Below.of {cfg : Cfg} {prm : InitParams} {x x' : World} {y y' : Ctx} (h : Below cfg prm x y) (h1 : x'.ctx.ssn = x.ctx.ssn)
    (h2 : x'.nvm = x.nvm) (h3 : y'.window = y.window) (h4 : y'.notifNum = y.notifNum) (h5 : y'.notifInit = y.notifInit) :
    Below cfg prm x' y' := by
  unfold Below
  rw [h1, h2, h3, h4, h5]
  exact h

/-- a lost message -/
theorem lost_step {cfg : Cfg} {C : Crypto} (hC : C.Lawful) (ha : AeadTotal C) (hmax : cfg.uriMax ≤ 255) {pa pb : InitParams} {a0 b0 : Ctx}
    (hids : IdsOk a0) (hnvm : pa.fresh = false → 0 < cfg.kStore ∧ cfg.nvm = true) {X Y X' Y' : Party} {l l' : Link} {e : Expect}
    {x y : World} {m : CMsg} {p : Pkt} (h : Plays2 cfg pa pb a0 b0 X Y l x y) (hssn : x.ctx.ssn < 0x7FFFFF)
    (hp : coapDeserialize m.inp = .ok p) (hs : Sendable cfg p m.capS m.capR)
    (hX : exchange cfg.interactions m p true X Y l = some (X', Y', l', e)) :
    e = .nothing ∧ Plays2 cfg pa pb a0 b0 X' Y' l' (step cfg C x (.protect m.inp m.capS none)).2 y ∧
      (step cfg C x (.protect m.inp m.capS none)).2.ctx.ssn ≤ x.ctx.ssn + 1 := by
  unfold exchange at hX
  split at hX
  · cases hX
  · rename_i X1 hX1
    simp only [if_true, Option.some.injEq, Prod.mk.injEq] at hX
    obtain ⟨rfl, rfl, rfl, rfl⟩ := hX
    obtain ⟨b, x', hsend, -, hst⟩ := sends hC ha hmax hids hnvm h.px hssn hp hs hX1
    have hx' : (step cfg C x (.protect m.inp m.capS none)).2 = x' := by simp only [step, hsend]
    rw [hx']
    refine ⟨rfl, ⟨hst.plays, h.py, h.bx.sent hst, h.byx.of rfl rfl hst.window hst.notifNum hst.notifInit, ?_, ?_⟩, hst.ssn_le.2⟩
    · obtain ⟨uri, rp, rk, hu⟩ := hst.upd
      simp only
      cases hr : isRequest p with
      | true => exact h.agree.request_lost h.px.track.distinct hu
      | false => exact h.agree.response hr h.px.track.distinct hu
    · intro hsm
      simp only [Bool.and_eq_true, Bool.not_eq_true'] at hsm
      rw [(hst.reuse hsm.2).2]; exact h.same hsm.1

/-- a request that arrives -/
theorem request_step {cfg : Cfg} {C : Crypto} (hC : C.Lawful) (hmax : cfg.uriMax ≤ 255) {pa pb : InitParams} {a0 b0 : Ctx}
    (hids : IdsOk a0) (hmir : Mirror a0 b0) {X Y X' Y' : Party} {l : Link} {e : Expect}
    {x y x' : World} {m : CMsg} {p : Pkt} {b : Bytes} (h : Plays2 cfg pa pb a0 b0 X Y l x y)
    (hA : x.ctx.ssn < 0x7FFFFF) (hB : y.ctx.ssn < 0x7FFFFF)
    (hp : coapDeserialize m.inp = .ok p) (hs : Sendable cfg p m.capS m.capR) (hr : isRequest p = true)
    (hsend : coap2oscore cfg C none m.inp m.capS x = (.ok b, x')) (hb : b.length < 65536) (hst : Sent cfg pa a0 p X X' x x')
    (hY : receiveBy cfg.interactions m p Y = some (Y', e)) :
    Matches e (some (oscore2coap cfg C b m.capR y.ctx).1) ∧
      Plays2 cfg pa pb a0 b0 X' Y' ⟨true, l.stale.filter (fun t => t != p.token)⟩ x' { y with ctx := (oscore2coap cfg C b m.capR y.ctx).2 } ∧
      (oscore2coap cfg C b m.capR y.ctx).2.ssn = y.ctx.ssn := by
  unfold receiveBy at hY
  split at hY
  · cases hY
  rename_i S hS
  rw [hr, if_pos rfl] at hY
  have huriP := (C33_uri_path_partial p.opts cfg.uriMax (by have := hs.uri; omega)).1 hs.uri
  have hown : ownNumber X p = true := by unfold ownNumber; rw [hr]; rfl
  obtain ⟨u, u1, u2, u3, u4⟩ := h.bx
  have hroom : ∀ uri rp rk, uriPathCreate p.opts cfg.uriMax = .ok uri → ssn2piv x.ctx.ssn = .ok rp → rk = x.ctx.senderId →
      ∃ t2, updateWrapper cfg y.ctx.inter (msgType p) p.token uri rp rk = .ok t2 ∧ Tracks cfg.interactions t2 S := by
    intro uri rp rk h1 h2 h3
    rw [huriP] at h1
    simp only [R.ok.injEq] at h1
    obtain ⟨q, hq, hql⟩ := ssn2piv_short (n := x.ctx.ssn) (by omega)
    rw [hq] at h2
    simp only [R.ok.injEq] at h2
    subst h1; subst h2; subst h3
    exact h.py.track.request (cfg := cfg) hr hS hs.uri hmax hs.token hql (h.px.id.ids hids).id
  obtain ⟨t2, uri, rp, rk, z, zs, h1, hself, -, h4, h5, h6, h7, h8, h9, h10⟩ :=
    request_received cfg C hC none m.inp b m.capS m.capR x x' y.ctx p hsend hp hr hs.notAck hs.car hb
      (h.px.id.mirror h.py.id hmir) hB (fun _ => (u2.mono u1).valid)
      (fun uri rp rk t g1 g2 g3 _ => let ⟨t2, k, _⟩ := hroom uri rp rk g1 g2 g3; ⟨t2, k⟩) hs.rcv
  obtain ⟨t2', k1, k2⟩ := hroom uri rp rk h6 h9 h7
  rw [h4] at k1
  simp only [R.ok.injEq] at k1
  subst k1
  have hz : z.toNat ≤ x.ctx.ssn := by
    have hval := (ssn2piv_minimal h9).1.1
    rw [h8] at hval
    rw [← hval]; exact beVal_head_le z zs
  have hdel : Delivered m (.ok (encPkt p)) := ⟨p, hp, by rw [hr, recovered_true], fun _ => ⟨rfl, hself⟩⟩
  have hbel : ∀ {y' : World}, WinBelow y'.ctx.window (x.ctx.ssn + 1) → y'.ctx.notifNum = y.ctx.notifNum → y'.ctx.notifInit = y.ctx.notifInit →
      Below cfg pa x' y'.ctx := by
    intro y' g1 g2 g3
    refine ⟨x.ctx.ssn + 1, Nat.le_of_eq (hst.own hown).1.symm, g1, fun g => ?_, (hst.own hown).2⟩
    rw [g3] at g; rw [g2]
    have := u3 g
    omega
  have hwin : WinBelow y.ctx.window (x.ctx.ssn + 1) := u2.mono (by omega)
  have hbyx : ∀ {y' : World}, y'.ctx.ssn = y.ctx.ssn → y'.nvm = y.nvm → Below cfg pb y' x'.ctx :=
    fun g1 g2 => h.byx.of g1 g2 hst.window hst.notifNum hst.notifInit
  have hag := fun (y' : World) (g : y'.ctx.inter = t2) => (show Agree (l.stale.filter (fun t => t != p.token)) x'.ctx.inter y'.ctx.inter by
    rw [g]; exact h.agree.request hr h.px.track.distinct h.py.track.distinct hst.plays.track.distinct k2.distinct h5 h4)
  have hnl := hst.plays.nlen
  rw [h1]
  cases hph : Y.phase with
  | reboot =>
    rw [hph] at hY
    simp only [Option.some.injEq, Prod.mk.injEq] at hY
    obtain ⟨rfl, rfl⟩ := hY
    have hE : y.ctx.echo = .reboot := h.py.phase.trans hph
    have e1 : requestAnswer p y.ctx = .err .first_request_after_reboot := by unfold requestAnswer; rw [hE]
    have e2 : requestAfter p y.ctx x'.ctx.nonce t2 x.ctx.ssn z.toNat = { y.ctx with nonce := x'.ctx.nonce, inter := t2, echo := .verify } := by
      unfold requestAfter; split <;> simp_all
    rw [e1, e2]
    exact ⟨rfl, ⟨hst.plays, h.py.received hnl k2 (.inr (.inl ⟨hph, rfl⟩)), hbel hwin rfl rfl, hbyx rfl rfl, hag _ rfl, fun _ => rfl⟩, rfl⟩
  | verify =>
    rw [hph] at hY
    have hE : y.ctx.echo = .verify := h.py.phase.trans hph
    simp only at hY
    have hno : echoOf p.opts ≠ some y.ctx.echoVal →
        Matches (.refused .echo_validation_failed) (some (requestAnswer p y.ctx)) ∧
        Plays2 cfg pa pb a0 b0 X' { Y with pending := S } ⟨true, l.stale.filter (fun t => t != p.token)⟩ x'
          { y with ctx := requestAfter p y.ctx x'.ctx.nonce t2 x.ctx.ssn z.toNat } ∧
        (requestAfter p y.ctx x'.ctx.nonce t2 x.ctx.ssn z.toNat).ssn = y.ctx.ssn := by
      intro hne
      have e1 : requestAnswer p y.ctx = .err .echo_validation_failed := by
        unfold requestAnswer; rw [hE]; exact if_neg hne
      have e2 : requestAfter p y.ctx x'.ctx.nonce t2 x.ctx.ssn z.toNat = { y.ctx with nonce := x'.ctx.nonce, inter := t2 } := by
        unfold requestAfter; split <;> simp_all
      rw [e1, e2]
      have hpl := h.py.received (n := x'.ctx.nonce) (t := t2) (S := S) (w2 := y.ctx.window) (ph := Y.phase) (nn := y.ctx.notifNum)
        (ni := y.ctx.notifInit) hnl k2 (.inl rfl)
      rw [← h.py.phase] at hpl
      have hY2 : ({ Y with pending := S, phase := y.ctx.echo } : Party) = { Y with pending := S } := by rw [h.py.phase]
      rw [hY2] at hpl
      exact ⟨rfl, ⟨hst.plays, hpl, hbel hwin rfl rfl, hbyx rfl rfl, hag _ rfl, fun _ => rfl⟩, rfl⟩
    split at hY
    · rename_i hc
      split at hY
      · rename_i hn
        simp only [Option.some.injEq, Prod.mk.injEq] at hY
        obtain ⟨rfl, rfl⟩ := hY
        have := hno (by rw [hn]; simp)
        rw [hph] at this
        exact this
      · cases hY
    · rename_i ev hc
      have hev := h.py.chal ev hc
      split at hY
      · rename_i hq
        simp only [Option.some.injEq, Prod.mk.injEq] at hY
        obtain ⟨rfl, rfl⟩ := hY
        have hq' : echoOf p.opts = some y.ctx.echoVal := by rw [hev]; exact hq
        have e1 : requestAnswer p y.ctx = .ok (encPkt p) := by
          unfold requestAnswer; rw [hE]; exact if_pos hq'
        have e2 : requestAfter p y.ctx x'.ctx.nonce t2 x.ctx.ssn z.toNat =
            { y.ctx with nonce := x'.ctx.nonce, inter := t2, window := y.ctx.window.reinit x.ctx.ssn, echo := .synchronized } := by
          unfold requestAfter; split <;> simp_all
        rw [e1, e2]
        exact ⟨⟨_, rfl, hdel⟩, ⟨hst.plays, h.py.received hnl k2 (.inr (.inr ⟨hph, by rw [hc]; simp, rfl⟩)), hbel (.reinit _ _) rfl rfl,
          hbyx rfl rfl, hag _ rfl, fun _ => rfl⟩, rfl⟩
      · rename_i hq
        simp only [Option.some.injEq, Prod.mk.injEq] at hY
        obtain ⟨rfl, rfl⟩ := hY
        have := hno (by rw [hev]; exact hq)
        rw [hph] at this
        exact this
  | synchronized =>
    rw [hph] at hY
    simp only [Option.some.injEq, Prod.mk.injEq] at hY
    obtain ⟨rfl, rfl⟩ := hY
    have hE : y.ctx.echo = .synchronized := h.py.phase.trans hph
    have e1 : requestAnswer p y.ctx = .ok (encPkt p) := by unfold requestAnswer; rw [hE]
    have e2 : requestAfter p y.ctx x'.ctx.nonce t2 x.ctx.ssn z.toNat =
        { y.ctx with nonce := x'.ctx.nonce, inter := t2, window := (y.ctx.window.update z.toNat).2, echo := .synchronized } := by
      unfold requestAfter; split <;> simp_all
    rw [e1, e2]
    have hpl := h.py.received (n := x'.ctx.nonce) (t := t2) (S := S) (w2 := (y.ctx.window.update z.toNat).2) (ph := .synchronized)
      (nn := y.ctx.notifNum) (ni := y.ctx.notifInit) hnl k2 (.inl hph.symm)
    exact ⟨⟨_, rfl, hdel⟩, ⟨hst.plays, by rw [hph] at *; exact hpl, hbel ((u2.mono u1).update hz) rfl rfl, hbyx rfl rfl, hag _ rfl, fun _ => rfl⟩, rfl⟩

/-- a response that arrives -/
theorem response_step {cfg : Cfg} {C : Crypto} (hC : C.Lawful) {pa pb : InitParams} {a0 b0 : Ctx}
    (hmir : Mirror a0 b0) {X Y X' Y' : Party} {l : Link} {e : Expect}
    {x y x' : World} {m : CMsg} {p : Pkt} {b : Bytes} (h : Plays2 cfg pa pb a0 b0 X Y l x y)
    (hB : y.ctx.ssn < 0x7FFFFF)
    (hp : coapDeserialize m.inp = .ok p) (hs : Sendable cfg p m.capS m.capR) (hr : isRequest p = false)
    (hX : outstandingAfter cfg.interactions X.pending p = some X'.pending)
    (hsend : coap2oscore cfg C none m.inp m.capS x = (.ok b, x')) (hb : b.length < 65536) (hst : Sent cfg pa a0 p X X' x x')
    (hok : ¬(p.token ∈ l.stale ∨ (ownNumber X p = false ∧ l.same = false)))
    (hY : receiveBy cfg.interactions m p Y = some (Y', e)) :
    Matches e (some (oscore2coap cfg C b m.capR y.ctx).1) ∧
      Plays2 cfg pa pb a0 b0 X' Y' ⟨true, l.stale⟩ x' { y with ctx := (oscore2coap cfg C b m.capR y.ctx).2 } ∧
      (oscore2coap cfg C b m.capR y.ctx).2.ssn = y.ctx.ssn := by
  rw [not_or] at hok
  obtain ⟨hfreshT, hnon⟩ := hok
  unfold receiveBy at hY
  split at hY
  · cases hY
  rename_i S hS
  rw [hr] at hY
  simp only [Bool.false_eq_true, if_false, Option.some.injEq, Prod.mk.injEq] at hY
  obtain ⟨rfl, rfl⟩ := hY
  obtain ⟨v, hv⟩ := protect_ok hsend hp hs.notAck
  have hself : coapDeserialize (encPkt p) = .ok p := deserialize_encPkt (hs.car.pktOk hv.range) hs.car.small
  obtain ⟨⟨r1, o1⟩, -⟩ := h.px.track.response (cfg := cfg) hr hX hs.token
  obtain ⟨⟨r2, o2⟩, hupd⟩ := h.py.track.response (cfg := cfg) hr hS hs.token
  obtain ⟨g1, g2⟩ := h.agree p.token hfreshT r1 r2 o1 o2
  obtain ⟨u, u1, u2, u3, u4⟩ := h.bx
  have hob : isObserve p.opts = p.opts.any (fun o => o.num == 6) := rfl
  have hnonce : x.ctx.echo = .verify ∨ isObserve p.opts = true ∨ y.ctx.nonce = x.ctx.nonce := by
    by_cases h1 : x.ctx.echo = .verify
    · exact .inl h1
    · by_cases h2 : isObserve p.opts = true
      · exact .inr (.inl h2)
      · refine .inr (.inr (h.same ?_).symm)
        have : ownNumber X p = false := by
          unfold ownNumber
          rw [hr, ← hob, ← h.px.phase]
          simp only [Bool.false_or, Bool.or_eq_false_iff]
          exact ⟨by simpa using h2, by simpa using h1⟩
        cases hl : l.same with
        | true => rfl
        | false => exact absurd ⟨this, hl⟩ hnon
  obtain ⟨cl', h1, -, -, uri, rp, rk, h2, h3, h4, h5, h6⟩ :=
    response_recovered cfg C hC none m.inp b m.capS m.capR x x' y.ctx p hsend hp hr hs.car hb (h.px.id.mirror h.py.id hmir) hB
      h.px.track.distinct h.py.track.distinct ⟨r1, r2, o1, o2, g1, g2⟩ hnonce
      (fun _ g => by have := u3 g; omega) (Nat.le_trans (encPkt_recovered false p) hs.rcv)
  rw [h1]
  simp only
  obtain ⟨t', k1, k2⟩ := hupd uri rp rk
  rw [h2] at k1
  simp only [R.ok.injEq] at k1
  have hag : Agree l.stale x'.ctx.inter cl'.inter :=
    ((h.agree.response hr h.px.track.distinct h3).swap.response hr h.py.track.distinct h2).swap
  refine ⟨⟨_, rfl, p, hp, by rw [hr]; rfl, fun g => ?_⟩, ?_⟩
  · rcases g with g | g
    · rw [hr] at g; cases g
    · rw [receivedResponse_eq (fun o hom e6 => ?_)]
      · exact ⟨rfl, hself⟩
      · exfalso
        rw [List.any_eq_false] at g
        exact g o hom (by simp [e6])
  · cases hobs : isObserve p.opts with
    | false =>
      have e1 := h5 hobs
      have hpl := h.py.received (n := x'.ctx.nonce) (t := cl'.inter) (S := S) (w2 := y.ctx.window) (ph := Y.phase) (nn := y.ctx.notifNum)
        (ni := y.ctx.notifInit) hst.plays.nlen (by rw [k1]; exact k2) (.inl rfl)
      have e2 : cl' = { y.ctx with nonce := x'.ctx.nonce, inter := cl'.inter, window := y.ctx.window, echo := Y.phase, notifNum := y.ctx.notifNum, notifInit := y.ctx.notifInit } := by
        rw [← h.py.phase]; exact e1
      rw [← e2] at hpl
      refine ⟨⟨hst.plays, hpl, (Below.sent ⟨u, u1, u2, u3, u4⟩ hst).of rfl rfl (by rw [e1]) (by rw [e1]) (by rw [e1]),
        h.byx.of (by rw [e1]) rfl hst.window hst.notifNum hst.notifInit, hag, fun _ => by rw [e1]⟩, by rw [e1]⟩
    | true =>
      obtain ⟨e0, e1⟩ := h6 hobs
      have hown : ownNumber X p = true := by unfold ownNumber; rw [← hob, hobs]; simp
      have hpl := h.py.received (n := x'.ctx.nonce) (t := cl'.inter) (S := S) (w2 := y.ctx.window) (ph := Y.phase) (nn := x.ctx.ssn)
        (ni := true) hst.plays.nlen (by rw [k1]; exact k2) (.inl rfl)
      have e2 : cl' = { y.ctx with nonce := x'.ctx.nonce, inter := cl'.inter, window := y.ctx.window, echo := Y.phase, notifNum := x.ctx.ssn, notifInit := true } := by
        have : cl'.inter = y.ctx.inter := by rw [e1]
        rw [← h.py.phase, this]; exact e1
      rw [← e2] at hpl
      refine ⟨⟨hst.plays, hpl, ⟨x.ctx.ssn + 1, Nat.le_of_eq e0.symm, ?_, fun _ => ?_, (hst.own hown).2⟩,
        h.byx.of (by rw [e1]) rfl hst.window hst.notifNum hst.notifInit, hag, fun _ => by rw [e1]⟩, by rw [e1]⟩
      · show WinBelow cl'.window _
        rw [e1]; exact u2.mono (by omega)
      · show cl'.notifNum < _
        rw [e1]; exact Nat.lt_succ_self _

theorem restart_init {cfg : Cfg} {C : Crypto} {prm : InitParams} {nv0 : R Nat} {jn0 je0 : Bytes} {c0 : Ctx}
    (h0 : contextInit cfg C prm nv0 jn0 je0 = .ok c0) (hf : prm.fresh = false) (hn : cfg.nvm = true) {k : Nat} (hk : k + cfg.kStore + cfg.fStore < 2 ^ 64)
    (jn je : Bytes) : ∃ c, contextInit cfg C prm (.ok k) jn je = .ok c ∧ SameId c c0 ∧ c.fresh = false ∧ c.ssn = k + cfg.kStore + cfg.fStore ∧
      c.window = ReplayWindow.init cfg.windowSize ∧ c.notifInit = false ∧ c.nonce = jn ∧ c.inter = Table.init cfg.interactions ∧
      c.echoVal = je ∧ c.echo = .reboot := by
  obtain ⟨iv, rk, ssn, sk, h1, h2, h3, h4, h5, h6, h7, rfl⟩ := contextInit_ok h0
  have hs : ssnInit cfg (.ok k) prm.fresh = .ok (k + cfg.kStore + cfg.fStore) := by
    unfold ssnInit
    rw [hf, hn]
    simp only [Bool.false_eq_true, if_false, if_true, R.ok_bind, R.pure_eq, R.ok.injEq]
    rw [Nat.mod_eq_of_lt (by omega)]; omega
  unfold contextInit
  rw [if_neg (by simp [h1]), if_neg (by simp [h2]), h3, R.ok_bind, if_neg (by omega), h5, R.ok_bind, hs, R.ok_bind, h7, R.ok_bind]
  exact ⟨_, rfl, ⟨rfl, rfl, rfl, rfl, rfl, rfl⟩, hf, rfl, rfl, rfl, rfl, rfl, rfl, by simp [hf]⟩

/-- a restart -/
theorem restart_step {cfg : Cfg} {C : Crypto} {pa pb : InitParams} {a0 b0 : Ctx} {nv0 : R Nat} {jn0 je0 : Bytes}
    (h0 : contextInit cfg C pa nv0 jn0 je0 = .ok a0) (hf : pa.fresh = false) (hn : cfg.nvm = true) {X Y : Party} {l : Link} {x y : World}
    (h : Plays2 cfg pa pb a0 b0 X Y l x y) (hb : x.ctx.ssn + (cfg.kStore + cfg.fStore) ≤ 0x7FFFFF) {jn je : Bytes} (hj : jn.length = 13) :
    Plays2 cfg pa pb a0 b0 (restarted je) Y { l with same := false } (reinitWorld cfg C pa jn je x) y ∧
      (reinitWorld cfg C pa jn je x).ctx.ssn ≤ x.ctx.ssn + (cfg.kStore + cfg.fStore) := by
  have hah := h.px.ahead hf
  obtain ⟨c, h1, h2, h3, h4, h5, h6, h7, h8, h9, h10⟩ := restart_init h0 hf hn (k := x.nvm) (by omega) jn je
  have hw : reinitWorld cfg C pa jn je x = { x with ctx := c } := by unfold reinitWorld; rw [h1]
  rw [hw]
  refine ⟨⟨⟨h2, h10, (fun e he => by cases he), (by simp only [restarted]; rw [h9]), (by simp only [restarted]; rw [h8]; exact tracks_init _),
    (by simp only; rw [h7]; exact hj), fun _ => h3, (fun _ => by simp only; omega), (fun _ he => by cases he), fun _ _ he => absurd rfl he⟩, h.py, ?_, ?_, ?_,
    (fun he => by cases he)⟩, (by simp only; omega)⟩
  · obtain ⟨u, -, u2, u3, u4⟩ := h.bx
    have := u4 hf
    exact ⟨u, by simp only; omega, u2, u3, u4⟩
  · refine ⟨0, Nat.zero_le _, ?_, fun he => ?_, fun _ => Nat.zero_le _⟩
    · simp only; rw [h5]; exact .init _
    · simp only at he; rw [h6] at he; cases he
  · intro tok _ r s hr _
    simp only at hr
    rw [h8] at hr
    have := hr.1
    unfold Table.init at this
    cases (List.mem_replicate.1 this).2

/-- the attacker has no luck: the AEAD accepts no forgery, in the state of the receiver at the time it arrives -/
def NoLuck (cfg : Cfg) (C : Crypto) (pa pb : InitParams) : World × World → List NEv → Prop
  | _, [] => True
  | s, ev :: evs => (match ev with
      | .forged toA pkt _ => Rejected C (if toA then s.1.ctx else s.2.ctx) pkt
      | _ => True) ∧ NoLuck cfg C pa pb (netStep cfg C pa pb s ev).2 evs

theorem noLuck_of {cfg : Cfg} {C : Crypto} {pa pb : InitParams} {evs : List NEv} :
    ∀ {s}, (∀ toA pkt cap, NEv.forged toA pkt cap ∈ evs → ∀ c, Rejected C c pkt) → NoLuck cfg C pa pb s evs := by
  induction evs with
  | nil => intro _ _; trivial
  | cons ev evs ih =>
    intro s h
    refine ⟨?_, ih (fun a b c hm => h a b c (List.mem_cons_of_mem _ hm))⟩
    cases ev with
    | forged toA pkt cap => exact h toA pkt cap (List.mem_cons_self ..) _
    | send => trivial
    | restart => trivial

theorem forged_step {cfg : Cfg} {C : Crypto} {x : World} {pkt : Bytes} {cap : Nat} (h : Rejected C x.ctx pkt) :
    Matches .rejected (some (step cfg C x (.unprotect pkt cap)).1) ∧ (step cfg C x (.unprotect pkt cap)).2 = x := by
  obtain ⟨h1, h2⟩ := C08_forgery_changes_nothing cfg C pkt cap x.ctx h
  simp only [step]
  exact ⟨⟨_, rfl, h1⟩, by rw [h2]⟩

/-- a message that arrives -/
theorem arrive_step {cfg : Cfg} {C : Crypto} (hC : C.Lawful) (ha : AeadTotal C) (hmax : cfg.uriMax ≤ 255) {pa pb : InitParams} {a0 b0 : Ctx}
    (hids : IdsOk a0) (hmir : Mirror a0 b0) (hnvm : pa.fresh = false → 0 < cfg.kStore ∧ cfg.nvm = true) {X Y X' Y' : Party} {l l' : Link} {e : Expect}
    {x y : World} {m : CMsg} {p : Pkt} (h : Plays2 cfg pa pb a0 b0 X Y l x y) (hA : x.ctx.ssn < 0x7FFFFF) (hB : y.ctx.ssn < 0x7FFFFF)
    (hp : coapDeserialize m.inp = .ok p) (hs : Sendable cfg p m.capS m.capR)
    (hX : exchange cfg.interactions m p false X Y l = some (X', Y', l', e)) :
    Matches e (some (transfer cfg C m x y).1) ∧ Plays2 cfg pa pb a0 b0 X' Y' l' (transfer cfg C m x y).2.1 (transfer cfg C m x y).2.2 ∧
      (transfer cfg C m x y).2.1.ctx.ssn ≤ x.ctx.ssn + 1 ∧ (transfer cfg C m x y).2.2.ctx.ssn = y.ctx.ssn := by
  unfold exchange at hX
  split at hX
  · cases hX
  rename_i X1 hX1
  simp only [Bool.false_eq_true, if_false] at hX
  split at hX
  · cases hX
  rename_i hok
  split at hX
  · cases hX
  rename_i Y1 e1 hY1
  simp only [Option.some.injEq, Prod.mk.injEq] at hX
  obtain ⟨rfl, rfl, rfl, rfl⟩ := hX
  obtain ⟨b, x', hsend, hb, hst⟩ := sends hC ha hmax hids hnvm h.px hA hp hs hX1
  have htr : transfer cfg C m x y = ((oscore2coap cfg C b m.capR y.ctx).1, x', { y with ctx := (oscore2coap cfg C b m.capR y.ctx).2 }) := by
    unfold transfer
    simp only [step, hsend]
  rw [htr]
  simp only
  cases hr : isRequest p with
  | true =>
    obtain ⟨h1, h2, h3⟩ := request_step hC hmax hids hmir h hA hB hp hs hr hsend hb hst hY1
    exact ⟨h1, h2, hst.ssn_le.2, h3⟩
  | false =>
    obtain ⟨h1, h2, h3⟩ := response_step hC hmir h hB hp hs hr (sendBy_some hX1).1 hsend hb hst (fun hh => hok ⟨hr, hh⟩) hY1
    exact ⟨h1, h2, hst.ssn_le.2, h3⟩

/-! ### the theorem -/

/-- sequence numbers an event can cost -/
def cost (cfg : Cfg) : NEv → Nat
  | .send _ _ => 1
  | .forged _ _ _ => 0
  | .restart _ _ _ => cfg.kStore + cfg.fStore

theorem net_run {cfg : Cfg} {C : Crypto} (hC : C.Lawful) (ha : AeadTotal C) (hmax : cfg.uriMax ≤ 255) {pa pb : InitParams} {a0 b0 : Ctx}
    {nvA nvB : R Nat} {jA eA jB eB : Bytes} (hiA : contextInit cfg C pa nvA jA eA = .ok a0) (hiB : contextInit cfg C pb nvB jB eB = .ok b0)
    (hidA : IdsOk a0) (hidB : IdsOk b0) (hAB : Mirror a0 b0) (hBA : Mirror b0 a0)
    (hnA : pa.fresh = false → 0 < cfg.kStore ∧ cfg.nvm = true) (hnB : pb.fresh = false → 0 < cfg.kStore ∧ cfg.nvm = true) (evs : List NEv) :
    ∀ (N : Net2) (es : List Expect) (a b : World), Plays2 cfg pa pb a0 b0 N.A N.B N.link a b → NetRun cfg pa pb N evs es →
      NoLuck cfg C pa pb (a, b) evs →
      a.ctx.ssn + (evs.map (cost cfg)).sum ≤ 0x7FFFFF → b.ctx.ssn + (evs.map (cost cfg)).sum ≤ 0x7FFFFF →
      (netRun cfg C pa pb (a, b) evs).length = es.length ∧ ∀ z ∈ es.zip (netRun cfg C pa pb (a, b) evs), Matches z.1 z.2 := by
  induction evs with
  | nil =>
    intro N es a b _ hr _ _ _
    cases es with
    | nil => exact ⟨rfl, fun z hz => by cases hz⟩
    | cons e es => exact hr.elim
  | cons ev evs ih =>
    intro N es a b h hr hfo hA hB
    cases es with
    | nil => exact hr.elim
    | cons e es =>
      obtain ⟨N', hstep, hr'⟩ := hr
      rw [List.map_cons, List.sum_cons] at hA hB
      have key : ∀ a' b', (netStep cfg C pa pb (a, b) ev).2 = (a', b') → Matches e (netStep cfg C pa pb (a, b) ev).1 →
          Plays2 cfg pa pb a0 b0 N'.A N'.B N'.link a' b' → a'.ctx.ssn ≤ a.ctx.ssn + cost cfg ev → b'.ctx.ssn ≤ b.ctx.ssn + cost cfg ev →
          (netRun cfg C pa pb (a, b) (ev :: evs)).length = (e :: es).length ∧
            ∀ z ∈ (e :: es).zip (netRun cfg C pa pb (a, b) (ev :: evs)), Matches z.1 z.2 := by
        intro a' b' h1 h2 h3 h4 h5
        obtain ⟨i1, i2⟩ := ih N' es a' b' h3 hr' (by have := hfo.2; rw [h1] at this; exact this) (by omega) (by omega)
        unfold netRun
        rw [h1]
        refine ⟨by rw [List.length_cons, List.length_cons, i1], ?_⟩
        rw [List.zip_cons_cons]
        rintro z hz
        rcases List.mem_cons.1 hz with rfl | hz
        · exact h2
        · exact i2 z hz
      cases ev with
      | send m lost =>
        obtain ⟨p, hp, hs, hx⟩ := hstep
        simp only [cost] at hA hB key
        cases lost with
        | true =>
          cases hf : m.fromA with
          | true =>
            rw [hf, if_pos rfl] at hx
            obtain ⟨X, Y, l, hx, rfl⟩ := hx
            obtain ⟨h1, h2, h3⟩ := lost_step hC ha hmax hidA hnA h (by omega) hp hs hx
            refine key _ b (by simp only [netStep, hf, if_true]) ?_ h2 h3 (by omega)
            simp only [netStep, hf, if_true, h1]; rfl
          | false =>
            rw [hf, if_neg (by simp)] at hx
            obtain ⟨X, Y, l, hx, rfl⟩ := hx
            obtain ⟨h1, h2, h3⟩ := lost_step hC ha hmax hidB hnB h.swap (by omega) hp hs hx
            refine key a _ (by simp only [netStep, hf, Bool.false_eq_true, if_false]) ?_ h2.swap (by omega) h3
            simp only [netStep, hf, Bool.false_eq_true, if_false, h1]; rfl
        | false =>
          cases hf : m.fromA with
          | true =>
            rw [hf, if_pos rfl] at hx
            obtain ⟨X, Y, l, hx, rfl⟩ := hx
            obtain ⟨h1, h2, h3, h4⟩ := arrive_step hC ha hmax hidA hAB hnA h (by omega) (by omega) hp hs hx
            refine key _ _ (by simp only [netStep, hf, if_true]) ?_ h2 h3 (by omega)
            simp only [netStep, hf, if_true]; exact h1
          | false =>
            rw [hf, if_neg (by simp)] at hx
            obtain ⟨X, Y, l, hx, rfl⟩ := hx
            obtain ⟨h1, h2, h3, h4⟩ := arrive_step hC ha hmax hidB hBA hnB h.swap (by omega) (by omega) hp hs hx
            refine key _ _ (by simp only [netStep, hf, Bool.false_eq_true, if_false]) ?_ h2.swap (by omega) h3
            simp only [netStep, hf, Bool.false_eq_true, if_false]; exact h1
      | forged toA pkt cap =>
        obtain ⟨rfl, rfl⟩ := hstep
        have hF : Rejected C (if toA then a.ctx else b.ctx) pkt := hfo.1
        cases toA with
        | true =>
          rw [if_pos rfl] at hF
          obtain ⟨h1, h2⟩ := forged_step (cfg := cfg) (cap := cap) hF
          refine key a b (by simp only [netStep, if_true, h2]) ?_ h (by omega) (by omega)
          simp only [netStep, if_true]; exact h1
        | false =>
          rw [if_neg (by simp)] at hF
          obtain ⟨h1, h2⟩ := forged_step (cfg := cfg) (cap := cap) hF
          refine key a b (by simp only [netStep, Bool.false_eq_true, if_false, h2]) ?_ h (by omega) (by omega)
          simp only [netStep, Bool.false_eq_true, if_false]; exact h1
      | restart ofA jn je =>
        obtain ⟨hj, rfl, hx⟩ := hstep
        simp only [cost] at hA hB key
        cases ofA with
        | true =>
          rw [if_pos rfl] at hx
          obtain ⟨hf, rfl⟩ := hx
          obtain ⟨h1, h2⟩ := restart_step hiA hf (hnA hf).2 h (by omega) (je := je) hj
          exact key _ b (by simp only [netStep, if_true]) (by simp only [netStep, if_true]; rfl) h1 h2 (by omega)
        | false =>
          rw [if_neg (by simp)] at hx
          obtain ⟨hf, rfl⟩ := hx
          obtain ⟨h1, h2⟩ := restart_step hiB hf (hnB hf).2 h.swap (by omega) (je := je) hj
          exact key a _ (by simp only [netStep, Bool.false_eq_true, if_false]) (by simp only [netStep, Bool.false_eq_true, if_false]; rfl) h1.swap (by omega) h2

/-- a party at the start: with new keys, or with keys it had before -/
def started (prm : InitParams) (je : Bytes) : Party :=
  { pending := [], phase := if prm.fresh then .synchronized else .reboot, challenge := none, room := je.length }

theorem plays_started {cfg : Cfg} {C : Crypto} {prm : InitParams} {k : Nat} {jn je : Bytes} {c : Ctx} {log : List EncCall}
    (h : contextInit cfg C prm (.ok k) jn je = .ok c) (hj : jn.length = 13)
    (hk : prm.fresh = false → k + cfg.kStore + cfg.fStore < 2 ^ 64) :
    Plays cfg prm c (started prm je) ⟨c, k, log⟩ ∧ c.inter = Table.init cfg.interactions ∧
      c.window = ReplayWindow.init cfg.windowSize ∧ c.notifInit = false := by
  obtain ⟨iv, rk, ssn, sk, h1, h2, h3, h4, h5, h6, h7, rfl⟩ := contextInit_ok h
  refine ⟨⟨⟨rfl, rfl, rfl, rfl, rfl, rfl⟩, rfl, (fun e he => by cases he), rfl, tracks_init _, hj, fun hf => hf, fun hf => ?_, fun hf he => ?_,
    fun _ _ he => absurd rfl he⟩, rfl, rfl, rfl⟩
  · have := hk hf
    unfold ssnInit at h6
    rw [hf] at h6
    simp only [Bool.false_eq_true, if_false] at h6
    split at h6
    · simp only [R.ok_bind, R.pure_eq, R.ok.injEq] at h6
      rw [Nat.mod_eq_of_lt (by omega)] at h6
      simp only; omega
    · cases h6
  · simp only [started, hf, Bool.false_eq_true, if_false] at he
    cases he

/-- **C76** Two parties with mirrored parameters, each with new keys or with keys it keeps across restarts, over a
network that loses messages and injects forgeries; either may restart at any time and as often as it likes.  For
every history of such events in which every message may be sent when its turn comes, each device does exactly what
the protocol of RFC 8613 Appendix B.1 prescribes (`NetRun`): forgeries are rejected, the first request after a restart is
refused, requests without the Echo value of the challenge are refused, the first one with it and all later ones are
delivered, and so are the responses and notifications.  The history may be as long as there are sequence numbers.

`_partial`: messages of `Sendable` (what the library can carry, C22, and the buffers), IDs of at most 4 bytes (C26),
messages are not reordered or duplicated (C04, C23), all writes to non-volatile memory succeed (C12), a response without a
sequence number of its own can only be read if both sides remember the nonce of the same message (`Link.same`,
C76_false_nonce), and places of the table taken by lost messages stay taken (C64_false_lost). -/
theorem C76_partial {cfg : Cfg} {C : Crypto} (hC : C.Lawful) (haead : AeadTotal C) (hmax : cfg.uriMax ≤ 255) (hinfo : 50 ≤ cfg.infoMax)
    {pa pb : InitParams} (hm : MirroredParams pa pb)
    (h1 : pa.senderId.length ≤ 4) (h2 : pa.recipientId.length ≤ 4) (h3 : pa.idContext.length ≤ 10)
    (hnvm : pa.fresh = false ∨ pb.fresh = false → 0 < cfg.kStore ∧ cfg.nvm = true)
    {nvmA nvmB : Nat} {jnA jeA jnB jeB : Bytes} {a b : Ctx} (hjA : jnA.length = 13) (hjB : jnB.length = 13)
    (ha : contextInit cfg C pa (.ok nvmA) jnA jeA = .ok a) (hb : contextInit cfg C pb (.ok nvmB) jnB jeB = .ok b)
    (hkA : nvmA + cfg.kStore + cfg.fStore < 2 ^ 64) (hkB : nvmB + cfg.kStore + cfg.fStore < 2 ^ 64)
    (logA logB : List EncCall) (evs : List NEv) (es : List Expect)
    (hrun : NetRun cfg pa pb ⟨started pa jeA, started pb jeB, ⟨false, []⟩⟩ evs es)
    (hforged : NoLuck cfg C pa pb (⟨a, nvmA, logA⟩, ⟨b, nvmB, logB⟩) evs)
    (hA : a.ssn + (evs.map (cost cfg)).sum ≤ 0x7FFFFF) (hB : b.ssn + (evs.map (cost cfg)).sum ≤ 0x7FFFFF) :
    (netRun cfg C pa pb (⟨a, nvmA, logA⟩, ⟨b, nvmB, logB⟩) evs).length = es.length ∧
      ∀ z ∈ es.zip (netRun cfg C pa pb (⟨a, nvmA, logA⟩, ⟨b, nvmB, logB⟩) evs), Matches z.1 z.2 := by
  obtain ⟨k1, k2, k3, k4, k5, -⟩ := C27_mirrored hm ha hb
  obtain ⟨pA, iA, wA, nA⟩ := plays_started (log := logA) ha hjA (fun _ => hkA)
  obtain ⟨pB, iB, wB, nB⟩ := plays_started (log := logB) hb hjB (fun _ => hkB)
  refine net_run hC haead hmax ha hb (idsOk_of_params hC hinfo ha h1 h3)
    (idsOk_of_params hC hinfo hb (by rw [hm.sender]; exact h2) (by rw [hm.idContext]; exact h3)) ⟨k4.symm, k1.symm, k3.symm⟩ ⟨k5, k2, k3⟩
    (fun hf => hnvm (.inl hf)) (fun hf => hnvm (.inr hf)) evs _ es _ _ ⟨pA, pB, ?_, ?_, ?_, (fun he => by cases he)⟩ hrun hforged hA hB
  · exact ⟨0, Nat.zero_le _, (by simp only; rw [wB]; exact .init _), (fun he => by simp only at he; rw [nB] at he; cases he), fun _ => Nat.zero_le _⟩
  · exact ⟨0, Nat.zero_le _, (by simp only; rw [wA]; exact .init _), (fun he => by simp only at he; rw [nA] at he; cases he), fun _ => Nat.zero_le _⟩
  · intro tok _ r s hr _
    simp only at hr
    rw [iA] at hr
    have := hr.1
    unfold Table.init at this
    cases (List.mem_replicate.1 this).2


/-! ### recovery after a restart -/

/-- a history that leads from `N` to `N'` -/
def NetReach (cfg : Cfg) (pa pb : InitParams) : Net2 → List NEv → List Expect → Net2 → Prop
  | N, [], [], N' => N' = N
  | N, ev :: evs, e :: es, N' => ∃ N1, NetStep cfg pa pb N ev N1 e ∧ NetReach cfg pa pb N1 evs es N'
  | _, _, _, _ => False

theorem NetReach.append {cfg : Cfg} {pa pb : InitParams} : ∀ (evs : List NEv) (es : List Expect) (N N' : Net2) (evs2 : List NEv) (es2 : List Expect),
    NetReach cfg pa pb N evs es N' → NetRun cfg pa pb N' evs2 es2 → NetRun cfg pa pb N (evs ++ evs2) (es ++ es2)
  | [], [], _, _, _, _, h, g => by rw [h] at g; exact g
  | [], _ :: _, _, _, _, _, h, _ => h.elim
  | _ :: _, [], _, _, _, _, h, _ => h.elim
  | ev :: evs, e :: es, N, N', evs2, es2, ⟨N1, h1, h2⟩, g => ⟨N1, h1, NetReach.append evs es N1 N' evs2 es2 h2 g⟩

/-- **C76** (recovery) However long the history so far and whatever was lost in it: the server restarts, and with the
next three messages – a request, which is refused, a response with an Echo value, and the request with this value – it
serves the client again.  The client needs a place for the request and must not itself wait for an Echo value. -/
theorem C76_recovery {cfg : Cfg} {pa pb : InitParams} {N N' : Net2} {evs : List NEv} {es : List Expect}
    (h : NetReach cfg pa pb N evs es N') (hf : pb.fresh = false) {jn je : Bytes} (hj : jn.length = 13)
    {m1 m2 m3 : CMsg} {p1 p2 p3 : Pkt} (hA1 : m1.fromA = true) (hB2 : m2.fromA = false) (hA3 : m3.fromA = true)
    (hp1 : coapDeserialize m1.inp = .ok p1) (hp2 : coapDeserialize m2.inp = .ok p2) (hp3 : coapDeserialize m3.inp = .ok p3)
    (hs1 : Sendable cfg p1 m1.capS m1.capR) (hs2 : Sendable cfg p2 m2.capS m2.capR) (hs3 : Sendable cfg p3 m3.capS m3.capR)
    (hr1 : isRequest p1 = true) (hr2 : isRequest p2 = false) (hr3 : isRequest p3 = true)
    (ht2 : p2.token = p1.token) (ht3 : p3.token = p1.token)
    (hsame : Spec.uriPath p3.opts = Spec.uriPath p1.opts ∧ observation p3.opts = observation p1.opts)
    (hobs : p2.opts.any (fun o => o.num == 6) = false) {v : Bytes} (hv : echoOf p2.opts = some v) (hvl : v.length ≤ je.length)
    (hv3 : echoOf p3.opts = some v) (hph : N'.A.phase ≠ .verify) {S : List Exch}
    (hroom : outstandingAfter cfg.interactions N'.A.pending p1 = some S) :
    NetRun cfg pa pb N (evs ++ [.restart false jn je, .send m1 false, .send m2 false, .send m3 false])
      (es ++ [.nothing, .refused .first_request_after_reboot, .delivered m2, .delivered m3]) := by
  refine NetReach.append _ _ _ _ _ _ h ?_
  obtain ⟨⟨pend, ph, ch, rm⟩, B, ⟨same, stale⟩⟩ := N'
  simp only at hph hroom
  unfold outstandingAfter at hroom
  rw [hr1, if_pos rfl] at hroom
  simp only at hroom
  split at hroom
  rotate_left
  · cases hroom
  rename_i hc
  simp only [Option.some.injEq] at hroom
  obtain ⟨hlen, hnew⟩ := hc
  generalize hS' : pend.filter (fun x => !(x.2.1 == Spec.uriPath p1.opts && x.2.2 == observation p1.opts)) = S' at hlen hnew hroom
  have hidem : S'.filter (fun x => !(x.2.1 == Spec.uriPath p1.opts && x.2.2 == observation p1.opts)) = S' := by
    rw [← hS', List.filter_filter]; simp
  have hdrop : S'.filter (fun x => x.1 != p1.token) = S' := by
    rw [List.filter_eq_self]
    intro x hx
    simp only [bne_iff_ne, ne_eq]
    intro e
    exact hnew (List.mem_map.2 ⟨x, hx, e⟩)
  have o1 : outstandingAfter cfg.interactions pend p1 = some ((p1.token, Spec.uriPath p1.opts, observation p1.opts) :: S') := by
    unfold outstandingAfter
    rw [hr1, if_pos rfl]
    simp only [hS']
    rw [if_pos ⟨hlen, hnew⟩]
  have o2 : outstandingAfter cfg.interactions ((p1.token, Spec.uriPath p1.opts, observation p1.opts) :: S') p2 = some S' := by
    unfold outstandingAfter
    rw [hr2, if_neg (by simp), ht2, if_pos (by simp), hobs, if_neg (by simp)]
    simp [hdrop]
  have o3 : outstandingAfter cfg.interactions S' p3 = some ((p1.token, Spec.uriPath p1.opts, observation p1.opts) :: S') := by
    unfold outstandingAfter
    rw [hr3, if_pos rfl, hsame.1, hsame.2, ht3]
    simp only [hidem]
    rw [if_pos ⟨hlen, hnew⟩]
  have hpos : 0 < cfg.interactions := by omega
  have q1 : outstandingAfter cfg.interactions [] p1 = some [(p1.token, Spec.uriPath p1.opts, observation p1.opts)] := by
    unfold outstandingAfter; rw [hr1, if_pos rfl]; simp [hpos]
  have q2 : outstandingAfter cfg.interactions [(p1.token, Spec.uriPath p1.opts, observation p1.opts)] p2 = some [] := by
    unfold outstandingAfter; rw [hr2, if_neg (by simp), ht2, if_pos (by simp), hobs, if_neg (by simp)]; simp
  have q3 : outstandingAfter cfg.interactions [] p3 = some [(p1.token, Spec.uriPath p1.opts, observation p1.opts)] := by
    unfold outstandingAfter; rw [hr3, if_pos rfl, hsame.1, hsame.2, ht3]; simp [hpos]
  have hstale : p1.token ∉ stale.filter (fun t => t != p1.token) := by simp
  refine ⟨_, ⟨hj, rfl, by rw [if_neg (by simp)]; exact ⟨hf, rfl⟩⟩, ?_⟩
  refine ⟨_, ⟨p1, hp1, hs1, by rw [if_pos hA1]; exact ⟨_, _, _, by
    unfold exchange sendBy receiveBy
    simp only [o1, restarted, q1, hr1, if_neg hph, Bool.false_eq_true, if_false, if_true, false_and, reduceCtorEq]
    rfl, rfl⟩⟩, ?_⟩
  refine ⟨_, ⟨p2, hp2, hs2, by rw [if_neg (by rw [hB2]; simp)]; exact ⟨_, _, _, by
    unfold exchange sendBy receiveBy ownNumber
    simp only [o2, q2, hr2, hv, if_pos hvl, ht2, Bool.false_eq_true, if_false, if_true]
    rw [if_neg (by simp)], rfl⟩⟩, ?_⟩
  refine ⟨_, ⟨p3, hp3, hs3, by rw [if_pos hA3]; exact ⟨_, _, _, by
    unfold exchange sendBy receiveBy
    simp only [o3, q3, hr3, hv3, if_neg hph, Bool.false_eq_true, if_false, if_true, false_and, reduceCtorEq]
    rfl, rfl⟩⟩, trivial⟩

/-! ### non-vacuity -/

deriving instance DecidableEq for CMsg
deriving instance DecidableEq for Expect

/-- the events of a history with what is to happen, for messages of `exNetMsgs` -/
def exNetStep (cfg : Cfg) (pa pb : InitParams) (N : Net2) : NEv → Option (Net2 × Expect)
  | .send m lost =>
    match exchange cfg.interactions m (pktOf m.inp) lost (if m.fromA then N.A else N.B) (if m.fromA then N.B else N.A) N.link with
    | some (X, Y, l, e) => some (⟨if m.fromA then X else Y, if m.fromA then Y else X, l⟩, e)
    | none => none
  | .forged _ _ _ => some (N, .rejected)
  | .restart ofA jn je =>
    if jn.length = 13 ∧ (if ofA then pa.fresh else pb.fresh) = false then
      some (if ofA then ⟨restarted je, N.B, { N.link with same := false }⟩ else ⟨N.A, restarted je, { N.link with same := false }⟩, .nothing)
    else none

def exNetRun (cfg : Cfg) (pa pb : InitParams) : Net2 → List NEv → Option (List Expect)
  | _, [] => some []
  | N, ev :: evs =>
    match exNetStep cfg pa pb N ev with
    | none => none
    | some (N', e) => (exNetRun cfg pa pb N' evs).map (e :: ·)

def exNetMsgs : List Bytes := [exGet, exGet2, exRsp, exRsp2, exChallenge, exEchoed, exObs, exNotif]

theorem exNet_sendable : ∀ inp ∈ exNetMsgs, coapDeserialize inp = .ok (pktOf inp) ∧ Sendable exCfg (pktOf inp) 256 256 := by
  intro inp hi
  simp only [exNetMsgs, List.mem_cons, List.not_mem_nil, or_false] at hi
  rcases hi with rfl | rfl | rfl | rfl | rfl | rfl | rfl | rfl
  all_goals
    refine ⟨R.eq_getD _ (by decide +kernel), ?_⟩
    constructor
    · constructor
      · constructor <;> decide +kernel
      all_goals decide +kernel
    all_goals decide +kernel

theorem exNet_run {pa pb : InitParams} : ∀ (evs : List NEv) (N : Net2) (es : List Expect),
    (∀ m lost, NEv.send m lost ∈ evs → m.inp ∈ exNetMsgs ∧ m.capS = 256 ∧ m.capR = 256) →
    exNetRun exCfg pa pb N evs = some es → NetRun exCfg pa pb N evs es := by
  intro evs
  induction evs with
  | nil =>
    intro N es _ h
    simp only [exNetRun, Option.some.injEq] at h
    subst h
    trivial
  | cons ev evs ih =>
    intro N es hm h
    unfold exNetRun at h
    split at h
    · cases h
    · rename_i N' e hs
      simp only [Option.map_eq_some_iff] at h
      obtain ⟨es', h1, rfl⟩ := h
      refine ⟨N', ?_, ih N' es' (fun m l hml => hm m l (List.mem_cons_of_mem _ hml)) h1⟩
      cases ev with
      | send m lost =>
        obtain ⟨g1, g2, g3⟩ := hm m lost (List.mem_cons_self ..)
        obtain ⟨k1, k2⟩ := exNet_sendable _ g1
        refine ⟨_, k1, by rw [g2, g3]; exact k2, ?_⟩
        simp only [exNetStep] at hs
        split at hs
        · rename_i X Y l e' hx
          simp only [Option.some.injEq, Prod.mk.injEq] at hs
          obtain ⟨rfl, rfl⟩ := hs
          cases hf : m.fromA with
          | true => rw [hf] at hx; exact ⟨X, Y, l, hx, rfl⟩
          | false => rw [hf] at hx; exact ⟨X, Y, l, hx, rfl⟩
        · cases hs
      | forged toA pkt cap =>
        simp only [exNetStep, Option.some.injEq, Prod.mk.injEq] at hs
        exact ⟨hs.1.symm, hs.2.symm⟩
      | restart ofA jn je =>
        unfold exNetStep at hs
        dsimp only at hs
        by_cases hc : jn.length = 13 ∧ (if ofA then pa.fresh else pb.fresh) = false
        · rw [if_pos hc] at hs
          simp only [Option.some.injEq, Prod.mk.injEq] at hs
          obtain ⟨rfl, rfl⟩ := hs
          refine ⟨hc.1, rfl, ?_⟩
          cases ofA with
          | true => exact ⟨hc.2, rfl⟩
          | false => exact ⟨hc.2, rfl⟩
        · rw [if_neg hc] at hs; cases hs

def exJn : Bytes := List.replicate 13 0x55

/-- a POST as a forger would write it -/
def exForgery : Bytes := [0x41, 0x02, 0x12, 0x34, 0x4A, 0x90, 0xFF] ++ List.replicate 12 0x01

/-- a message of the client (`true`) or of the server -/
def exMsg (fromA : Bool) (inp : Bytes) : CMsg := ⟨fromA, inp, 256, 256⟩

/-- a lost request; the first one that arrives is refused; the challenge; a forgery; the request with the Echo value;
the response; the server restarts; an old-style request is refused; the challenge; the client restarts too; its request without
the Echo value is refused, the one with it is answered; an observation follows, of which one notification is lost -/
def exHistory : List NEv :=
  [.send (exMsg true exGet) true, .send (exMsg true exGet) false, .send (exMsg false exChallenge) false, .forged false exForgery 256,
   .send (exMsg true exEchoed) false, .send (exMsg false exRsp) false, .restart false exJn exJunk, .send (exMsg true exGet) false,
   .send (exMsg false exChallenge) false, .restart true exJn exJunk, .send (exMsg true exGet) false, .send (exMsg true exEchoed) false,
   .send (exMsg false exRsp) false, .send (exMsg true exObs) false, .send (exMsg false exNotif) true, .send (exMsg false exNotif) false]

def exExpected : List Expect :=
  [.nothing, .refused .first_request_after_reboot, .delivered (exMsg false exChallenge), .rejected,
   .delivered (exMsg true exEchoed), .delivered (exMsg false exRsp), .nothing, .refused .first_request_after_reboot,
   .delivered (exMsg false exChallenge), .nothing, .refused .echo_validation_failed, .delivered (exMsg true exEchoed),
   .delivered (exMsg false exRsp), .delivered (exMsg true exObs), .nothing, .delivered (exMsg false exNotif)]

theorem exHistory_run : NetRun exCfg (exClientParams false) (exServerParams false)
    ⟨started (exClientParams false) exJunk, started (exServerParams false) exJunk, ⟨false, []⟩⟩ exHistory exExpected := by
  refine exNet_run _ _ _ ?_ (by decide +kernel)
  intro m lost hm
  simp only [exHistory, List.mem_cons, NEv.send.injEq, reduceCtorEq, false_or, or_false, List.not_mem_nil] at hm
  have key : ∀ f inp, m = exMsg f inp → inp ∈ exNetMsgs → m.inp ∈ exNetMsgs ∧ m.capS = 256 ∧ m.capR = 256 := by
    rintro f inp rfl h
    exact ⟨h, rfl, rfl⟩
  rcases hm with h | h | h | h | h | h | h | h | h | h | h | h | h <;> exact key _ _ h.1 (by decide)

/-- the payload of the forgery carries no tag that the toy AEAD ever gives -/
theorem exForgery_forged (c : Ctx) : Rejected toyCrypto c exForgery := by
  have hpl : ∀ {p t}, coapParse exForgery = .ok (p, t) → p.payload = List.replicate 12 0x01 := by
    intro p t hp
    have : coapDeserialize exForgery = .ok (pktOf exForgery) := R.eq_getD _ (by decide +kernel)
    unfold coapDeserialize at this
    rw [hp] at this
    obtain rfl := R.ok.inj this
    decide +kernel
  intro nonce aad ct hc
  have hpl : ct = List.replicate 12 0x01 := by
    cases hc with
    | request ho => obtain ⟨t, o, g, -⟩ := ho; exact hpl g
    | ownPiv ho => obtain ⟨t, o, g, -⟩ := ho; exact hpl g
    | samePiv g => exact hpl g
  show (if _ then _ else _) = none
  rw [hpl, if_neg]
  rintro ⟨-, h⟩
  have h0 := congrArg (fun l => l.getD 0 0) h
  have h7 := congrArg (fun l => l.getD 7 0) h
  simp only [toyTag, toyBytes, tagLen, List.range, List.range.loop, List.map_cons, List.map_nil] at h0 h7
  generalize toyH _ = n at h0 h7
  change (1 : UInt8) = byte (n / 1 + 0) at h0
  change (1 : UInt8) = byte (n / 1 + 7) at h7
  have g0 := congrArg UInt8.toNat h0
  have g7 := congrArg UInt8.toNat h7
  simp [byte] at g0 g7
  omega

/-- those of `C76_recovery` are met -/
example : NetRun exCfg (exClientParams false) (exServerParams false)
    ⟨started (exClientParams false) exJunk, started (exServerParams false) exJunk, ⟨false, []⟩⟩
    [.restart false exJn exJunk, .send (exMsg true exGet) false, .send (exMsg false exChallenge) false, .send (exMsg true exEchoed) false]
    [.nothing, .refused .first_request_after_reboot, .delivered (exMsg false exChallenge), .delivered (exMsg true exEchoed)] :=
  C76_recovery (evs := []) (es := []) rfl rfl (by decide) rfl rfl rfl (exNet_sendable _ (by decide)).1 (exNet_sendable _ (by decide)).1
    (exNet_sendable _ (by decide)).1 (exNet_sendable _ (by decide)).2 (exNet_sendable _ (by decide)).2 (exNet_sendable _ (by decide)).2
    (by decide +kernel) (by decide +kernel) (by decide +kernel) (by decide +kernel) (by decide +kernel) (by decide +kernel) (by decide +kernel)
    (v := List.replicate 12 0x77) (by decide +kernel) (by decide) (by decide +kernel) (by decide) (S := [([0x4A], [0x74, 0x76], false)])
    (by decide +kernel)

/-- the hypotheses of `C76_partial` are met by this history -/
example : ∃ a b, contextInit exCfg toyCrypto (exClientParams false) (.ok 40) exJn exJunk = .ok a ∧
    contextInit exCfg toyCrypto (exServerParams false) (.ok 7) exJn exJunk = .ok b ∧
    ∀ z ∈ exExpected.zip (netRun exCfg toyCrypto (exClientParams false) (exServerParams false) (⟨a, 40, []⟩, ⟨b, 7, []⟩) exHistory),
      Matches z.1 z.2 := by
  have ha : contextInit exCfg toyCrypto (exClientParams false) (.ok 40) exJn exJunk = .ok _ := R.eq_getD exClient (by decide +kernel)
  have hb : contextInit exCfg toyCrypto (exServerParams false) (.ok 7) exJn exJunk = .ok _ := R.eq_getD exClient (by decide +kernel)
  refine ⟨_, _, ha, hb, (C76_partial (pa := exClientParams false) (pb := exServerParams false) toyCrypto_lawful toyCrypto_total (by decide) (by decide) ⟨rfl, rfl, rfl, rfl, rfl⟩ (by decide) (by decide)
    (by decide) (fun _ => by decide) (by decide) (by decide) ha hb (by decide) (by decide) [] [] exHistory exExpected exHistory_run ?_
    (by decide +kernel) (by decide +kernel)).2⟩
  refine noLuck_of (fun toA pkt cap hm => ?_)
  simp only [exHistory, List.mem_cons, NEv.forged.injEq, reduceCtorEq, false_or, or_false, List.not_mem_nil] at hm
  obtain ⟨-, rfl, -⟩ := hm
  exact exForgery_forged

/-- **C76 is false for responses after a lost message**: the client sends a request, which arrives, and another one,
for another resource, which is lost.  The response to the first one cannot be read any more: the library remembers one nonce,
that of the newest message, and not those of the open requests. -/
theorem C76_false_nonce :
    let c1 := afterSend exCfg (exW exClient) exGet
    let s1 := afterRecv exCfg (exW exServer) (sendOf exCfg (exW exClient) exGet)
    let c2 := afterSend exCfg c1 exGet2
    let rsp := sendOf exCfg s1 exRsp
    (step exCfg toyCrypto (exW exServer) (.unprotect (sendOf exCfg (exW exClient) exGet) 256)).1 = .ok exGet ∧
      (step exCfg toyCrypto s1 (.protect exRsp 256 none)).1 = .ok rsp ∧
      (step exCfg toyCrypto c1 (.unprotect rsp 256)).1 = .ok exRsp ∧
      (step exCfg toyCrypto c2 (.unprotect rsp 256)).1 = .err .unexpected_result_from_ext_lib := by
  decide +kernel

end Verif
