import Verif.Props.Agreement
import Verif.Props.Composite
import Verif.Props.EdhocInjective
/-
C97: from the identity established by EDHOC to the messages delivered by OSCORE.  Many devices, many runs of EDHOC over a
network that belongs to the attacker, an OSCORE context for each: what one of them hands to its application was passed to
`coap2oscore` by the application at the other end of the same run of EDHOC.
-/
namespace Verif.Edhoc
open Verif Verif.Cbor

/-! ### specification -/

/-- the OSCORE context made after a run of EDHOC and the calls made with it -/
structure Use where
  idContext : Bytes
  cfg : Cfg
  nv : R Nat
  jn : Bytes
  je : Bytes
  nvm : Nat
  hist : List Op

/-- one end of an association: a run of EDHOC followed by the use of OSCORE -/
inductive Endpoint
  | init (r : IRun) (u : Use)
  | resp (r : RRun) (u : Use)

def Endpoint.use : Endpoint → Use
  | .init _ u => u
  | .resp _ u => u

/-- EDHOC returned ok with the 32-byte PRK_out `prk`; the OSCORE parameters are taken from it as in the samples (initiator:
Sender ID C_R, Recipient ID C_I; responder the other way round), and `oscore_context_init` made the context `c` of them. -/
def Endpoint.Up (C : ECrypto) : Endpoint → Bytes → Ctx → Prop
  | .init r u, prk, c => r.Completed C ∧ r.L = 32 ∧ r.o.prkOut = some prk ∧
      ∃ p, oscoreParams r.cfg C prk r.o.cR r.c.cI u.idContext = .ok p ∧ contextInit u.cfg C.toCrypto p u.nv u.jn u.je = .ok c
  | .resp r u, prk, c => r.Completed C ∧ r.L = 32 ∧ r.o.prkOut = prk ∧
      ∃ p, oscoreParams r.cfg C prk r.o.cI r.c.cR u.idContext = .ok p ∧ contextInit u.cfg C.toCrypto p u.nv u.jn u.je = .ok c

/-- the state after the calls `h` -/
def Endpoint.after (C : ECrypto) (E : Endpoint) (c : Ctx) (h : List Op) : World :=
  run E.use.cfg C.toCrypto ⟨c, E.use.nvm, []⟩ h

/-- the AEAD encryptions done by this end -/
def Endpoint.encrypted (C : ECrypto) (E : Endpoint) (c : Ctx) : List EncCall := (E.after C c E.use.hist).log

/-- message_1 and G_Y of the run, as seen at this end: an initiator sent message_1 and received message_2 with G_Y, a
responder received message_1 and G_Y is its own. -/
def Endpoint.Exchanged : Endpoint → Bytes → Bytes → Prop
  | .init r _, m1, gY => (∃ later, r.n'.sent = r.n.sent ++ m1 :: later) ∧
      ∃ m2 c2, r.n.rxq.head? = some (.inr m2) ∧ msg2Parse r.cfg m2 (ctxt2Len m2.length) = .ok (gY, c2)
  | .resp r _, m1, gY => r.n.rxq.head? = some (.inr m1) ∧ r.c.gY = gY

/-- the strings this end handed to the hash and the HMAC during EDHOC (`EdhocInputs.lean`) -/
def Endpoint.Hashed (C : ECrypto) : Endpoint → Inputs → Prop
  | .init r _, w => ∃ m2, r.n.rxq.head? = some (.inr m2) ∧ initInputs r.cfg C r.c r.creds r.crBuf m2 32 = .ok w
  | .resp r _, w => ∃ m1 m3 q, r.n.rxq = .inr m1 :: .inr m3 :: q ∧ respInputs r.cfg C r.c r.creds r.cICap m1 m3 32 = .ok w

/-- the OSCORE key for an ID: RFC 9528 A.1 and RFC 8613 3.2.1 -/
def oscoreKey (C : ECrypto) (prk idContext id : Bytes) : Bytes :=
  rfc8613Kdf C.hmac
    { masterSecret := EdhocSpec.kdf C.hmac (EdhocSpec.kdf C.hmac prk 10 [] 32) 0 [] 16
      masterSalt := EdhocSpec.kdf C.hmac (EdhocSpec.kdf C.hmac prk 10 [] 32) 1 [] 8
      senderId := [], recipientId := [], idContext := idContext, fresh := true } id "Key" 16

/-- Two ends found a collision: different strings at the same place of the two EDHOC runs with the same hash (or HMAC), or
another PRK_out, ID context or ID with the same OSCORE key (the one's sender key, the other's recipient key). -/
def Collided (C : ECrypto) (E : Endpoint) (prk : Bytes) (c : Ctx) (E' : Endpoint) (prk' : Bytes) (c' : Ctx) : Prop :=
  (∃ w w', E.Hashed C w ∧ E'.Hashed C w' ∧ Clash C w w') ∨
  ((prk, E.use.idContext, c.recipientId) ≠ (prk', E'.use.idContext, c'.senderId) ∧
    oscoreKey C prk E.use.idContext c.recipientId = oscoreKey C prk' E'.use.idContext c'.senderId)

/-- The AEAD is not forged: what the end `E` can decrypt of the packets that reach it, with the nonce and the associated data
it checks them with, an end of `S` encrypted under the same key. -/
def Unforged (C : ECrypto) (S : Endpoint → Prop) (E : Endpoint) (c : Ctx) : Prop :=
  ∀ before inp cap later, E.use.hist = before ++ Op.unprotect inp cap :: later →
    ∀ n a ct pt, Checked (E.after C c before).ctx inp n a ct → C.aeadDec c.recipientKey n a 8 ct = some pt →
      ∃ E' prk' c', S E' ∧ E'.Up C prk' c' ∧
        ∃ e ∈ E'.encrypted C c', e.key = c.recipientKey ∧ e.nonce = n ∧ encStructure e.aad = .ok a ∧ e.pt = pt

/-- the two have the same role and the same ephemeral key -/
def SameEphemeral : Endpoint → Endpoint → Prop
  | .init r _, .init r' _ => r.c.gX = r'.c.gX
  | .resp r _, .resp r' _ => r.c.gY = r'.c.gY
  | _, _ => False

/-- one is an initiator, the other a responder -/
def Opposite : Endpoint → Endpoint → Prop
  | .init _ _, .resp _ _ => True
  | .resp _ _, .init _ _ => True
  | _, _ => False

/-- `E'` is the other end of the association of `E`: it has the other role, the same PRK_out, exchanged the same message_1 and
G_Y, and its sender ID is the recipient ID of `E`. -/
structure OtherEnd (C : ECrypto) (E : Endpoint) (prk : Bytes) (c : Ctx) (E' : Endpoint) (c' : Ctx) : Prop where
  role : Opposite E E'
  up : E'.Up C prk c'
  exchange : ∃ m1 gY, E.Exchanged m1 gY ∧ E'.Exchanged m1 gY
  id : c'.senderId = c.recipientId
  key : c'.senderKey = c.recipientKey
  idContext : E'.use.idContext = E.use.idContext

/-- lengths that CBOR can express and a method number that exists, for an initiator's parameters -/
def Endpoint.Sane : Endpoint → Prop
  | .init r u => 0 ≤ r.c.method ∧ r.c.method ≤ 3 ∧ r.c.gX.length < 2 ^ 32 ∧ r.c.cI.length < 2 ^ 32 ∧ r.c.ead1.length < 2 ^ 32 ∧
      50 ≤ u.cfg.infoMax
  | .resp _ u => 50 ≤ u.cfg.infoMax

/-! ### proof -/

theorem run_key (cfg : Cfg) (C : Crypto) (w : World) (h : List Op) (hw : ∀ e ∈ w.log, e.key = w.ctx.senderKey) :
    ∀ e ∈ (run cfg C w h).log, e.key = w.ctx.senderKey := by
  induction h generalizing w with
  | nil => exact hw
  | cons op h ih =>
    rw [run_cons]
    have hi := (step_identity cfg C w op).senderKey
    intro e he
    rw [← hi]
    refine ih _ (fun e he => ?_) e he
    rw [hi]
    cases step_log cfg C w op with
    | none h1 => rw [h1] at he; exact hw e he
    | fresh e' _ h1 _ _ _ _ hk =>
      rw [h1] at he
      rcases List.mem_cons.1 he with rfl | he
      · exact hk
      · exact hw e he
    | reuse e' h1 _ _ _ hk =>
      rw [h1] at he
      rcases List.mem_cons.1 he with rfl | he
      · exact hk
      · exact hw e he

/-- the values behind one end's PRK_out -/
structure Chain (C : ECrypto) (k m1 gY p2 credR p3 credI th2 th3 th4 prk4 : Bytes) : Prop where
  hth2 : th2Calc C (C.hash m1) gY = .ok th2
  hth3 : ∃ cfg, th34Calc cfg C th2 p2 credR = .ok th3
  hth4 : ∃ cfg, th34Calc cfg C th3 p3 credI = .ok th4
  out : ∃ cfg, edhocKdf cfg C prk4 labelPrkOut th4 32 = .ok k

def chainInputs (C : ECrypto) (m1 gY p2 credR p3 credI th2 th3 th4 prk4 : Bytes) : Inputs :=
  ⟨[m1, th2In gY (C.hash m1), thIn th2 p2 credR, thIn th3 p3 credI], [(prk4, kdfIn 7 th4 32)]⟩

theorem chain_agree {C : ECrypto} (hC : C.Lawful) {k m1 gY p2 credR p3 credI th2 th3 th4 prk4 : Bytes}
    {m1' gY' p2' credR' p3' credI' th2' th3' th4' prk4' : Bytes}
    (h : Chain C k m1 gY p2 credR p3 credI th2 th3 th4 prk4)
    (h' : Chain C k m1' gY' p2' credR' p3' credI' th2' th3' th4' prk4') :
    Clash C (chainInputs C m1 gY p2 credR p3 credI th2 th3 th4 prk4)
      (chainInputs C m1' gY' p2' credR' p3' credI' th2' th3' th4' prk4') ∨ (m1 = m1' ∧ gY = gY') := by
  have b32 : (32 : Nat) < 2 ^ 32 := by decide
  obtain ⟨t2, ⟨c3, t3⟩, ⟨c4, t4⟩, ⟨ck, tk⟩⟩ := h
  obtain ⟨t2', ⟨c3', t3'⟩, ⟨c4', t4'⟩, ⟨ck', tk'⟩⟩ := h'
  rcases kdf_binds hC tk tk' (by omega) (by omega) (by decide) (by decide)
    (by rw [th34_length hC t4]; omega) (by rw [th34_length hC t4']; omega) with h | ⟨-, -, h2⟩
  · exact .inl (.inr ⟨_, List.mem_singleton.2 rfl, h⟩)
  rw [← h2] at t4'
  rcases C47_th34_binds t4 t4' (by rw [th34_length hC t3]; omega) (by rw [th34_length hC t3']; omega) with ⟨g3, -, -⟩ | h
  case inr => exact .inl (.inl ⟨(_, _), mem4 (.inr (.inr (.inr rfl))), h⟩)
  rw [← g3] at t3'
  rcases C47_th34_binds t3 t3' (by rw [th2_length hC t2]; omega) (by rw [th2_length hC t2']; omega) with ⟨g2, -, -⟩ | h
  case inr => exact .inl (.inl ⟨(_, _), mem4 (.inr (.inr (.inl rfl))), h⟩)
  rw [← g2] at t2'
  have a := th2_gY_len t2
  have a' := th2_gY_len t2'
  rcases C47_th2_binds t2 t2' (by omega) (by omega)
    (by rw [hC.base.hash_len]; omega) (by rw [hC.base.hash_len]; omega) with ⟨eg, eh⟩ | h
  case inr => exact .inl (.inl ⟨(_, _), mem4 (.inr (.inl rfl)), h⟩)
  by_cases hm : m1 = m1'
  · exact .inr ⟨hm, eg⟩
  · exact .inl (.inl ⟨(m1, m1'), mem4 (.inl rfl), hm, eh⟩)

theorem Endpoint.Up.chain {C : ECrypto} (hC : C.Lawful) {E : Endpoint} {prk : Bytes} {c : Ctx} (h : E.Up C prk c) :
    ∃ m1 gY p2 credR p3 credI th2 th3 th4 prk4, Chain C prk m1 gY p2 credR p3 credI th2 th3 th4 prk4 ∧
      E.Hashed C (chainInputs C m1 gY p2 credR p3 credI th2 th3 th4 prk4) ∧ E.Exchanged m1 gY := by
  cases E with
  | init r u =>
    obtain ⟨h1, h2, h3, -⟩ := h
    unfold IRun.Completed at h1
    obtain ⟨m1, m2, gY, c2, p2, credR, pkR, p3, th2, th3, suite, sp, f⟩ := initiator_facts hC h1 h3
    have fo := f.out
    have fi := f.inputs
    rw [h2] at fo fi
    exact ⟨m1, gY, p2, credR, p3, r.c.credI, th2, th3, r.o.th4, r.o.prk4e3m, ⟨f.hth2, ⟨_, f.hth3⟩, ⟨_, f.hth4⟩, ⟨_, fo⟩⟩,
      ⟨m2, f.rcv, fi⟩, f.first, m2, c2, f.rcv, f.parse2⟩
  | resp r u =>
    obtain ⟨h1, h2, h3, -⟩ := h
    unfold RRun.Completed at h1
    obtain ⟨m1, m3, q, p2, p3, credI, th2, th3, p, sp, hq, f⟩ := responder_facts hC h1
    have fo := f.out
    have fi := f.inputs
    rw [h2] at fo fi
    rw [h3] at fo
    exact ⟨m1, r.c.gY, p2, r.c.credR, p3, credI, th2, th3, r.o.th4, r.o.prk4e3m, ⟨f.hth2, ⟨_, f.hth3⟩, ⟨_, f.hth4⟩, ⟨_, fo⟩⟩,
      ⟨m1, m3, q, hq, fi⟩, f.rcv, rfl⟩

/-- the IDs of the context, the keys by RFC, and that the context is determined -/
theorem Endpoint.Up.keys {C : ECrypto} (hC : C.Lawful) {E : Endpoint} {prk : Bytes} {c : Ctx} (h : E.Up C prk c)
    (hs : E.Sane) : c.recipientKey = oscoreKey C prk E.use.idContext c.recipientId ∧
      c.senderKey = oscoreKey C prk E.use.idContext c.senderId := by
  cases E with
  | init r u =>
    obtain ⟨-, -, -, p, h1, h2⟩ := h
    rw [oscoreParams_rfc hC] at h1
    obtain rfl := R.ok.inj h1
    obtain ⟨k1, k2, -⟩ := C28_keys hC.base hs.2.2.2.2.2 h2
    obtain ⟨iv, rk, ssn, sk, _, _, _, _, _, _, _, rfl⟩ := contextInit_ok h2
    exact ⟨k2, k1⟩
  | resp r u =>
    obtain ⟨-, -, -, p, h1, h2⟩ := h
    rw [oscoreParams_rfc hC] at h1
    obtain rfl := R.ok.inj h1
    obtain ⟨k1, k2, -⟩ := C28_keys hC.base hs h2
    obtain ⟨iv, rk, ssn, sk, _, _, _, _, _, _, _, rfl⟩ := contextInit_ok h2
    exact ⟨k2, k1⟩

theorem Endpoint.Up.unique {C : ECrypto} {E : Endpoint} {prk prk' : Bytes} {c c' : Ctx} (h : E.Up C prk c)
    (h' : E.Up C prk' c') : prk = prk' ∧ c = c' := by
  cases E with
  | init r u =>
    obtain ⟨-, -, h1, p, h2, h3⟩ := h
    obtain ⟨-, -, h1', p', h2', h3'⟩ := h'
    obtain rfl := Option.some.inj (h1.symm.trans h1')
    obtain rfl := R.ok.inj (h2.symm.trans h2')
    exact ⟨rfl, R.ok.inj (h3.symm.trans h3')⟩
  | resp r u =>
    obtain ⟨-, -, h1, p, h2, h3⟩ := h
    obtain ⟨-, -, h1', p', h2', h3'⟩ := h'
    obtain rfl := h1.symm.trans h1'
    obtain rfl := R.ok.inj (h2.symm.trans h2')
    exact ⟨rfl, R.ok.inj (h3.symm.trans h3')⟩

/-- initiators that sent the same message_1 have the same ephemeral key -/
theorem init_gX {C : ECrypto} {r r' : IRun} {u u' : Use} {m1 : Bytes} (h : r.Completed C) (h' : r'.Completed C)
    (hs : (Endpoint.init r u).Sane) (hs' : (Endpoint.init r' u').Sane) (hm : ∃ l, r.n'.sent = r.n.sent ++ m1 :: l)
    (hm' : ∃ l, r'.n'.sent = r'.n.sent ++ m1 :: l) : r.c.gX = r'.c.gX := by
  obtain ⟨m, su, h1, e1, l, e2⟩ := initiator_first h
  obtain ⟨m', su', h1', e1', l', e2'⟩ := initiator_first h'
  obtain ⟨k, hk⟩ := hm
  obtain ⟨k', hk'⟩ := hm'
  have a : m = m1 := by rw [e2] at hk; exact (List.cons.inj (List.append_cancel_left hk)).1
  have a' : m' = m1 := by rw [e2'] at hk'; exact (List.cons.inj (List.append_cancel_left hk')).1
  subst a
  subst a'
  obtain ⟨f1, _, f2, _⟩ := msg1Gen_ok e1
  obtain ⟨g1, _, g2, _⟩ := msg1Gen_ok e1'
  obtain ⟨s1, s2, s3, s4, s5, -⟩ := hs
  obtain ⟨s1', s2', s3', s4', s5', -⟩ := hs'
  exact message1_gX ⟨s1, s2⟩ ⟨s1', s2'⟩ (by omega) (by omega) s3 s3' s4 s4' s5 s5' (f1.symm.trans g1)

theorem Endpoint.Up.same_role {C : ECrypto} {E E' : Endpoint} {prk prk' m1 gY : Bytes} {c c' : Ctx} (h : E.Up C prk c)
    (h' : E'.Up C prk' c') (hs : E.Sane) (hs' : E'.Sane) (hx : E.Exchanged m1 gY) (hx' : E'.Exchanged m1 gY) :
    Opposite E E' ∨ SameEphemeral E E' := by
  cases E with
  | init r u =>
    cases E' with
    | init r' u' => exact .inr (init_gX h.1 h'.1 hs hs' hx.1 hx'.1)
    | resp r' u' => exact .inl trivial
  | resp r u =>
    cases E' with
    | init r' u' => exact .inl trivial
    | resp r' u' => exact .inr (hx.2.trans hx'.2.symm)

/-- who encrypted under this end's recipient key is the other end -/
theorem other_end {C : ECrypto} (hC : C.Lawful) {E E' : Endpoint} {prk prk' : Bytes} {c c' : Ctx} (h : E.Up C prk c)
    (h' : E'.Up C prk' c') (hs : E.Sane) (hs' : E'.Sane) (hk : c'.senderKey = c.recipientKey)
    (hids : c.senderId ≠ c.recipientId) (hown : SameEphemeral E E' → E' = E) :
    Collided C E prk c E' prk' c' ∨ (prk' = prk ∧ OtherEnd C E prk c E' c') := by
  have k1 := (h.keys hC hs).1
  have k2 := (h'.keys hC hs').2
  by_cases hne : (prk, E.use.idContext, c.recipientId) = (prk', E'.use.idContext, c'.senderId)
  case neg => exact .inl (.inr ⟨hne, by rw [← k1, ← k2, hk]⟩)
  simp only [Prod.mk.injEq] at hne
  obtain ⟨rfl, hctx, hid⟩ := hne
  obtain ⟨m1, gY, p2, credR, p3, credI, th2, th3, th4, prk4, ch, hh, hx⟩ := h.chain hC
  obtain ⟨m1', gY', p2', credR', p3', credI', th2', th3', th4', prk4', ch', hh', hx'⟩ := h'.chain hC
  rcases chain_agree hC ch ch' with hc | ⟨rfl, rfl⟩
  · exact .inl (.inl ⟨_, _, hh, hh', hc⟩)
  · refine .inr ⟨rfl, ?_, h', ⟨_, _, hx, hx'⟩, hid.symm, hk, hctx.symm⟩
    rcases h.same_role h' hs hs' hx hx' with ho | he
    · exact ho
    · obtain rfl := hown he
      obtain ⟨-, rfl⟩ := h.unique h'
      exact absurd hid.symm hids

theorem Opposite.role {E E1 E2 : Endpoint} (h1 : Opposite E E1) (h2 : Opposite E E2) (h : Opposite E1 E2) : False := by
  cases E <;> cases E1 <;> cases E2 <;> first | exact h1 | exact h2 | exact h

theorem Exchanged_unique {E : Endpoint} {m1 m1' gY gY' : Bytes} (h : E.Exchanged m1 gY) (h' : E.Exchanged m1' gY') :
    m1 = m1' ∧ gY = gY' := by
  cases E with
  | init r u =>
    obtain ⟨⟨l, e⟩, m2, c2, e1, e2⟩ := h
    obtain ⟨⟨l', e'⟩, m2', c2', e1', e2'⟩ := h'
    rw [e] at e'
    rw [e1] at e1'
    obtain rfl := Sum.inr.inj (Option.some.inj e1')
    rw [e2] at e2'
    exact ⟨(List.cons.inj (List.append_cancel_left e')).1, (Prod.mk.inj (R.ok.inj e2')).1⟩
  | resp r u =>
    obtain ⟨e1, e2⟩ := h
    obtain ⟨e1', e2'⟩ := h'
    rw [e1] at e1'
    exact ⟨Sum.inr.inj (Option.some.inj e1'), e2.symm.trans e2'⟩

/-- **C97** (core) One end `E` of one run of EDHOC among any number of others (`S`), on a network that belongs to the attacker,
with ephemeral keys that are not repeated.  If the AEAD is not forged and no collision is found, then either no packet that
reaches `E` is ever accepted by the AEAD, or there is exactly one end `P` of `S` that all accepted packets come from, and it
is the other end of the run: other role, same PRK_out, same message_1, same G_Y. -/
theorem C97_one_other_end {C : ECrypto} (hC : C.Lawful) {S : Endpoint → Prop} {E : Endpoint} {prk : Bytes} {c : Ctx}
    (h : E.Up C prk c) (hs : E.Sane) (hS : ∀ E', S E' → E'.Sane) (hids : c.senderId ≠ c.recipientId)
    (hforge : Unforged C S E c)
    (hcol : ∀ E' prk' c', S E' → E'.Up C prk' c' → ¬ Collided C E prk c E' prk' c')
    (hown : ∀ E', S E' → SameEphemeral E E' → E' = E)
    (hfresh : ∀ E1 E2, S E1 → S E2 → SameEphemeral E1 E2 → E1 = E2) :
    (∀ before inp cap later, E.use.hist = before ++ Op.unprotect inp cap :: later →
      Rejected C.toCrypto (E.after C c before).ctx inp) ∨
    ∃ P cP, S P ∧ OtherEnd C E prk c P cP ∧
      (∀ P' cP', S P' → OtherEnd C E prk c P' cP' → P' = P ∧ cP' = cP) ∧
      ∀ before inp cap later, E.use.hist = before ++ Op.unprotect inp cap :: later →
        AuthenticFor C.toCrypto (E.after C c before).ctx inp (P.encrypted C cP) := by
  have hrk : ∀ before, (E.after C c before).ctx.recipientKey = c.recipientKey :=
    fun before => (run_identity E.use.cfg C.toCrypto ⟨c, E.use.nvm, []⟩ before).recipientKey
  have uniq : ∀ P cP P' cP', S P → OtherEnd C E prk c P cP → S P' → OtherEnd C E prk c P' cP' → P' = P ∧ cP' = cP := by
    intro P cP P' cP' hP oP hP' oP'
    obtain ⟨m1, gY, x1, x2⟩ := oP.exchange
    obtain ⟨m1', gY', x1', x2'⟩ := oP'.exchange
    obtain ⟨rfl, rfl⟩ := Exchanged_unique x1 x1'
    have : P' = P := by
      rcases oP'.up.same_role oP.up (hS _ hP') (hS _ hP) x2' x2 with ho | he
      · exact (Opposite.role oP'.role oP.role ho).elim
      · exact hfresh _ _ hP' hP he
    subst this
    exact ⟨rfl, (oP'.up.unique oP.up).2⟩
  have find : ∀ before inp cap later, E.use.hist = before ++ Op.unprotect inp cap :: later →
      ∀ n a ct pt, Checked (E.after C c before).ctx inp n a ct → C.aeadDec c.recipientKey n a 8 ct = some pt →
      ∃ P cP, S P ∧ OtherEnd C E prk c P cP ∧ ∃ e ∈ P.encrypted C cP, e.nonce = n ∧ encStructure e.aad = .ok a ∧ e.pt = pt := by
    intro before inp cap later hh n a ct pt hc hd
    obtain ⟨E', prk', c', hE, hup, e, he, hkey, hrest⟩ := hforge before inp cap later hh n a ct pt hc hd
    have hk : c'.senderKey = c.recipientKey := by
      rw [← hkey]
      exact (run_key E'.use.cfg C.toCrypto ⟨c', E'.use.nvm, []⟩ E'.use.hist (by simp) e he).symm
    rcases other_end hC h hup hs (hS _ hE) hk hids (hown _ hE) with hx | ⟨rfl, ho⟩
    · exact absurd hx (hcol _ _ _ hE hup)
    · exact ⟨E', c', hE, ho, e, he, hrest⟩
  by_cases hany : ∃ before inp cap later, E.use.hist = before ++ Op.unprotect inp cap :: later ∧
      ∃ n a ct pt, Checked (E.after C c before).ctx inp n a ct ∧ C.aeadDec c.recipientKey n a 8 ct = some pt
  · right
    obtain ⟨before, inp, cap, later, hh, n, a, ct, pt, hc, hd⟩ := hany
    obtain ⟨P, cP, hP, oP, -⟩ := find before inp cap later hh n a ct pt hc hd
    refine ⟨P, cP, hP, oP, fun P' cP' hP' oP' => uniq P cP P' cP' hP oP hP' oP', ?_⟩
    intro before inp cap later hh n a ct pt hc hd
    rw [hrk] at hd
    obtain ⟨P', cP', hP', oP', he⟩ := find before inp cap later hh n a ct pt hc hd
    obtain ⟨rfl, rfl⟩ := uniq P cP P' cP' hP oP hP' oP'
    exact he
  · left
    intro before inp cap later hh n a ct hc
    cases hd : C.aeadDec (E.after C c before).ctx.recipientKey n a 8 ct with
    | none => rfl
    | some pt =>
      rw [hrk] at hd
      exact absurd ⟨before, inp, cap, later, hh, n, a, ct, pt, hc, hd⟩ hany

/-- nothing is delivered that the AEAD rejects -/
theorem not_delivered {cfg : Cfg} {C : Crypto} {c : Ctx} {inp : Bytes} {cap : Nat} {out : Bytes} (h : Rejected C c inp) :
    (oscore2coap cfg C inp cap c).1 ≠ .ok out := by
  intro hd
  obtain ⟨p, t, o, _, hp, _⟩ := delivered_parses hd
  obtain ⟨_, _, pt, _, _, n, _, a, G⟩ := delivered_got (c' := (oscore2coap cfg C inp cap c).2) hp (Prod.ext hd rfl)
  have := G.dec
  rw [h _ _ _ G.chk] at this
  cases this

theorem unprotect_outcome (E : Endpoint) (C : ECrypto) (c : Ctx) (before : List Op) (inp : Bytes) (cap : Nat) :
    (step E.use.cfg C.toCrypto (E.after C c before) (.unprotect inp cap)).1 =
      (oscore2coap E.use.cfg C.toCrypto inp cap (E.after C c before).ctx).1 := rfl

/-- **C97** (requests) Under the assumptions of `C97_one_other_end`, when the applications pass requests to `coap2oscore` that the
library can carry: what `E` hands to its application as requests with numbers below 256 are calls of the application at
the other end `P` of the same EDHOC run, each of them at most once.

Partial for the reasons of C90. -/
theorem C97_requests_partial {C : ECrypto} (hC : C.Lawful) {S : Endpoint → Prop} {E : Endpoint} {prk : Bytes} {c : Ctx}
    (h : E.Up C prk c) (hs : E.Sane) (hS : ∀ E', S E' → E'.Sane) (hids : c.senderId ≠ c.recipientId)
    (hforge : Unforged C S E c)
    (hcol : ∀ E' prk' c', S E' → E'.Up C prk' c' → ¬ Collided C E prk c E' prk' c')
    (hown : ∀ E', S E' → SameEphemeral E E' → E' = E)
    (hfresh : ∀ E1 E2, S E1 → S E2 → SameEphemeral E1 E2 → E1 = E2)
    (hW : 0 < E.use.cfg.windowSize)
    (hok : ∀ E', S E' → ∀ inp0 cap0 nvmW p0, Op.protect inp0 cap0 nvmW ∈ E'.use.hist → coapDeserialize inp0 = .ok p0 →
      InnerOk E'.use.cfg p0 ∧ isRequest p0 = true) :
    requestsDelivered E.use.cfg C.toCrypto ⟨c, E.use.nvm, []⟩ E.use.hist = [] ∨
    ∃ P cP, S P ∧ OtherEnd C E prk c P cP ∧ ∃ calls : List Nat, calls.Nodup ∧
      calls.length = ((requestsDelivered E.use.cfg C.toCrypto ⟨c, E.use.nvm, []⟩ E.use.hist).filter earlyNumber).length ∧
      ∀ x ∈ calls.zip ((requestsDelivered E.use.cfg C.toCrypto ⟨c, E.use.nvm, []⟩ E.use.hist).filter earlyNumber),
        SentInCall P.use.hist x.1 x.2 := by
  rcases C97_one_other_end hC h hs hS hids hforge hcol hown hfresh with hrej | ⟨P, cP, hP, oP, -, hauth⟩
  · left
    rw [List.eq_nil_iff_forall_not_mem]
    intro d hd
    obtain ⟨a, cap, b, hh, hst, -⟩ := requestsDelivered_mem hd
    exact not_delivered (cfg := E.use.cfg) (cap := cap) (hrej a d.1 cap b hh) hst
  · right
    have hinit : ∃ prm, contextInit E.use.cfg C.toCrypto prm E.use.nv E.use.jn E.use.je = .ok c := by
      cases E with
      | init r u => exact ⟨_, h.2.2.2.choose_spec.2⟩
      | resp r u => exact ⟨_, h.2.2.2.choose_spec.2⟩
    obtain ⟨prm, hinit⟩ := hinit
    exact ⟨P, cP, hP, oP, C90_partial P.use.cfg E.use.cfg C.toCrypto prm E.use.nv E.use.jn E.use.je c E.use.nvm [] hW hinit
      ⟨cP, P.use.nvm, []⟩ P.use.hist E.use.hist rfl (hok P hP) hauth⟩

/-- **C97** (every message) Under the assumptions of `C97_one_other_end`: whatever `E` hands to its application, request or response,
in any call, was passed to `coap2oscore` by the application at the other end of the same EDHOC run.

Partial as in C61 (outer options). -/
theorem C97_messages_partial {C : ECrypto} (hC : C.Lawful) {S : Endpoint → Prop} {E : Endpoint} {prk : Bytes} {c : Ctx}
    (h : E.Up C prk c) (hs : E.Sane) (hS : ∀ E', S E' → E'.Sane) (hids : c.senderId ≠ c.recipientId)
    (hforge : Unforged C S E c)
    (hcol : ∀ E' prk' c', S E' → E'.Up C prk' c' → ¬ Collided C E prk c E' prk' c')
    (hown : ∀ E', S E' → SameEphemeral E E' → E' = E)
    (hfresh : ∀ E1 E2, S E1 → S E2 → SameEphemeral E1 E2 → E1 = E2)
    (hok : ∀ E', S E' → ∀ inp0 cap0 nvmW p0, Op.protect inp0 cap0 nvmW ∈ E'.use.hist → coapDeserialize inp0 = .ok p0 →
      InnerOk E'.use.cfg p0) :
    (∀ before inp cap later out, E.use.hist = before ++ Op.unprotect inp cap :: later →
      (oscore2coap E.use.cfg C.toCrypto inp cap (E.after C c before).ctx).1 ≠ .ok out) ∨
    ∃ P cP, S P ∧ OtherEnd C E prk c P cP ∧
      ∀ before inp cap later out, E.use.hist = before ++ Op.unprotect inp cap :: later →
        (oscore2coap E.use.cfg C.toCrypto inp cap (E.after C c before).ctx).1 = .ok out →
        ∃ (i : Nat) (inp0 : Bytes) (cap0 : Nat) (nvmW : Option Err) (p0 p : Pkt) (opts : List (Nat × Bytes)),
          P.use.hist[i]? = some (.protect inp0 cap0 nvmW) ∧ coapDeserialize inp0 = .ok p0 ∧
          coapDeserialize inp = .ok p ∧ DeliveredAs p p0 out opts := by
  rcases C97_one_other_end hC h hs hS hids hforge hcol hown hfresh with hrej | ⟨P, cP, hP, oP, -, hauth⟩
  · exact .inl fun before inp cap later out hh => not_delivered (hrej before inp cap later hh)
  · refine .inr ⟨P, cP, hP, oP, fun before inp cap later out hh hd => ?_⟩
    obtain ⟨p, t, o, _, hp, _⟩ := delivered_parses hd
    obtain ⟨h1, h2, inp0, cap0, nvmW, p0, opts, _, _, _, _, _, _, _, _, _, hhist, hp0, hD, _⟩ :=
      delivered_core P.use.cfg E.use.cfg C.toCrypto ⟨cP, P.use.nvm, []⟩ P.use.hist rfl (hok P hP) inp out cap _ _ p hp
        (hauth before inp cap later hh) (Prod.ext hd rfl)
    exact ⟨h1.length, inp0, cap0, nvmW, p0, p, opts, by rw [hhist]; simp, hp0, hp, hD⟩

/-- **C97** (identity) When a responder `r` is the receiving end, the other end is the initiator it authenticated: the key its
`edhoc_responder_run` returned to the application belongs to that initiator's ID_CRED_I.  (Buffers large enough, ID_CREDs of
the supported forms, no collision.) -/
theorem C97_identity {C : ECrypto} (hC : C.Lawful) {r : RRun} {u u' : Use} {r' : IRun} {prk wI wR : Bytes} {c c' : Ctx}
    (h : (Endpoint.resp r u).Up C prk c) (ho : OtherEnd C (.resp r u) prk c (.init r' u') c')
    (hcol : ¬ Collided C (.resp r u) prk c (.init r' u') prk c')
    (hs : (Endpoint.init r' u').Sane) (hgx : r'.c.gX.length ≤ 32)
    (hsu : r'.c.suitesI.length ≤ r.cfg.suitesISize) (hc : r'.c.cI.length ≤ r.cICap)
    (he : r'.c.ead1.length ≤ r.cfg.eadSize) (hcr : r.c.cR.length ≤ r'.crBuf.length) (hcr' : r.c.cR.length < 2 ^ 32)
    (wi : IdWire r'.c.idCredI wI) (wil : r'.c.idCredI.length ≤ r.cfg.idCredISize)
    (wr : IdWire r.c.idCredR wR) (wrl : r.c.idCredR.length ≤ r'.cfg.idCredRSize) :
    (∃ credI g, retrieveCred r.cfg C (authType r'.c.method (false, false)).1 r.creds r'.c.idCredI r.cfg.credISize
      = .ok (credI, r.o.pk, g)) ∧
    (∃ credR pkR g, retrieveCred r'.cfg C (authType r'.c.method (false, false)).2 r'.creds r.c.idCredR r'.cfg.credRSize
      = .ok (credR, pkR, g)) ∧ r'.o.cR = r.c.cR ∧ r.o.cI = cIStored r'.c.cI := by
  obtain ⟨hR, hL, rfl, -⟩ := h
  obtain ⟨hI, hL', hk, -⟩ := ho.up
  unfold RRun.Completed at hR
  unfold IRun.Completed at hI
  rw [hL] at hR
  rw [hL'] at hI
  obtain ⟨s1, s2, s3, s4, s5, -⟩ := hs
  obtain ⟨m2, m1, m3, q, x, w, g1, g2, g3, g4, g5⟩ := C60_same_key_same_session hC hI hR hk (by omega) (by omega)
    ⟨s1, s2⟩ hgx hsu hc s4 he s5 hcr hcr' wi wil wr wrl
  rcases g5 with hx | ⟨e1, e2, e3, e4⟩
  · refine absurd (.inl ⟨w, x, ⟨m1, m3, q, g2, g4⟩, ⟨m2, g1, g3⟩, ?_⟩) hcol
    have sw : ∀ {α β : Type} (l : List α) (m : List β) (a : α × β), a ∈ l.zip m → (a.2, a.1) ∈ m.zip l := by
      intro α β l
      induction l with
      | nil => intro m a h; cases m <;> cases h
      | cons y l ih =>
        intro m a h
        cases m with
        | nil => cases h
        | cons z m =>
          rw [List.zip_cons_cons] at h ⊢
          rcases List.mem_cons.1 h with rfl | h
          · exact List.mem_cons_self
          · exact List.mem_cons_of_mem _ (ih m a h)
    rcases hx with ⟨a, ha, k1, k2⟩ | ⟨a, ha, k1, k2⟩
    · exact .inl ⟨_, sw _ _ _ ha, fun e => k1 e.symm, k2.symm⟩
    · exact .inr ⟨_, sw _ _ _ ha, fun e => k1 e.symm, k2.symm⟩
  · exact ⟨e3, e4, e1, e2⟩

end Verif.Edhoc
