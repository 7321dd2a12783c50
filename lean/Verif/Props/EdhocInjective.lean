import Verif.Props.EdhocConfirm
/-
C91: injective agreement in EDHOC.  However many sessions run at the same time, and whatever is replayed into them,
every completed session has a partner session of its own.
-/
namespace Verif.Edhoc
open Verif Verif.Cbor

/-! ### specification -/

/-- one call of `edhoc_responder_run` with its outputs -/
structure RRun where
  cfg : ECfg
  c : RCtx
  creds : List Cred
  cICap : Nat
  L : Nat
  n : Net
  n' : Net
  o : ROut

/-- one call of `edhoc_initiator_run` with its outputs -/
structure IRun where
  cfg : ECfg
  c : ICtx
  creds : List Cred
  crBuf : Bytes
  L : Nat
  n : Net
  n' : Net
  o : IOut

/-- the call returned ok -/
def RRun.Completed (C : ECrypto) (r : RRun) : Prop :=
  responderRun r.cfg C r.c r.creds r.cICap r.L r.n = (.ok r.o, r.n')

def IRun.Completed (C : ECrypto) (r : IRun) : Prop :=
  initiatorRun r.cfg C r.c r.creds r.crBuf r.L r.n = (.ok r.o, r.n')

/-- the initiator authenticates by a signature: the received message_1 says method 0 or 1 -/
def RRun.PeerSigns (r : RRun) : Prop :=
  ∀ m1 q p, r.n.rxq = .inr m1 :: q → msg1Parse r.cfg m1 r.cICap (List.replicate r.cfg.eadSize 0) = .ok p →
    p.method = 0 ∨ p.method = 1

/-- What the responder's check of the initiator is about: algorithm, signed string, received signature, and the inputs of the
hash and HMAC it rests on (see C75). -/
def RRun.evidence (C : ECrypto) (r : RRun) : R (SignAlg × Bytes × Bytes × Inputs) :=
  match r.n.rxq with
  | .inr m1 :: .inr m3 :: _ => do
    let w ← respView r.cfg C r.c r.cICap m1
    let (_, rs) ← msg2Gen r.cfg C r.c m1 r.cICap (List.replicate r.cfg.eadSize 0)
    let ct ← decodeBstr r.cfg m3 m3.length
    let ptxt ← ctxtDecrypt r.cfg C .c3 rs.suite rs.prk3e2m rs.th3 ct
    let sp ← plaintext3Split r.cfg ptxt r.cfg.idCredISize w.p.ead.length
    let (cred, _, _) ← retrieveCred r.cfg C false r.creds sp.idCred r.cfg.credISize
    let u ← respChecked r.cfg C r.c m1 w rs sp cred
    let msg ← respVerified r.cfg C w rs sp cred
    pure (w.suite.sign, msg, sp.sigOrMac, u)
  | _ => .err .wrong_parameter

/-- the same for the initiator's check of the responder, with the responder's public key -/
def IRun.evidence (C : ECrypto) (r : IRun) : R (SignAlg × Bytes × Bytes × Bytes × Inputs) :=
  match r.n.rxq with
  | .inr m2 :: _ => do
    let v ← initView r.cfg C r.c r.creds r.crBuf m2
    let u ← v.checked r.cfg C r.crBuf
    let msg ← v.verified r.cfg C r.crBuf
    pure (v.suite.sign, v.pkR, msg, v.sp.sigOrMac, u)
  | _ => .err .wrong_parameter

/-- The signature the responder accepted is no forgery (under the key it reports to its caller), and it did not hit a
collision of hash or HMAC.  `S` are the sessions in which that key was used. -/
def RRun.Genuine (C : ECrypto) (S : Session → Prop) (r : RRun) : Prop :=
  ∀ alg msg sig u, r.evidence C = .ok (alg, msg, sig, u) → NotForged C alg r.o.pk msg sig S ∧ ¬ Clashes C u S

def IRun.Genuine (C : ECrypto) (S : Session → Prop) (r : IRun) : Prop :=
  ∀ alg pk msg sig u, r.evidence C = .ok (alg, pk, msg, sig, u) → NotForged C alg pk msg sig S ∧ ¬ Clashes C u S

/-- The responder's run `r` and the session `s` belong together: `s` is an initiator that made the message_1 which `r` received,
whose message_2 carries the ephemeral key of `r`, and that authenticated with the identity `r` attributes to it. -/
def RRun.PartnerOf (C : ECrypto) (r : RRun) (s : Session) : Prop :=
  ∃ cfgI ci credsI crBuf m1 m2 c2 suiteI h1 cred g, s = .init cfgI ci credsI crBuf m2 ∧
    r.n.rxq.head? = some (.inr m1) ∧ msg1Gen cfgI C ci = .ok (m1, suiteI, h1) ∧
    msg2Parse cfgI m2 (ctxt2Len m2.length) = .ok (r.c.gY, c2) ∧
    retrieveCred r.cfg C false r.creds ci.idCredI r.cfg.credISize = .ok (cred, r.o.pk, g)

/-- The initiator's run `r` and the session `s` belong together: `s` is a responder that received the message_1 of `r`, and
whose ephemeral key and C_R are those `r` received. -/
def IRun.PartnerOf (C : ECrypto) (r : IRun) (s : Session) : Prop :=
  ∃ cfgR cr cICap m1 m2 c2 suite h1, s = .resp cfgR cr cICap m1 ∧
    msg1Gen r.cfg C r.c = .ok (m1, suite, h1) ∧ (∃ later, r.n'.sent = r.n.sent ++ m1 :: later) ∧
    r.n.rxq.head? = some (.inr m2) ∧ msg2Parse r.cfg m2 (ctxt2Len m2.length) = .ok (cr.gY, c2) ∧ cr.cR = r.o.cR

/-! ### proof -/

theorem choose_distinct {α β : Type} {P : β → α → Prop} {D : α → α → Prop} {l : List α} (hp : l.Pairwise D)
    (hex : ∀ a ∈ l, ∃ b, P b a) (hD : ∀ a ∈ l, ∀ a' ∈ l, ∀ b, D a a' → P b a → P b a' → False) :
    ∃ bs : List β, bs.Nodup ∧ bs.length = l.length ∧ ∀ x ∈ bs.zip l, P x.1 x.2 := by
  induction hp with
  | nil => exact ⟨[], List.nodup_nil, rfl, by simp⟩
  | @cons a l hd _ ih =>
    obtain ⟨bs, hn, hl, hbs⟩ := ih (fun a h => hex a (by simp [h])) (fun a h a' h' => hD a (by simp [h]) a' (by simp [h']))
    obtain ⟨b, hb⟩ := hex a (by simp)
    refine ⟨b :: bs, ?_, by simp [hl], ?_⟩
    · rw [List.nodup_cons]
      refine ⟨fun hm => ?_, hn⟩
      obtain ⟨k, hk, hk2⟩ := List.mem_iff_getElem.1 hm
      have hk' : k < l.length := by omega
      have hz : (bs[k], l[k]) ∈ bs.zip l := by
        have : (bs.zip l)[k]'(by rw [List.length_zip]; omega) = (bs[k], l[k]) := List.getElem_zip
        rw [← this]; exact List.getElem_mem _
      have e2 := hbs _ hz
      simp only [hk2] at e2
      exact hD a (by simp) l[k] (List.mem_cons_of_mem _ (List.getElem_mem _)) b (hd l[k] (List.getElem_mem _)) hb e2
    · intro x hx
      rw [List.zip_cons_cons] at hx
      rcases List.mem_cons.1 hx with rfl | hx
      · exact hb
      · exact hbs x hx

theorem respView_method {cfg : ECfg} {C : ECrypto} {c : RCtx} {cICap : Nat} {m1 : Bytes} {w : RView}
    (h : respView cfg C c cICap m1 = .ok w) : msg1Parse cfg m1 cICap (List.replicate cfg.eadSize 0) = .ok w.p := by
  unfold respView at h
  obtain ⟨p, h1, h⟩ := R.bind_eq_ok.1 h
  obtain ⟨_, _, h⟩ := R.bind_eq_ok.1 h
  obtain ⟨_, _, h⟩ := R.bind_eq_ok.1 h
  obtain ⟨_, _, h⟩ := R.bind_eq_ok.1 h
  obtain ⟨_, _, h⟩ := R.bind_eq_ok.1 h
  obtain ⟨⟨_, _⟩, _, h⟩ := R.bind_eq_ok.1 h
  obtain rfl := R.ok.inj h
  exact h1

/-- one completed run has a partner -/
theorem C91_responder_partner {C : ECrypto} (hC : C.Lawful) {S : Session → Prop} (hS : ∀ s, S s → s.cfg.Small) {r : RRun}
    (hs : r.cfg.Small) (h : r.Completed C) (hp : r.PeerSigns) (hg : r.Genuine C S) : ∃ s, S s ∧ r.PartnerOf C s := by
  obtain ⟨m1, m3, q, w, m2, rs, ct, ptxt, hq, x1, x2, x3, x4, x5⟩ := C75_responder hC hs h
  have hm := hp m1 _ w.p hq (respView_method x1)
  obtain ⟨sp, cred, g, u, msg, y1, y2, y3, y4, y5⟩ := x5 (by rcases hm with e | e <;> rw [e] <;> rfl)
  have hev : r.evidence C = .ok (w.suite.sign, msg, sp.sigOrMac, u) := by
    unfold RRun.evidence
    rw [hq]
    dsimp only
    rw [x1, R.ok_bind, x2, R.ok_bind]
    dsimp only
    rw [x3, R.ok_bind, x4, R.ok_bind, y1, R.ok_bind, y2, R.ok_bind]
    dsimp only
    rw [y3, R.ok_bind, y4, R.ok_bind]
    rfl
  obtain ⟨g1, g2⟩ := hg _ _ _ _ hev
  rcases y5 S g1 hS with h' | ⟨cfgI, ci, credsI, crBuf, m2', suiteI, h1, st, c2, z1, z2, z3, z4, z5, z6, z7⟩
  · exact absurd h' g2
  · exact ⟨_, z1, cfgI, ci, credsI, crBuf, m1, m2', c2, suiteI, h1, cred, g, rfl, by rw [hq]; rfl, z2, z4, by rw [z5]; exact y2⟩

theorem initView_gen {cfg : ECfg} {C : ECrypto} {c : ICtx} {creds : List Cred} {crBuf m2 : Bytes} {v : IView}
    (h : initView cfg C c creds crBuf m2 = .ok v) :
    ∃ h1, msg1Gen cfg C c = .ok (v.m1, v.suite, h1) ∧ ∃ c2, msg2Parse cfg m2 (ctxt2Len m2.length) = .ok (v.gY, c2) := by
  unfold initView at h
  obtain ⟨⟨m1, su, h1⟩, g1, h⟩ := R.bind_eq_ok.1 h
  obtain ⟨⟨gY, c2⟩, g2, h⟩ := R.bind_eq_ok.1 h
  dsimp only at h
  obtain ⟨gxy, _, h⟩ := R.bind_eq_ok.1 h
  obtain ⟨th2, _, h⟩ := R.bind_eq_ok.1 h
  obtain ⟨p2, _, h⟩ := R.bind_eq_ok.1 h
  obtain ⟨⟨cR, sp⟩, _, h⟩ := R.bind_eq_ok.1 h
  obtain ⟨⟨credR, pkR, g⟩, _, h⟩ := R.bind_eq_ok.1 h
  obtain rfl := R.ok.inj h
  exact ⟨h1, g1, c2, g2⟩

theorem C91_initiator_partner {C : ECrypto} (hC : C.Lawful) {S : Session → Prop} (hS : ∀ s, S s → s.cfg.Small) {r : IRun}
    (hs : r.cfg.Small) (h : r.Completed C) (hp : r.c.method = 0 ∨ r.c.method = 2) (hg : r.Genuine C S) :
    ∃ s, S s ∧ r.PartnerOf C s := by
  obtain ⟨m2, v, u, msg, hq, x1, x2, x3, x4, x5, x6⟩ := C75_initiator hC hs h hp
  have hev : r.evidence C = .ok (v.suite.sign, v.pkR, msg, v.sp.sigOrMac, u) := by
    unfold IRun.evidence
    cases hr : r.n.rxq with
    | nil => rw [hr] at hq; cases hq
    | cons a l =>
      rw [hr] at hq
      obtain rfl := Option.some.inj hq
      dsimp only
      rw [x1, R.ok_bind, x4, R.ok_bind, x5, R.ok_bind]
      rfl
  obtain ⟨g1, g2⟩ := hg _ _ _ _ _ hev
  obtain ⟨h1, g3, c2, g4⟩ := initView_gen x1
  rcases x6 S g1 hS with h' | ⟨cfgR, cr, cICap, p, suiteR, z1, z2, z3, z4, z5, z6, z7, z8⟩
  · exact absurd h' g2
  · exact ⟨_, z1, cfgR, cr, cICap, v.m1, m2, c2, _, h1, rfl, g3, x2, hq, by rw [z2]; exact g4, z3⟩

/-- **C91 (responder)** Any number of responder runs that completed with an initiator that signs, each with an ephemeral key of
its own, whatever was sent to them: there are as many different sessions of the initiators' keys, one for each run, that
belong to it. -/
theorem C91_responder {C : ECrypto} (hC : C.Lawful) {S : Session → Prop} (hS : ∀ s, S s → s.cfg.Small) (runs : List RRun)
    (hr : ∀ r ∈ runs, r.cfg.Small ∧ r.Completed C ∧ r.PeerSigns ∧ r.Genuine C S)
    (hfresh : runs.Pairwise (fun r r' => r.c.gY ≠ r'.c.gY)) :
    ∃ ss : List Session, ss.Nodup ∧ ss.length = runs.length ∧ ∀ x ∈ ss.zip runs, S x.1 ∧ x.2.PartnerOf C x.1 := by
  refine choose_distinct (P := fun s r => S s ∧ r.PartnerOf C s) hfresh (fun r hm => ?_) ?_
  · obtain ⟨h1, h2, h3, h4⟩ := hr r hm
    exact C91_responder_partner hC hS h1 h2 h3 h4
  · rintro r _ r' _ s hne ⟨_, cfgI, ci, credsI, crBuf, m1, m2, c2, su, h1, cr, g, rfl, _, _, hp, _⟩
      ⟨_, cfgI', ci', credsI', crBuf', m1', m2', c2', su', h1', cr', g', e, _, _, hp', _⟩
    cases e
    rw [hp] at hp'
    simp only [R.ok.injEq, Prod.mk.injEq] at hp'
    exact hne hp'.1

theorem suites_ok (l : Bytes) (h : l.length < 2 ^ 32) : Item.Ok (EdhocSpec.suites l) := by
  have aux : ∀ l : Bytes, OkList (l.map fun s => Item.uint s.toNat) := by
    intro l
    induction l with
    | nil => simp [OkList]
    | cons a l ih =>
      simp only [List.map_cons, OkList, Item.Ok]
      exact ⟨by have := a.toNat_lt; omega, ih⟩
  unfold EdhocSpec.suites
  split
  · rename_i s
    simp only [Item.Ok]; have := s.toNat_lt; omega
  · simp only [Item.Ok, List.length_map]
    exact ⟨by omega, aux _⟩

theorem connId_ok (l : Bytes) (h : l.length < 2 ^ 32) : Item.Ok (EdhocSpec.connId l) := by
  unfold EdhocSpec.connId
  split
  · rename_i b
    have := b.toNat_lt
    split
    · simp only [Item.Ok]; omega
    · split
      · simp only [Item.Ok]; omega
      · simp only [Item.Ok, List.length_singleton]; omega
  · simp only [Item.Ok]; omega

theorem message1_gX {m m' : Int} {s s' g g' c c' e e' : Bytes} (hm : 0 ≤ m ∧ m ≤ 3) (hm' : 0 ≤ m' ∧ m' ≤ 3)
    (hs : s.length < 2 ^ 32) (hs' : s'.length < 2 ^ 32) (hg : g.length < 2 ^ 32) (hg' : g'.length < 2 ^ 32)
    (hc : c.length < 2 ^ 32) (hc' : c'.length < 2 ^ 32) (he : e.length < 2 ^ 32) (he' : e'.length < 2 ^ 32)
    (h : EdhocSpec.message1 m s g c e = EdhocSpec.message1 m' s' g' c' e') : g = g' := by
  have oke : ∀ e : Bytes, e.length < 2 ^ 32 → OkList (EdhocSpec.optEad e) := by
    intro e he
    unfold EdhocSpec.optEad
    split
    · simp [OkList]
    · simp only [OkList, Item.Ok, and_true]; omega
  have okm : ∀ m : Int, 0 ≤ m ∧ m ≤ 3 → Item.Ok (.int m) := by
    intro m hm
    unfold Item.int
    rw [if_pos hm.1]
    simp only [Item.Ok]; omega
  unfold EdhocSpec.message1 at h
  have := encList_inj
    (by simp only [List.cons_append, List.nil_append, OkList]
        exact ⟨okm _ hm, suites_ok _ hs, by simp only [Item.Ok]; omega, connId_ok _ hc, oke _ he⟩)
    (by simp only [List.cons_append, List.nil_append, OkList]
        exact ⟨okm _ hm', suites_ok _ hs', by simp only [Item.Ok]; omega, connId_ok _ hc', oke _ he'⟩) h
  simp only [List.cons_append, List.cons.injEq] at this
  exact Item.bstr.inj this.2.2.1

/-- **C91 (initiator)** Any number of initiator runs that completed with a responder that signs, each with an ephemeral key of
its own: there are as many different sessions of the responders' keys, one for each run, that belong to it. -/
theorem C91_initiator {C : ECrypto} (hC : C.Lawful) {S : Session → Prop} (hS : ∀ s, S s → s.cfg.Small) (runs : List IRun)
    (hr : ∀ r ∈ runs, r.cfg.Small ∧ r.Completed C ∧ (r.c.method = 0 ∨ r.c.method = 2) ∧ r.Genuine C S)
    (hlen : ∀ r ∈ runs, r.c.gX.length < 2 ^ 32 ∧ r.c.cI.length < 2 ^ 32 ∧ r.c.ead1.length < 2 ^ 32)
    (hfresh : runs.Pairwise (fun r r' => r.c.gX ≠ r'.c.gX)) :
    ∃ ss : List Session, ss.Nodup ∧ ss.length = runs.length ∧ ∀ x ∈ ss.zip runs, S x.1 ∧ x.2.PartnerOf C x.1 := by
  refine choose_distinct (P := fun s r => S s ∧ r.PartnerOf C s) hfresh (fun r hm => ?_) ?_
  · obtain ⟨h1, h2, h3, h4⟩ := hr r hm
    exact C91_initiator_partner hC hS h1 h2 h3 h4
  · rintro r hm r' hm' s hne ⟨_, cfgR, cr, cICap, m1, m2, c2, su, h1, rfl, hg, _⟩
      ⟨_, cfgR', cr', cICap', m1', m2', c2', su', h1', e, hg', _⟩
    cases e
    obtain ⟨e1, _, l1, _⟩ := msg1Gen_ok hg
    obtain ⟨e2, _, l2, _⟩ := msg1Gen_ok hg'
    have a := hlen r hm
    have a' := hlen r' hm'
    have b : 0 ≤ r.c.method ∧ r.c.method ≤ 3 := by rcases (hr r hm).2.2.1 with e | e <;> rw [e] <;> decide
    have b' : 0 ≤ r'.c.method ∧ r'.c.method ≤ 3 := by rcases (hr r' hm').2.2.1 with e | e <;> rw [e] <;> decide
    exact hne (message1_gX b b' (by omega) (by omega) a.1 a'.1 a.2.1 a'.2.1 a.2.2 a'.2.2 (e1.symm.trans e2))

/-- Recorded messages do not complete further sessions: with `k` sessions in which the initiator's key was used, at most `k`
responder runs complete. -/
theorem C91_responder_count {C : ECrypto} (hC : C.Lawful) (sessions : List Session) (hS : ∀ s ∈ sessions, s.cfg.Small)
    (runs : List RRun)
    (hr : ∀ r ∈ runs, r.cfg.Small ∧ r.Completed C ∧ r.PeerSigns ∧ r.Genuine C (· ∈ sessions))
    (hfresh : runs.Pairwise (fun r r' => r.c.gY ≠ r'.c.gY)) : runs.length ≤ sessions.length := by
  obtain ⟨ss, hn, hl, hss⟩ := C91_responder hC (S := (· ∈ sessions)) hS runs hr hfresh
  rw [← hl]
  refine hn.length_le_of_subset (fun s hs => ?_)
  obtain ⟨k, hk, rfl⟩ := List.mem_iff_getElem.1 hs
  have hk' : k < runs.length := by omega
  have hz : (ss[k], runs[k]) ∈ ss.zip runs := by
    have : (ss.zip runs)[k]'(by rw [List.length_zip]; omega) = (ss[k], runs[k]) := List.getElem_zip
    rw [← this]; exact List.getElem_mem _
  exact (hss _ hz).1

/-! ### the hypotheses can be met: two sessions side by side -/

/-- second pair of ephemeral keys -/
def toyI' : ICtx := { toyI 0 with gX := List.replicate 32 8, x := List.replicate 32 8 }
def toyR' : RCtx := { toyR with gY := List.replicate 32 9, y := List.replicate 32 9 }

/-- the messages of the second session -/
def exInj1 : Bytes := match msg1Gen {} toyE toyI' with | .ok (m, _) => m | _ => []
def exInj2 : Bytes := match msg2Gen {} toyE toyR' exInj1 10 [] with | .ok (m, _) => m | _ => []
def exInj3 : Bytes :=
  match initiatorRun {} toyE toyI' toyCredsR (List.replicate 10 0) 32 (netOf [exInj2]) with | (_, n) => n.sent.getLastD []

def exSR' : Session := .resp {} toyR' 10 exInj1
def exSI' : Session := .init {} toyI' toyCredsR (List.replicate 10 0) exInj2

/-- primitives under which just the strings verify that the four sessions signed -/
def twoE : ECrypto :=
  { toyE with
    verify := fun _ pk m s =>
      some (decide (s = toyBytes 64 (toyH (pk ++ [4] ++ m))) &&
        (decide (pk = toyR.pkR ∧ (exSR.signed toyE = .ok m ∨ exSR'.signed toyE = .ok m)) ||
          decide (pk = (toyI 0).pkI ∧ (exSI.signed toyE = .ok m ∨ exSI'.signed toyE = .ok m)))) }

theorem twoE_lawful : twoE.Lawful := ⟨toyE_lawful.base, toyE_lawful.dh_len, toyE_lawful.sign_len⟩

theorem twoE_sessions : exSR.signed twoE = exSR.signed toyE ∧ exSR'.signed twoE = exSR'.signed toyE ∧
    exSI.signed twoE = exSI.signed toyE ∧ exSI'.signed twoE = exSI'.signed toyE := by
  refine ⟨rfl, rfl, ?_, ?_⟩ <;> decide +kernel

def rOutOf (x : R ROut × Net) : ROut := match x.1 with | .ok o => o | _ => ⟨[], [], [], [], []⟩
def iOutOf (x : R IOut × Net) : IOut := match x.1 with | .ok o => o | _ => ⟨[], none, [], []⟩

def mkR (c : RCtx) (ms : List Bytes) : RRun :=
  ⟨{}, c, toyCredsI, 10, 32, netOf ms, (responderRun {} twoE c toyCredsI 10 32 (netOf ms)).2,
    rOutOf (responderRun {} twoE c toyCredsI 10 32 (netOf ms))⟩

def mkI (c : ICtx) (m2 : Bytes) : IRun :=
  ⟨{}, c, toyCredsR, List.replicate 10 0, 32, netOf [m2],
    (initiatorRun {} twoE c toyCredsR (List.replicate 10 0) 32 (netOf [m2])).2,
    iOutOf (initiatorRun {} twoE c toyCredsR (List.replicate 10 0) 32 (netOf [m2]))⟩

/-- responder run complete, no collision with the initiator's sessions -/
def rGood (r : RRun) : Bool :=
  match r.evidence twoE, exSI.inputs twoE, exSI'.inputs twoE with
  | .ok (_, _, _, u), .ok a, .ok b => !clashB twoE u a && !clashB twoE u b && decide (r.o.pk = (toyI 0).pkI)
  | _, _, _ => false

def iGood (r : IRun) : Bool :=
  match r.evidence twoE, exSR.inputs twoE, exSR'.inputs twoE with
  | .ok (_, pk, _, _, u), .ok a, .ok b => !clashB twoE u a && !clashB twoE u b && decide (pk = toyR.pkR)
  | _, _, _ => false

theorem twoE_notForged_I (alg : SignAlg) (m s : Bytes) : NotForged twoE alg (toyI 0).pkI m s (· ∈ [exSI, exSI']) := by
  have ne : (toyI 0).pkI ≠ toyR.pkR := by decide
  intro h
  simp only [twoE, Option.some.injEq, Bool.and_eq_true, Bool.or_eq_true, decide_eq_true_eq] at h
  rcases h.2 with ⟨h1, -⟩ | ⟨-, h2 | h2⟩
  · exact absurd h1 ne
  · exact ⟨exSI, by simp, twoE_sessions.2.2.1.trans h2⟩
  · exact ⟨exSI', by simp, twoE_sessions.2.2.2.trans h2⟩

theorem twoE_notForged_R (alg : SignAlg) (m s : Bytes) : NotForged twoE alg toyR.pkR m s (· ∈ [exSR, exSR']) := by
  have ne : toyR.pkR ≠ (toyI 0).pkI := by decide
  intro h
  simp only [twoE, Option.some.injEq, Bool.and_eq_true, Bool.or_eq_true, decide_eq_true_eq] at h
  rcases h.2 with ⟨-, h2 | h2⟩ | ⟨h1, -⟩
  · exact ⟨exSR, by simp, twoE_sessions.1.trans h2⟩
  · exact ⟨exSR', by simp, twoE_sessions.2.1.trans h2⟩
  · exact absurd h1 ne

theorem rGenuine {r : RRun} (h : rGood r = true) : r.Genuine twoE (· ∈ [exSI, exSI']) := by
  intro alg msg sig u he
  unfold rGood at h
  rw [he] at h
  cases ha : exSI.inputs twoE with
  | ok a =>
    cases hb : exSI'.inputs twoE with
    | ok b =>
      rw [ha, hb] at h
      simp only [Bool.and_eq_true, Bool.not_eq_true', decide_eq_true_eq] at h
      refine ⟨by rw [h.2]; exact twoE_notForged_I _ _ _, ?_⟩
      rintro ⟨s, w, hs, e, hc⟩
      rcases List.mem_cons.1 hs with rfl | hs
      · rw [ha] at e; cases e
        exact absurd h.1.1 (by rw [clashB_iff.2 hc]; decide)
      · obtain rfl := List.mem_singleton.1 hs
        rw [hb] at e; cases e
        exact absurd h.1.2 (by rw [clashB_iff.2 hc]; decide)
    | err e => rw [ha, hb] at h; cases h
    | ub => rw [ha, hb] at h; cases h
  | err e => rw [ha] at h; cases h
  | ub => rw [ha] at h; cases h

theorem iGenuine {r : IRun} (h : iGood r = true) : r.Genuine twoE (· ∈ [exSR, exSR']) := by
  intro alg pk msg sig u he
  unfold iGood at h
  rw [he] at h
  cases ha : exSR.inputs twoE with
  | ok a =>
    cases hb : exSR'.inputs twoE with
    | ok b =>
      rw [ha, hb] at h
      simp only [Bool.and_eq_true, Bool.not_eq_true', decide_eq_true_eq] at h
      refine ⟨by rw [h.2]; exact twoE_notForged_R _ _ _, ?_⟩
      rintro ⟨s, w, hs, e, hc⟩
      rcases List.mem_cons.1 hs with rfl | hs
      · rw [ha] at e; cases e
        exact absurd h.1.1 (by rw [clashB_iff.2 hc]; decide)
      · obtain rfl := List.mem_singleton.1 hs
        rw [hb] at e; cases e
        exact absurd h.1.2 (by rw [clashB_iff.2 hc]; decide)
    | err e => rw [ha, hb] at h; cases h
    | ub => rw [ha, hb] at h; cases h
  | err e => rw [ha] at h; cases h
  | ub => rw [ha] at h; cases h

theorem rCompleted (c : RCtx) (ms : List Bytes)
    (h : (match (responderRun {} twoE c toyCredsI 10 32 (netOf ms)).1 with | .ok _ => true | _ => false) = true) :
    (mkR c ms).Completed twoE := by
  unfold RRun.Completed mkR rOutOf
  dsimp only
  generalize responderRun {} twoE c toyCredsI 10 32 (netOf ms) = x at *
  obtain ⟨r, n⟩ := x
  cases r with
  | ok o => rfl
  | err e => cases h
  | ub => cases h

theorem iCompleted (c : ICtx) (m2 : Bytes)
    (h : (match (initiatorRun {} twoE c toyCredsR (List.replicate 10 0) 32 (netOf [m2])).1 with | .ok _ => true | _ => false) = true) :
    (mkI c m2).Completed twoE := by
  unfold IRun.Completed mkI iOutOf
  dsimp only
  generalize initiatorRun {} twoE c toyCredsR (List.replicate 10 0) 32 (netOf [m2]) = x at *
  obtain ⟨r, n⟩ := x
  cases r with
  | ok o => rfl
  | err e => cases h
  | ub => cases h

theorem peerSigns_of (r : RRun) (h : (match r.n.rxq with
      | .inr m1 :: _ => match msg1Parse r.cfg m1 r.cICap (List.replicate r.cfg.eadSize 0) with
        | .ok p => decide (p.method = 0 ∨ p.method = 1)
        | _ => true
      | _ => true) = true) : r.PeerSigns := by
  intro m1 q p h1 h2
  rw [h1] at h
  dsimp only at h
  rw [h2] at h
  exact of_decide_eq_true h

theorem exSmall : ECfg.Small {} := by unfold ECfg.Small; decide +kernel

/-- two responder runs with different ephemeral keys meet the hypotheses of `C91_responder` and `C91_responder_count` -/
example : twoE.Lawful ∧ (∀ s ∈ [exSI, exSI'], s.cfg.Small) ∧
    (∀ r ∈ [mkR toyR [exP1, exP3], mkR toyR' [exInj1, exInj3]], r.cfg.Small ∧ r.Completed twoE ∧ r.PeerSigns ∧
      r.Genuine twoE (· ∈ [exSI, exSI'])) ∧
    [mkR toyR [exP1, exP3], mkR toyR' [exInj1, exInj3]].Pairwise (fun r r' => r.c.gY ≠ r'.c.gY) := by
  refine ⟨twoE_lawful, ?_, ?_, ?_⟩
  · intro s hs
    simp only [List.mem_cons, List.not_mem_nil, or_false] at hs
    rcases hs with rfl | rfl <;> exact exSmall
  · intro r hr
    simp only [List.mem_cons, List.not_mem_nil, or_false] at hr
    rcases hr with rfl | rfl
    · exact ⟨exSmall, rCompleted _ _ (by decide +kernel), peerSigns_of _ (by decide +kernel), rGenuine (by decide +kernel)⟩
    · exact ⟨exSmall, rCompleted _ _ (by decide +kernel), peerSigns_of _ (by decide +kernel), rGenuine (by decide +kernel)⟩
  · simp only [List.pairwise_cons, List.mem_singleton, forall_eq, List.not_mem_nil, false_implies, implies_true, List.Pairwise.nil, and_true]
    decide

/-- two initiator runs with different ephemeral keys meet the hypotheses of `C91_initiator` -/
example : twoE.Lawful ∧ (∀ s ∈ [exSR, exSR'], s.cfg.Small) ∧
    (∀ r ∈ [mkI (toyI 0) exP2, mkI toyI' exInj2], r.cfg.Small ∧ r.Completed twoE ∧ (r.c.method = 0 ∨ r.c.method = 2) ∧
      r.Genuine twoE (· ∈ [exSR, exSR'])) ∧
    [mkI (toyI 0) exP2, mkI toyI' exInj2].Pairwise (fun r r' => r.c.gX ≠ r'.c.gX) := by
  refine ⟨twoE_lawful, ?_, ?_, ?_⟩
  · intro s hs
    simp only [List.mem_cons, List.not_mem_nil, or_false] at hs
    rcases hs with rfl | rfl <;> exact exSmall
  · intro r hr
    simp only [List.mem_cons, List.not_mem_nil, or_false] at hr
    rcases hr with rfl | rfl
    · exact ⟨exSmall, iCompleted _ _ (by decide +kernel), .inl rfl, iGenuine (by decide +kernel)⟩
    · exact ⟨exSmall, iCompleted _ _ (by decide +kernel), .inl rfl, iGenuine (by decide +kernel)⟩
  · simp only [List.pairwise_cons, List.mem_singleton, forall_eq, List.not_mem_nil, false_implies, implies_true, List.Pairwise.nil, and_true]
    decide

/-- Fresh ephemeral keys are needed: a responder that uses `y` again completes a second session with the recorded message_1
and message_3 although the initiator took part in one only.  The library takes `y`, `g_y` from the caller and cannot know. -/
theorem C91_reuse_needed :
    (∀ r ∈ [mkR toyR [exP1, exP3], mkR toyR [exP1, exP3]], r.Completed twoE ∧ r.PeerSigns ∧ r.Genuine twoE (· ∈ [exSI, exSI'])) ∧
    ∀ s, (mkR toyR [exP1, exP3]).PartnerOf twoE s → s ≠ exSI' := by
  constructor
  · intro r hr
    simp only [List.mem_cons, List.not_mem_nil, or_false] at hr
    rcases hr with rfl | rfl <;>
    exact ⟨rCompleted _ _ (by decide +kernel), peerSigns_of _ (by decide +kernel), rGenuine (by decide +kernel)⟩
  · rintro s ⟨cfgI, ci, credsI, crBuf, m1, m2, c2, suiteI, h1, cred, g, rfl, _, _, hp, _⟩ e
    unfold exSI' at e
    cases e
    have : (match msg2Parse {} exInj2 (ctxt2Len exInj2.length) with | .ok (y, _) => decide (y = toyR.gY) | _ => false) = false := by
      decide +kernel
    rw [hp] at this
    simp [mkR] at this

/-! ### all authentication methods: message_3 and message_4 -/

/-- What the responder's acceptance of message_3 is about: PRK_3e2m, TH_3, the ciphertext, and the inputs of the hash they rest
on (see C77). -/
def RRun.evidence3 (C : ECrypto) (r : RRun) : R (Bytes × Bytes × Bytes × List Bytes) :=
  match r.n.rxq with
  | .inr m1 :: .inr m3 :: _ => do
    let w ← respView r.cfg C r.c r.cICap m1
    let (_, rs) ← msg2Gen r.cfg C r.c m1 r.cICap (List.replicate r.cfg.eadSize 0)
    let ct ← decodeBstr r.cfg m3 m3.length
    pure (rs.prk3e2m, rs.th3, ct, [m1, th2In r.c.gY (C.hash m1), thIn w.th2 w.p2 r.c.credR])
  | _ => .err .wrong_parameter

/-- the same for the initiator and message_4: the ciphertext and the inputs of the hash -/
def IRun.evidence4 (C : ECrypto) (r : IRun) : R (Bytes × List Bytes) :=
  match r.n.rxq with
  | .inr m2 :: .inr m4 :: _ => do
    let ct ← decodeBstr r.cfg m4 r.cfg.plaintext4Size
    let u ← initInputs r.cfg C r.c r.creds r.crBuf m2 r.L
    pure (ct, u.hashed)
  | _ => .err .wrong_parameter

/-- message_3 is no forgery and no collision was found; `S` are the sessions in which the AEAD was used -/
def RRun.Genuine3 (C : ECrypto) (S : ESession → Prop) (r : RRun) : Prop :=
  ∀ prk th ct l, r.evidence3 C = .ok (prk, th, ct, l) → Edhoc.Genuine C false prk th ct S ∧ ¬ EClashes C l (false, prk, th) S

/-- message_4 is no forgery and no collision was found -/
def IRun.Genuine4 (C : ECrypto) (S : ESession → Prop) (r : IRun) : Prop :=
  ∀ ct l, r.evidence4 C = .ok (ct, l) →
    Edhoc.Genuine C true r.o.prk4e3m r.o.th4 ct S ∧ ¬ EClashes C l (true, r.o.prk4e3m, r.o.th4) S

/-- the session that made message_3 belongs to the responder's run: it made the message_1 the run received and got the
run's ephemeral key -/
def RRun.PartnerOf3 (C : ECrypto) (r : RRun) (s : ESession) : Prop :=
  ∃ cfgI ci credsI crBuf m1 m2 c2 suiteI st, s = .init cfgI ci credsI crBuf m2 ∧ r.n.rxq.head? = some (.inr m1) ∧
    initResult cfgI C ci credsI crBuf m2 = .ok (m1, suiteI, st) ∧ msg2Parse cfgI m2 (ctxt2Len m2.length) = .ok (r.c.gY, c2)

/-- the session that made message_4 belongs to the initiator's run: it received the message_1 of the run, sent the ephemeral
key the run received, and has the same keys -/
def IRun.PartnerOf4 (C : ECrypto) (r : IRun) (s : ESession) : Prop :=
  ∃ cfgR cr credsR cICap L m1 m2 m3 c2 suiteR oR, s = .resp cfgR cr credsR cICap L m1 m3 ∧
    (∃ later, r.n'.sent = r.n.sent ++ m1 :: later) ∧ respResult cfgR C cr credsR cICap L m1 m3 = .ok (suiteR, oR) ∧
    r.n.rxq.head? = some (.inr m2) ∧ msg2Parse r.cfg m2 (ctxt2Len m2.length) = .ok (cr.gY, c2) ∧
    oR.th4 = r.o.th4 ∧ oR.prk4e3m = r.o.prk4e3m

/-- **C91 (responder, all methods)** Any number of completed responder runs, each with an ephemeral key of its own: there are as
many different initiator sessions, one for each run, that made the message_3 it accepted and belong to it. -/
theorem C91_responder_all_methods {C : ECrypto} (hC : C.Lawful) {S : ESession → Prop} (runs : List RRun)
    (hr : ∀ r ∈ runs, r.Completed C ∧ r.Genuine3 C S) (hfresh : runs.Pairwise (fun r r' => r.c.gY ≠ r'.c.gY)) :
    ∃ ss : List ESession, ss.Nodup ∧ ss.length = runs.length ∧ ∀ x ∈ ss.zip runs, S x.1 ∧ x.2.PartnerOf3 C x.1 := by
  refine choose_distinct (P := fun s r => S s ∧ r.PartnerOf3 C s) hfresh (fun r hm => ?_) ?_
  · obtain ⟨h, hg⟩ := hr r hm
    obtain ⟨m1, m3, q, m2, w, rs, ct, p3, sp, hq, x1, x2, x3, x4, x5, x6⟩ := C77_responder hC h
    have hev : r.evidence3 C = .ok (rs.prk3e2m, rs.th3, ct, [m1, th2In r.c.gY (C.hash m1), thIn w.th2 w.p2 r.c.credR]) := by
      unfold RRun.evidence3
      rw [hq]
      dsimp only
      rw [x1, R.ok_bind, x2, R.ok_bind]
      dsimp only
      rw [x3, R.ok_bind]
      rfl
    obtain ⟨g1, g2⟩ := hg _ _ _ _ hev
    rcases x6 S g1 with h' | ⟨cfgI, ci, credsI, crBuf, m2', suiteI, st, c2, z1, z2, z3, z4⟩
    · exact absurd h' g2
    · exact ⟨_, z1, cfgI, ci, credsI, crBuf, m1, m2', c2, suiteI, st, rfl, by rw [hq]; rfl, z2, z3⟩
  · rintro r _ r' _ s hne ⟨_, cfgI, ci, credsI, crBuf, m1, m2, c2, su, st, rfl, _, _, hp⟩
      ⟨_, cfgI', ci', credsI', crBuf', m1', m2', c2', su', st', e, _, _, hp'⟩
    cases e
    rw [hp] at hp'
    simp only [R.ok.injEq, Prod.mk.injEq] at hp'
    exact hne hp'.1

/-- **C91 (initiator, all methods)** Any number of initiator runs that completed with message_4, each with an ephemeral key of its
own: there are as many different responder sessions, one for each run, that belong to it and have the same keys. -/
theorem C91_initiator_all_methods {C : ECrypto} (hC : C.Lawful) {S : ESession → Prop} (runs : List IRun)
    (hr : ∀ r ∈ runs, r.cfg.message4 = true ∧ r.Completed C ∧ r.o.prkOut ≠ none ∧ r.Genuine4 C S)
    (hlen : ∀ r ∈ runs, (0 ≤ r.c.method ∧ r.c.method ≤ 3) ∧ r.c.gX.length < 2 ^ 32 ∧ r.c.cI.length < 2 ^ 32 ∧ r.c.ead1.length < 2 ^ 32)
    (hfresh : runs.Pairwise (fun r r' => r.c.gX ≠ r'.c.gX)) :
    ∃ ss : List ESession, ss.Nodup ∧ ss.length = runs.length ∧ ∀ x ∈ ss.zip runs, S x.1 ∧ x.2.PartnerOf4 C x.1 := by
  refine choose_distinct (P := fun s r => S s ∧ r.PartnerOf4 C s) hfresh (fun r hm => ?_) ?_
  · obtain ⟨h4, h, hk, hg⟩ := hr r hm
    obtain ⟨k, hk⟩ := Option.ne_none_iff_exists'.1 hk
    obtain ⟨m1, m2, m4, q, ct, u, x1, hq, x2, x3, x4⟩ := C77_initiator hC h h4 hk
    have hev : r.evidence4 C = .ok (ct, u.hashed) := by
      unfold IRun.evidence4
      rw [hq]
      dsimp only
      rw [x2, R.ok_bind, x3, R.ok_bind]
      rfl
    obtain ⟨g1, g2⟩ := hg _ _ hev
    rcases x4 S g1 with h' | ⟨cfgR, cr, credsR, cICap, L', m3, suiteR, oR, c2, z1, z2, z3, z4, z5, -⟩
    · exact absurd h' g2
    · exact ⟨_, z1, cfgR, cr, credsR, cICap, L', m1, m2, m3, c2, suiteR, oR, rfl, x1, z2, by rw [hq]; rfl, z3, z4, z5⟩
  · rintro r hm r' hm' s hne ⟨_, cfgR, cr, credsR, cICap, L, m1, m2, m3, c2, su, oR, rfl, ⟨l, hs⟩, _⟩
      ⟨_, cfgR', cr', credsR', cICap', L', m1', m2', m3', c2', su', oR', e, ⟨l', hs'⟩, _⟩
    cases e
    obtain ⟨a1, s1, k1, g1, t1, t1'⟩ := initiator_first (hr r hm).2.1
    obtain ⟨a2, s2, k2, g2, t2, t2'⟩ := initiator_first (hr r' hm').2.1
    rw [hs] at t1'
    rw [hs'] at t2'
    simp only [List.append_cancel_left_eq, List.cons.injEq] at t1' t2'
    obtain ⟨rfl, -⟩ := t1'
    obtain ⟨rfl, -⟩ := t2'
    obtain ⟨e1, _, l1, _⟩ := msg1Gen_ok g1
    obtain ⟨e2, _, l2, _⟩ := msg1Gen_ok g2
    have a := hlen r hm
    have a' := hlen r' hm'
    exact hne (message1_gX a.1 a'.1 (by omega) (by omega) a.2.1 a'.2.1 a.2.2.1 a'.2.2.1 a.2.2.2 a'.2.2.2 (e1.symm.trans e2))

/-- the example runs of C77 (method 3, message_4) meet the hypotheses -/
def exRR : RRun :=
  ⟨ex4, toyR, toyCredsI, 10, 32, netOf [exQ1, exQ3], (responderRun ex4 tightE toyR toyCredsI 10 32 (netOf [exQ1, exQ3])).2,
    rOutOf (responderRun ex4 tightE toyR toyCredsI 10 32 (netOf [exQ1, exQ3]))⟩

def exIR : IRun :=
  ⟨ex4, toyI 3, toyCredsR, List.replicate 10 0, 32, netOf [exQ2, exQ4],
    (initiatorRun ex4 tightE (toyI 3) toyCredsR (List.replicate 10 0) 32 (netOf [exQ2, exQ4])).2,
    iOutOf (initiatorRun ex4 tightE (toyI 3) toyCredsR (List.replicate 10 0) 32 (netOf [exQ2, exQ4]))⟩

example : tightE.Lawful ∧ exRR.Completed tightE ∧ exRR.Genuine3 tightE (fun s => s = exER ∨ s = exEI) ∧ exIR.cfg.message4 = true ∧
    exIR.Completed tightE ∧ exIR.o.prkOut ≠ none ∧ exIR.Genuine4 tightE (fun s => s = exER ∨ s = exEI) := by
  have okR : ∀ (x : R ROut × Net), (match x.1 with | .ok _ => true | _ => false) = true → x = (.ok (rOutOf x), x.2) := by
    rintro ⟨r, n⟩ h
    cases r with
    | ok o => rfl
    | err e => cases h
    | ub => cases h
  have okI : ∀ (x : R IOut × Net), (match x.1 with | .ok _ => true | _ => false) = true → x = (.ok (iOutOf x), x.2) := by
    rintro ⟨r, n⟩ h
    cases r with
    | ok o => rfl
    | err e => cases h
    | ub => cases h
  refine ⟨tightE_lawful, okR _ (by decide +kernel), ?_, rfl, okI _ (by decide +kernel), by decide +kernel, ?_⟩
  · intro prk th ct l h
    have : (match exRR.evidence3 tightE with
        | .ok (prk, th, ct, l) => decide (ct ∈ exCts) && !eclashB tightE l (false, prk, th) exER && !eclashB tightE l (false, prk, th) exEI
        | _ => false) = true := by decide +kernel
    rw [h] at this
    simp only [Bool.and_eq_true, Bool.not_eq_true', decide_eq_true_eq] at this
    refine ⟨tightE_genuine _ _ _ this.1.1, fun hc => ?_⟩
    obtain ⟨s, rfl | rfl, hs⟩ := eclashB_of hc
    · rw [this.1.2] at hs; cases hs
    · rw [this.2] at hs; cases hs
  · intro ct l h
    have : (match exIR.evidence4 tightE with
        | .ok (ct, l) => decide (ct ∈ exCts) && !eclashB tightE l (true, exIR.o.prk4e3m, exIR.o.th4) exER &&
            !eclashB tightE l (true, exIR.o.prk4e3m, exIR.o.th4) exEI
        | _ => false) = true := by decide +kernel
    rw [h] at this
    simp only [Bool.and_eq_true, Bool.not_eq_true', decide_eq_true_eq] at this
    refine ⟨tightE_genuine _ _ _ this.1.1, fun hc => ?_⟩
    obtain ⟨s, rfl | rfl, hs⟩ := eclashB_of hc
    · rw [this.1.2] at hs; cases hs
    · rw [this.2] at hs; cases hs

end Verif.Edhoc
