import Verif.Props.EdhocInputs
import Verif.Props.EdhocAuthn
import Verif.Props.EdhocCodec
import Verif.Props.EdhocHonest
import Verif.Lemmas.EdhocCborMono
/-
C60: an initiator and a responder that end with the same PRK_out, over any network, took part in the same
exchange: same message_1, same G_Y, same transcript, same C_R, same ID_CREDs; or the inputs of the hash or of the HMAC in
the two runs (`EdhocInputs.lean`) are a collision.
-/
namespace Verif.Edhoc
open Verif Verif.Cbor

theorem expand_take {C : Crypto} (hC : C.Lawful) (prk info : Bytes) {L : Nat} (hL : 32 ≤ L) :
    (Hkdf.expand C.hmac prk info L).take 32 = C.hmac prk (info ++ [1]) := by
  have key : ∀ n, (Hkdf.concatT C.hmac prk info (n + 1)).take 32 = C.hmac prk (info ++ [1]) := by
    intro n
    induction n with
    | zero =>
      simp only [Hkdf.concatT, Hkdf.T, List.nil_append]
      rw [List.take_of_length_le (by rw [hC.hmac_len]; omega)]
      rfl
    | succ n ih =>
      rw [Hkdf.concatT, List.take_append_of_le_length (by rw [concatT_length hC]; omega), ih]
  unfold Hkdf.expand
  rw [List.take_take, Nat.min_eq_left hL]
  have : (L + 31) / 32 = ((L + 31) / 32 - 1) + 1 := by omega
  rw [this, key]

/-- equal outputs of the KDF, at least a hash long: equal key, label, context and length -/
theorem kdf_binds {cfg cfg' : ECfg} {C : ECrypto} (hC : C.Lawful) {prk prk' ctx ctx' k : Bytes} {label label' L : Nat}
    (h : edhocKdf cfg C prk label ctx L = .ok k) (h' : edhocKdf cfg' C prk' label' ctx' L = .ok k)
    (hL : 32 ≤ L) (hL' : L ≤ 255 * 32)
    (hl : label < 24) (hl' : label' < 24) (hc : ctx.length < 2 ^ 32) (hc' : ctx'.length < 2 ^ 32) :
    HmacClash C (prk, kdfIn label ctx L) (prk', kdfIn label' ctx' L) ∨ (prk = prk' ∧ label = label' ∧ ctx = ctx') := by
  have e1 := (C38_kdf_rfc9528 hC h hL').1
  have e2 := (C38_kdf_rfc9528 hC h' hL').1
  have e := congrArg (List.take 32) (e1.symm.trans e2)
  unfold EdhocSpec.kdf at e
  rw [expand_take hC.base _ _ hL, expand_take hC.base _ _ hL] at e
  by_cases hx : prk = prk' ∧ EdhocSpec.info label ctx L ++ [1] = EdhocSpec.info label' ctx' L ++ [1]
  · right
    obtain ⟨h1, h2⟩ := hx
    have h2 := List.append_cancel_right h2
    have := encList_inj (l := [.uint label, .bstr ctx, .uint L]) (m := [.uint label', .bstr ctx', .uint L])
      (by simp [OkList, Item.Ok]; omega) (by simp [OkList, Item.Ok]; omega) h2
    simp only [List.cons.injEq, Item.uint.injEq, Item.bstr.injEq, and_true] at this
    exact ⟨h1, this.1, this.2⟩
  · exact .inl ⟨fun h => hx (Prod.mk.inj h), e⟩

theorem prkDerive_length {cfg : ECfg} {C : ECrypto} (hC : C.Lawful) {sd : Bool} {suite : Suite} {label : Nat}
    {ctx prk pk sk o : Bytes} (hp : prk.length = 32) (h : prkDerive cfg C sd suite label ctx prk pk sk = .ok o) :
    o.length = 32 := by
  unfold prkDerive at h
  split at h
  · obtain ⟨_, _, h⟩ := R.bind_eq_ok.1 h
    obtain ⟨_, _, h⟩ := R.bind_eq_ok.1 h
    simp only [R.pure_eq, R.ok.injEq] at h
    rw [← h]; exact hC.base.hmac_len _ _
  · simp only [R.pure_eq, R.ok.injEq] at h
    rw [← h]; exact hp

theorem ctxt_ptxt {cfg : ECfg} {C : ECrypto} {ct : Ctxt} {suite : Suite} {cR id sm ead prk th c p : Bytes} {buf cap : Nat}
    (h : ciphertextGen cfg C ct suite cR id sm ead prk th buf cap = .ok (c, p)) :
    plaintextGen cfg ct cR id sm ead cap = .ok p := by
  unfold ciphertextGen at h
  obtain ⟨p', h1, h⟩ := R.bind_eq_ok.1 h
  obtain ⟨⟨k, iv⟩, h2, h⟩ := R.bind_eq_ok.1 h
  obtain ⟨c', h3, h⟩ := R.bind_eq_ok.1 h
  cases h
  exact h1

/-- what a successful initiator run computed -/
structure IFacts (cfg : ECfg) (C : ECrypto) (c : ICtx) (creds : List Cred) (crBuf : Bytes) (n n' : Net) (o : IOut)
    (prkOut : Bytes) (L : Nat) (m1 m2 gY c2 p2 credR pkR p3 th2 th3 : Bytes) (suite : Suite) (sp : Split) : Prop where
  gen1 : msg1Gen cfg C c = .ok (m1, suite, C.hash m1)
  first : ∃ l, n'.sent = n.sent ++ m1 :: l
  rcv : n.rxq.head? = some (.inr m2)
  parse2 : msg2Parse cfg m2 (ctxt2Len m2.length) = .ok (gY, c2)
  hth2 : th2Calc C (C.hash m1) gY = .ok th2
  split2 : plaintext2Split cfg p2 crBuf.length cfg.idCredRSize cfg.eadSize = .ok (o.cR, sp)
  cred : ∃ g, retrieveCred cfg C (authType c.method (false, false)).2 creds sp.idCred cfg.credRSize = .ok (credR, pkR, g)
  hth3 : th34Calc cfg C th2 p2 credR = .ok th3
  gen3 : ∃ sm prk cap buf, ∃ c3, ciphertextGen cfg C .c3 suite [] c.idCredI sm c.ead3 prk th3 buf cap = .ok (c3, p3)
  hth4 : th34Calc cfg C th3 p3 c.credI = .ok o.th4
  out : edhocKdf cfg C o.prk4e3m labelPrkOut o.th4 L = .ok prkOut
  prkLen : o.prk4e3m.length = 32
  inputs : initInputs cfg C c creds crBuf m2 L = .ok ⟨[m1, th2In gY (C.hash m1), thIn th2 p2 credR, thIn th3 p3 c.credI],
    [(o.prk4e3m, kdfIn 7 o.th4 L)]⟩

theorem netTx_eff {m : Bytes} {n n' : Net} (h : netTx m n = (.ok (), n')) :
    n'.sent = n.sent ++ [m] ∧ n'.rxq = n.rxq := by
  unfold netTx at h
  split at h
  · simp only [Prod.mk.injEq, reduceCtorEq, false_and] at h
  · simp only [Prod.mk.injEq, true_and] at h
    rw [← h]; exact ⟨rfl, rfl⟩

theorem netEad_eff {m : Bytes} {n n' : Net} (h : netEad m n = (.ok (), n')) :
    n'.sent = n.sent ∧ n'.rxq = n.rxq := by
  unfold netEad at h
  split at h
  · simp only [Prod.mk.injEq, reduceCtorEq, false_and] at h
  · simp only [Prod.mk.injEq, true_and] at h
    rw [← h]; exact ⟨rfl, rfl⟩

theorem netRx_eff {cap : Nat} {m : Bytes} {n n' : Net} (h : netRx cap n = (.ok m, n')) :
    n'.sent = n.sent ∧ n.rxq = .inr m :: n'.rxq := by
  unfold netRx at h
  split at h
  · cases h
  · cases h
  · rename_i m' q hq
    split at h
    · simp only [Prod.mk.injEq, R.ok.injEq] at h
      rw [hq, h.1, ← h.2]; exact ⟨rfl, rfl⟩
    · cases h

theorem initiator_first {cfg : ECfg} {C : ECrypto} {c : ICtx} {creds : List Cred} {crBuf : Bytes} {L : Nat}
    {n n' : Net} {o : IOut} (h : initiatorRun cfg C c creds crBuf L n = (.ok o, n')) :
    ∃ m1 suite h1, msg1Gen cfg C c = .ok (m1, suite, h1) ∧ ∃ l, n'.sent = n.sent ++ m1 :: l := by
  unfold initiatorRun at h
  obtain ⟨⟨m1, suite, h1⟩, n1, e1, h⟩ := M.bind_eq_ok.1 h
  simp only [M.run_lift, Prod.mk.injEq] at e1
  obtain ⟨e1, rfl⟩ := e1
  obtain ⟨_, n2, e2, h⟩ := M.bind_eq_ok.1 h
  obtain ⟨m2, n3, e3, h⟩ := M.bind_eq_ok.1 h
  obtain ⟨⟨st, m3⟩, n4, e4, h⟩ := M.bind_eq_ok.1 h
  simp only [M.run_lift, Prod.mk.injEq] at e4
  obtain ⟨-, rfl⟩ := e4
  obtain ⟨_, n5, e5, h⟩ := M.bind_eq_ok.1 h
  obtain ⟨_, n6, e6, h⟩ := M.bind_eq_ok.1 h
  have s6 : n6.sent = n.sent ++ [m1, m3.msg] := by
    rw [(netTx_eff e6).1, (netEad_eff e5).1, (netRx_eff e3).1, (netTx_eff e2).1]; simp
  refine ⟨m1, suite, h1, e1, [m3.msg], ?_⟩
  split at h
  · obtain ⟨_, n7, e7, h⟩ := M.bind_eq_ok.1 h
    simp only [M.run_pure, Prod.mk.injEq, R.ok.injEq] at h
    unfold initiatorMsg4 at e7
    obtain ⟨_, n8, e8, e7⟩ := M.bind_eq_ok.1 e7
    obtain ⟨_, n9, e9, e7⟩ := M.bind_eq_ok.1 e7
    simp only [M.run_lift, Prod.mk.injEq] at e9
    rw [← h.2, (netEad_eff e7).1, ← e9.2, (netRx_eff e8).1, s6]
  · simp only [M.run_pure, Prod.mk.injEq, R.ok.injEq] at h
    rw [← h.2, s6]

theorem initiator_facts {cfg : ECfg} {C : ECrypto} (hC : C.Lawful) {c : ICtx} {creds : List Cred} {crBuf : Bytes} {L : Nat}
    {n n' : Net} {o : IOut} {k : Bytes} (h : initiatorRun cfg C c creds crBuf L n = (.ok o, n'))
    (hk : o.prkOut = some k) :
    ∃ m1 m2 gY c2 p2 credR pkR p3 th2 th3 suite sp,
      IFacts cfg C c creds crBuf n n' o k L m1 m2 gY c2 p2 credR pkR p3 th2 th3 suite sp := by
  obtain ⟨m1', suite', h1', e1', hs⟩ := initiator_first h
  obtain ⟨m1, suite, h1, m2, q, st, m3, e1, hq, e2, e3, rfl, hle⟩ := initiatorRun_ok h
  rw [e1] at e1'
  simp only [R.ok.injEq, Prod.mk.injEq] at e1'
  obtain ⟨rfl, rfl, rfl⟩ := e1'
  have hh1 : h1 = C.hash m1 := by
    have e1 := e1
    unfold msg1Gen at e1
    obtain ⟨_, _, e1⟩ := R.bind_eq_ok.1 e1
    obtain ⟨_, _, e1⟩ := R.bind_eq_ok.1 e1
    obtain ⟨_, _, e1⟩ := R.bind_eq_ok.1 e1
    obtain ⟨_, _, e1⟩ := R.bind_eq_ok.1 e1
    simp only [R.pure_eq, R.ok.injEq, Prod.mk.injEq] at e1
    rw [← e1.2.2, e1.1]; rfl
  rw [hh1] at e1 e2
  have e2' := e2
  unfold msg2Process at e2
  obtain ⟨_, _, e2⟩ := R.bind_eq_ok.1 e2
  obtain ⟨⟨gY, c2⟩, f1, e2⟩ := R.bind_eq_ok.1 e2
  simp only at e2
  obtain ⟨gxy, f2, e2⟩ := R.bind_eq_ok.1 e2
  obtain ⟨th2, f3, e2⟩ := R.bind_eq_ok.1 e2
  obtain ⟨ptxt, f4, e2⟩ := R.bind_eq_ok.1 e2
  obtain ⟨⟨cR, sp⟩, f5, e2⟩ := R.bind_eq_ok.1 e2
  simp only at e2
  unfold msg2Auth at e2
  obtain ⟨⟨cred, pk, g⟩, f6, e2⟩ := R.bind_eq_ok.1 e2
  simp only at e2
  obtain ⟨prk3, f7, e2⟩ := R.bind_eq_ok.1 e2
  obtain ⟨_, f8, e2⟩ := R.bind_eq_ok.1 e2
  obtain ⟨th3, f9, e2⟩ := R.bind_eq_ok.1 e2
  obtain ⟨prk4, f10, e2⟩ := R.bind_eq_ok.1 e2
  simp only [R.pure_eq, R.ok.injEq] at e2
  rw [← e2] at e3 hk ⊢
  simp only at hk
  rw [List.length_replicate] at f5
  have l3 := prkDerive_length hC (hC.base.hmac_len _ _) f7
  have l4 := prkDerive_length hC l3 f10
  unfold msg3OnlyGen at e3
  split at e3
  · cases e3
  · simp only [R.ok.injEq] at e3; rw [← e3] at hk; cases hk
  · rename_i msg3 p3 g3
    split at e3
    · cases e3
    · simp only [R.ok.injEq] at e3; rw [← e3] at hk; cases hk
    · rename_i th4 g4
      split at e3
      · cases e3
      · simp only [R.ok.injEq] at e3; rw [← e3] at hk; cases hk
      · rename_i prk g5
        simp only [R.ok.injEq] at e3
        rw [← e3] at hk
        simp only [Option.some.injEq] at hk
        rw [hk] at g5
        unfold msg3Build at g3
        obtain ⟨_, _, g3⟩ := R.bind_eq_ok.1 g3
        obtain ⟨_, _, g3⟩ := R.bind_eq_ok.1 g3
        obtain ⟨sm, g7, g3⟩ := R.bind_eq_ok.1 g3
        obtain ⟨⟨c3, p3'⟩, g6, g3⟩ := R.bind_eq_ok.1 g3
        simp only at g3
        obtain ⟨_, _, g3⟩ := R.bind_eq_ok.1 g3
        simp only [R.pure_eq, R.ok.injEq, Prod.mk.injEq] at g3
        obtain ⟨-, rfl⟩ := g3
        refine ⟨m1, m2, gY, c2, ptxt, cred, pk, p3', th2, th3, suite, sp, ?_⟩
        exact {
          gen1 := e1, first := hs, rcv := by rw [hq]; rfl, parse2 := f1, hth2 := f3, split2 := f5
          cred := ⟨g, f6⟩, hth3 := f9, gen3 := ⟨_, _, _, _, _, g6⟩
          hth4 := by rw [← e3]; exact g4
          out := by rw [← e3]; exact g5
          prkLen := l4
          inputs := by
            rw [← e3]
            exact initInputs_eq (initView_eq e1 f1 f2 f3 f4 f5 f6) (initResult_eq e1 (by rw [e2', ← e2])) g7 (ctxt_ptxt g6) g4 }

/-- what a successful responder run computed -/
structure RFacts (cfg : ECfg) (C : ECrypto) (c : RCtx) (creds : List Cred) (cICap : Nat) (n : Net) (o : ROut)
    (L : Nat) (m1 m3 p2 p3 credI th2 th3 : Bytes) (p : Parsed1) (sp : Split) : Prop where
  rcv : n.rxq.head? = some (.inr m1)
  parse1 : msg1Parse cfg m1 cICap (List.replicate cfg.eadSize 0) = .ok p
  hcI : o.cI = p.cI
  hth2 : th2Calc C (C.hash m1) c.gY = .ok th2
  gen2 : ∃ suite sm prk cap buf, ∃ c2, ciphertextGen cfg C .c2 suite c.cR c.idCredR sm c.ead2 prk th2 buf cap = .ok (c2, p2)
  hth3 : th34Calc cfg C th2 p2 c.credR = .ok th3
  split3 : plaintext3Split cfg p3 cfg.idCredISize p.ead.length = .ok sp
  cred : ∃ g, retrieveCred cfg C (authType p.method (false, false)).1 creds sp.idCred cfg.credISize = .ok (credI, o.pk, g)
  hth4 : th34Calc cfg C th3 p3 credI = .ok o.th4
  out : edhocKdf cfg C o.prk4e3m labelPrkOut o.th4 L = .ok o.prkOut
  prkLen : o.prk4e3m.length = 32
  inputs : respInputs cfg C c creds cICap m1 m3 L = .ok ⟨[m1, th2In c.gY (C.hash m1), thIn th2 p2 c.credR, thIn th3 p3 credI],
    [(o.prk4e3m, kdfIn 7 o.th4 L)]⟩

theorem responder_core {cfg : ECfg} {C : ECrypto} (hC : C.Lawful) {c : RCtx} {creds : List Cred} {cICap L : Nat}
    {n : Net} {m1 m2 m3 : Bytes} {rs : RState} {r3 : R3Out} (hq : n.rxq.head? = some (.inr m1))
    (e1 : msg2Gen cfg C c m1 cICap (List.replicate cfg.eadSize 0) = .ok (m2, rs))
    (e2 : msg3Process cfg C c creds rs m3 L = .ok r3) :
    ∃ p2 p3 credI th2 th3 p sp,
      RFacts cfg C c creds cICap n ⟨rs.cI, r3.prkOut, r3.pk, r3.th4, r3.prk4e3m⟩ L m1 m3 p2 p3 credI th2 th3 p sp := by
  have e1' := e1
  have e2' := e2
  unfold msg2Gen at e1
  obtain ⟨p, f1, e1⟩ := R.bind_eq_ok.1 e1
  split at e1
  · cases e1
  unfold msg2Build at e1
  obtain ⟨suite, f2, e1⟩ := R.bind_eq_ok.1 e1
  simp only at e1
  obtain ⟨th2, f3, e1⟩ := R.bind_eq_ok.1 e1
  obtain ⟨gxy, f4, e1⟩ := R.bind_eq_ok.1 e1
  obtain ⟨prk3, f5, e1⟩ := R.bind_eq_ok.1 e1
  obtain ⟨⟨c2, p2⟩, f6, e1⟩ := R.bind_eq_ok.1 e1
  simp only at e1
  obtain ⟨msg2, f7, e1⟩ := R.bind_eq_ok.1 e1
  obtain ⟨th3, f8, e1⟩ := R.bind_eq_ok.1 e1
  simp only [R.pure_eq, R.ok.injEq, Prod.mk.injEq] at e1
  obtain ⟨-, rfl⟩ := e1
  have l3 := prkDerive_length hC (hC.base.hmac_len _ _) f5
  have f6' := f6
  unfold ctxt2Gen at f6
  obtain ⟨sm, _, f6⟩ := R.bind_eq_ok.1 f6
  obtain ⟨_, _, f6⟩ := R.bind_eq_ok.1 f6
  unfold msg3Process at e2
  obtain ⟨_, _, e2⟩ := R.bind_eq_ok.1 e2
  obtain ⟨c3, g1, e2⟩ := R.bind_eq_ok.1 e2
  obtain ⟨_, _, e2⟩ := R.bind_eq_ok.1 e2
  obtain ⟨p3, g2, e2⟩ := R.bind_eq_ok.1 e2
  obtain ⟨sp, g3, e2⟩ := R.bind_eq_ok.1 e2
  unfold msg3Auth at e2
  obtain ⟨⟨credI, pk, gI⟩, g4, e2⟩ := R.bind_eq_ok.1 e2
  simp only at e2
  obtain ⟨prk4, g5, e2⟩ := R.bind_eq_ok.1 e2
  obtain ⟨_, g6, e2⟩ := R.bind_eq_ok.1 e2
  obtain ⟨th4, g7, e2⟩ := R.bind_eq_ok.1 e2
  obtain ⟨prk, g8, e2⟩ := R.bind_eq_ok.1 e2
  simp only [R.pure_eq, R.ok.injEq] at e2
  have l4 := prkDerive_length hC l3 g5
  refine ⟨p2, p3, credI, th2, th3, p, sp, ?_⟩
  rw [← e2]
  exact {
    rcv := hq, parse1 := f1, hcI := rfl, hth2 := f3, gen2 := ⟨_, _, _, _, _, _, f6⟩
    hth3 := f8, split3 := g3, cred := ⟨gI, g4⟩, hth4 := g7, out := g8, prkLen := l4
    inputs := by
      rw [e2]
      exact respInputs_eq (respView_eq f1 f2 f3 f4 f5 f6') e1' g1 g2 g3 g4 e2' }

theorem responder_facts {cfg : ECfg} {C : ECrypto} (hC : C.Lawful) {c : RCtx} {creds : List Cred} {cICap L : Nat}
    {n n' : Net} {o : ROut} (h : responderRun cfg C c creds cICap L n = (.ok o, n')) :
    ∃ m1 m3 q p2 p3 credI th2 th3 p sp, n.rxq = .inr m1 :: .inr m3 :: q ∧
      RFacts cfg C c creds cICap n o L m1 m3 p2 p3 credI th2 th3 p sp := by
  obtain ⟨m1, m2, rs, m3, q, r3, hq, e1, e2, rfl⟩ := responderRun_ok h
  have hq' : n.rxq.head? = some (.inr m1) := by rw [hq]; rfl
  obtain ⟨p2, p3, credI, th2, th3, p, sp, h⟩ := responder_core hC hq' e1 e2
  exact ⟨m1, m3, q, p2, p3, credI, th2, th3, p, sp, hq, h⟩

theorem th34_length {cfg : ECfg} {C : ECrypto} (hC : C.Lawful) {th pt cred t : Bytes}
    (h : th34Calc cfg C th pt cred = .ok t) : t.length = 32 := by
  rw [C47_th34_rfc9528 h]; exact hC.base.hash_len _

theorem th2_length {C : ECrypto} (hC : C.Lawful) {h1 gY t : Bytes} (h : th2Calc C h1 gY = .ok t) : t.length = 32 := by
  rw [th2_ok h]; exact hC.base.hash_len _

theorem msg2Parse_len {cfg : ECfg} {m gY c : Bytes} {cap : Nat} (h : msg2Parse cfg m cap = .ok (gY, c)) : gY.length ≤ 32 := by
  unfold msg2Parse at h
  obtain ⟨b, _, h⟩ := R.bind_eq_ok.1 h
  split at h
  · cases h
  · obtain ⟨_, _, h⟩ := R.bind_eq_ok.1 h
    simp only [R.pure_eq, R.ok.injEq, Prod.mk.injEq] at h
    rw [← h.1, List.length_take]; omega

theorem th2_gY_len {C : ECrypto} {h1 gY t : Bytes} (h : th2Calc C h1 gY = .ok t) : gY.length < 2 ^ 32 := by
  unfold th2Calc at h
  obtain ⟨_, h1, _⟩ := R.bind_eq_ok.1 h
  have := checkBufferSize_ok.1 h1
  have := le_asBstr gY.length
  have e : asBstr 32 = 34 := by decide
  omega

theorem mem4 {α β : Type} {a b c d : α} {a' b' c' d' : β} {x : α × β}
    (h : x = (a, a') ∨ x = (b, b') ∨ x = (c, c') ∨ x = (d, d')) : x ∈ [a, b, c, d].zip [a', b', c', d'] := by
  simpa using h

/-- everything follows from equal TH_4 -/
theorem transcript4 {cfgI cfgR : ECfg} {C : ECrypto} (hC : C.Lawful) {ci : ICtx} {cr : RCtx} {credsI credsR : List Cred}
    {crBuf k : Bytes} {cICap L L' : Nat} {nI nI' nR : Net} {oI : IOut} {oR : ROut}
    {m1 m2 gY c2 p2 credR pkR p3 th2 th3 : Bytes} {suite : Suite} {spR : Split}
    {m1' m3' p2' p3' credI th2' th3' : Bytes} {p : Parsed1} {spI : Split}
    (fI : IFacts cfgI C ci credsI crBuf nI nI' oI k L m1 m2 gY c2 p2 credR pkR p3 th2 th3 suite spR)
    (fR : RFacts cfgR C cr credsR cICap nR oR L' m1' m3' p2' p3' credI th2' th3' p spI) (h2 : oI.th4 = oR.th4) :
    (∃ x ∈ [m1, th2In gY (C.hash m1), thIn th2 p2 credR, thIn th3 p3 ci.credI].zip
        [m1', th2In cr.gY (C.hash m1'), thIn th2' p2' cr.credR, thIn th3' p3' credI], HashClash C x.1 x.2) ∨ (th3 = th3' ∧ th2 = th2' ∧ m1 = m1' ∧ gY = cr.gY ∧
      p2 ++ credR = p2' ++ cr.credR ∧ p3 ++ ci.credI = p3' ++ credI) := by
  have b32 : (32 : Nat) < 2 ^ 32 := by decide
  have h4 := fI.hth4
  rw [h2] at h4
  rcases C47_th34_binds h4 fR.hth4 (by rw [th34_length hC fI.hth3]; omega) (by rw [th34_length hC fR.hth3]; omega) with ⟨t3, e3, -⟩ | h
  case inr => exact .inl ⟨(_, _), mem4 (.inr (.inr (.inr rfl))), h⟩
  have h3 := fI.hth3
  rw [t3] at h3
  rcases C47_th34_binds h3 fR.hth3 (by rw [th2_length hC fI.hth2]; omega) (by rw [th2_length hC fR.hth2]; omega) with ⟨t2, e2, -⟩ | h
  case inr => exact .inl ⟨(_, _), mem4 (.inr (.inr (.inl rfl))), h⟩
  have h5 := fI.hth2
  rw [t2] at h5
  have hg := msg2Parse_len fI.parse2
  have hg' := th2_gY_len fR.hth2
  rcases C47_th2_binds h5 fR.hth2 (by omega) (by omega)
    (by rw [hC.base.hash_len]; omega) (by rw [hC.base.hash_len]; omega) with ⟨eg, eh⟩ | h
  case inr => exact .inl ⟨(_, _), mem4 (.inr (.inl rfl)), h⟩
  by_cases hm : m1 = m1'
  · exact .inr ⟨t3, t2, hm, eg, e2, e3⟩
  · exact .inl ⟨(m1, m1'), mem4 (.inl rfl), hm, eh⟩

/-- everything follows from equal PRK_out -/
theorem transcript {cfgI cfgR : ECfg} {C : ECrypto} (hC : C.Lawful) {ci : ICtx} {cr : RCtx} {credsI credsR : List Cred}
    {crBuf : Bytes} {cICap L : Nat} {nI nI' nR : Net} {oI : IOut} {oR : ROut}
    {m1 m2 gY c2 p2 credR pkR p3 th2 th3 : Bytes} {suite : Suite} {spR : Split}
    {m1' m3' p2' p3' credI th2' th3' : Bytes} {p : Parsed1} {spI : Split}
    (fI : IFacts cfgI C ci credsI crBuf nI nI' oI oR.prkOut L m1 m2 gY c2 p2 credR pkR p3 th2 th3 suite spR)
    (fR : RFacts cfgR C cr credsR cICap nR oR L m1' m3' p2' p3' credI th2' th3' p spI)
    (hL : 32 ≤ L) (hL' : L ≤ 255 * 32) :
    Clash C ⟨[m1, th2In gY (C.hash m1), thIn th2 p2 credR, thIn th3 p3 ci.credI], [(oI.prk4e3m, kdfIn 7 oI.th4 L)]⟩
      ⟨[m1', th2In cr.gY (C.hash m1'), thIn th2' p2' cr.credR, thIn th3' p3' credI], [(oR.prk4e3m, kdfIn 7 oR.th4 L)]⟩ ∨
      (oI.prk4e3m = oR.prk4e3m ∧ oI.th4 = oR.th4 ∧ th3 = th3' ∧ th2 = th2' ∧ m1 = m1' ∧ gY = cr.gY ∧
      p2 ++ credR = p2' ++ cr.credR ∧ p3 ++ ci.credI = p3' ++ credI) := by
  have b32 : (32 : Nat) < 2 ^ 32 := by decide
  rcases kdf_binds hC fI.out fR.out hL hL' (by decide) (by decide)
    (by rw [th34_length hC fI.hth4]; omega) (by rw [th34_length hC fR.hth4]; omega) with h | ⟨h1, -, h2⟩
  · exact .inl (.inr ⟨_, List.mem_singleton.2 rfl, h⟩)
  rcases transcript4 hC fI fR h2 with e | ⟨t3, t2, hm, eg, e2, e3⟩
  · exact .inl (.inl e)
  · exact .inr ⟨h1, h2, t3, t2, hm, eg, e2, e3⟩

/-- C60: over any network, if an initiator and a responder both succeed and export the same PRK_out, then
the message_1 the initiator sent is the one the responder received, the G_Y the initiator received is the
responder's, and both have the same TH_4 and PRK_4e3m; or the inputs of the two runs are a collision. -/
theorem C60_same_key_same_transcript {cfgI cfgR : ECfg} {C : ECrypto} (hC : C.Lawful) {ci : ICtx} {cr : RCtx}
    {credsI credsR : List Cred} {crBuf : Bytes} {cICap L : Nat} {nI nI' nR nR' : Net} {oI : IOut} {oR : ROut}
    (hI : initiatorRun cfgI C ci credsI crBuf L nI = (.ok oI, nI'))
    (hR : responderRun cfgR C cr credsR cICap L nR = (.ok oR, nR'))
    (hk : oI.prkOut = some oR.prkOut) (hL : 32 ≤ L) (hL' : L ≤ 255 * 32) :
    ∃ m2 m1 m3 q u w, nI.rxq.head? = some (.inr m2) ∧ nR.rxq = .inr m1 :: .inr m3 :: q ∧
      initInputs cfgI C ci credsI crBuf m2 L = .ok u ∧ respInputs cfgR C cr credsR cICap m1 m3 L = .ok w ∧
      (Clash C u w ∨ ∃ c2, (∃ later, nI'.sent = nI.sent ++ m1 :: later) ∧
        msg2Parse cfgI m2 (ctxt2Len m2.length) = .ok (cr.gY, c2) ∧
        m1 = EdhocSpec.message1 ci.method ci.suitesI ci.gX ci.cI ci.ead1 ∧
        oI.th4 = oR.th4 ∧ oI.prk4e3m = oR.prk4e3m) := by
  obtain ⟨m1, m2, gY, c2, p2, credR, pkR, p3, th2, th3, suite, spR, fI⟩ := initiator_facts hC hI hk
  obtain ⟨m1', m3', q, p2', p3', credI, th2', th3', p, spI, hq, fR⟩ := responder_facts hC hR
  refine ⟨m2, m1', m3', q, _, _, fI.rcv, hq, fI.inputs, fR.inputs, ?_⟩
  rcases transcript hC fI fR hL hL' with h | ⟨a1, a2, -, -, a5, a6, -, -⟩
  · exact .inl h
  · refine .inr ⟨c2, ?_, ?_, ?_, a2, a1⟩
    · rw [← a5]; exact fI.first
    · rw [← a6]; exact fI.parse2
    · rw [← a5]; exact C40_message_1_rfc9528 fI.gen1

/-- the ID_CRED read from a plaintext that continues like an honest one is the honest one -/
theorem idField_agree {s : Bool} {p w id y z : Bytes} {f : IdField} {l : Bytes} (hw : IdWire id w)
    (h : zIdField s p = some (f, l)) (e : p ++ y = w ++ z) {cap : Nat} {o : Bytes} (ho : idCredOf f cap = .ok o)
    (hcap : id.length ≤ cap) : o = id := by
  have h1 := zIdField_mono y h
  rw [e] at h1
  obtain ⟨f', h2, h3⟩ := zIdField_wire s hw z
  rw [h1] at h2
  simp only [Option.some.injEq, Prod.mk.injEq] at h2
  have := h3 cap hcap
  rw [← h2.1, ho] at this
  simpa using this

/-- the parameters of a session follow from its transcript -/
theorem same_session {cfgI cfgR : ECfg} {C : ECrypto} {ci : ICtx} {cr : RCtx} {credsI credsR : List Cred}
    {crBuf k wI wR : Bytes} {cICap L L' : Nat} {nI nI' nR : Net} {oI : IOut} {oR : ROut}
    {m1 m2 gY c2 p2 credR pkR p3 th2 th3 : Bytes} {suite : Suite} {spR : Split}
    {m1' m3' p2' p3' credI th2' th3' : Bytes} {p : Parsed1} {spI : Split}
    (fI : IFacts cfgI C ci credsI crBuf nI nI' oI k L m1 m2 gY c2 p2 credR pkR p3 th2 th3 suite spR)
    (fR : RFacts cfgR C cr credsR cICap nR oR L' m1' m3' p2' p3' credI th2' th3' p spI)
    (a5 : m1 = m1') (a7 : p2 ++ credR = p2' ++ cr.credR) (a8 : p3 ++ ci.credI = p3' ++ credI)
    (hm : 0 ≤ ci.method ∧ ci.method ≤ 3) (hgx : ci.gX.length ≤ 32)
    (hs : ci.suitesI.length ≤ cfgR.suitesISize) (hc : ci.cI.length ≤ cICap) (hc' : ci.cI.length < 2 ^ 32)
    (he : ci.ead1.length ≤ cfgR.eadSize) (he' : ci.ead1.length < 2 ^ 32)
    (hcr : cr.cR.length ≤ crBuf.length) (hcr' : cr.cR.length < 2 ^ 32)
    (wi : IdWire ci.idCredI wI) (wil : ci.idCredI.length ≤ cfgR.idCredISize)
    (wr : IdWire cr.idCredR wR) (wrl : cr.idCredR.length ≤ cfgI.idCredRSize) :
    oI.cR = cr.cR ∧ oR.cI = cIStored ci.cI ∧
      (∃ credI gI, retrieveCred cfgR C (authType ci.method (false, false)).1 credsR ci.idCredI cfgR.credISize
        = .ok (credI, oR.pk, gI)) ∧
      (∃ credR pkR gR, retrieveCred cfgI C (authType ci.method (false, false)).2 credsI cr.idCredR cfgI.credRSize
        = .ok (credR, pkR, gR)) := by
  have hp := C40_message_1 (cfg' := cfgR) (cICap := cICap) (ead := List.replicate cfgR.eadSize 0) fI.gen1 hm hgx hs hc hc'
    (by rw [List.length_replicate]; exact he) he'
  rw [a5, fR.parse1] at hp
  simp only [R.ok.injEq] at hp
  -- message_2
  obtain ⟨su2, sm2, prk2, cap2, buf2, ct2, g2⟩ := fR.gen2
  have q2 := ptxt2Gen_ok wr (ctxt_ptxt g2)
  have s2 := fI.split2
  unfold plaintext2Split decPtxt2 at s2
  cases hz : zIntOrBstr cfgI.strictCbor p2 with
  | none => rw [hz] at s2; cases s2
  | some t =>
    obtain ⟨cf, r1⟩ := t
    rw [hz] at s2
    simp only at s2
    unfold decPtxt3 at s2
    cases hz' : zIdField cfgI.strictCbor r1 with
    | none => rw [hz'] at s2; cases s2
    | some t =>
      obtain ⟨idf, r2⟩ := t
      rw [hz'] at s2
      simp only at s2
      cases hz'' : zBstr cfgI.strictCbor r2 with
      | none => rw [hz''] at s2; cases s2
      | some t =>
        obtain ⟨sm, r3⟩ := t
        rw [hz''] at s2
        simp only at s2
        obtain ⟨cR0, k1, s2⟩ := R.bind_eq_ok.1 s2
        obtain ⟨sp0, k2, s2⟩ := R.bind_eq_ok.1 s2
        simp only [R.pure_eq, R.ok.injEq, Prod.mk.injEq] at s2
        rw [s2.1] at k1
        rw [s2.2] at k2
        have hz0 := zIntOrBstr_mono credR hz
        rw [a7, q2] at hz0
        unfold ptxt2Of at hz0
        obtain ⟨fc, v1, v2⟩ := zIntOrBstr_connId cfgI.strictCbor hcr' (wR ++ enc (.bstr sm2) ++ cr.ead2 ++ cr.credR)
        simp only [List.append_assoc] at hz0 v1
        rw [hz0] at v1
        simp only [Option.some.injEq, Prod.mk.injEq] at v1
        have c1 : oI.cR = cr.cR := by
          have := v2 crBuf.length hcr
          rw [← v1.1, k1] at this
          simpa using this
        have id2 : spR.idCred = cr.idCredR := by
          unfold splitFields at k2
          obtain ⟨id0, k3, k2⟩ := R.bind_eq_ok.1 k2
          obtain ⟨_, _, k2⟩ := R.bind_eq_ok.1 k2
          obtain ⟨_, _, k2⟩ := R.bind_eq_ok.1 k2
          simp only [R.pure_eq, R.ok.injEq] at k2
          rw [← k2]
          exact idField_agree wr hz' v1.2 k3 wrl
        -- message_3
        obtain ⟨sm3, prk3, cap3, buf3, ct3, g3⟩ := fI.gen3
        have q3 := ptxt3Gen_ok wi (ctxt_ptxt g3)
        have s3 := fR.split3
        unfold plaintext3Split decPtxt3 at s3
        cases hy : zIdField cfgR.strictCbor p3' with
        | none => rw [hy] at s3; cases s3
        | some t =>
          obtain ⟨idf', r4⟩ := t
          rw [hy] at s3
          simp only at s3
          cases hy' : zBstr cfgR.strictCbor r4 with
          | none => rw [hy'] at s3; cases s3
          | some t =>
            obtain ⟨sm', r5⟩ := t
            rw [hy'] at s3
            simp only at s3
            have id3 : spI.idCred = ci.idCredI := by
              unfold splitFields at s3
              obtain ⟨id0, k3, s3⟩ := R.bind_eq_ok.1 s3
              obtain ⟨_, _, s3⟩ := R.bind_eq_ok.1 s3
              obtain ⟨_, _, s3⟩ := R.bind_eq_ok.1 s3
              simp only [R.pure_eq, R.ok.injEq] at s3
              rw [← s3]
              refine idField_agree wi hy (y := credI) (z := enc (.bstr sm3) ++ (ci.ead3 ++ ci.credI)) ?_ k3 wil
              rw [← a8, q3]
              unfold ptxt3Of
              simp only [List.append_assoc]
            obtain ⟨gI, hcI⟩ := fR.cred
            obtain ⟨gR, hcR⟩ := fI.cred
            refine ⟨c1, ?_, ⟨credI, gI, ?_⟩, ⟨credR, pkR, gR, ?_⟩⟩
            · rw [fR.hcI, hp]
            · rw [← id3]
              rw [hp] at hcI
              exact hcI
            · rw [← id2]; exact hcR

/-- C60, the session's parameters: over any network, if both succeed and export the same PRK_out, then
(unless a collision was found) both use the same C_R; the responder holds the initiator's C_I (as it
stores it), method, suites, G_X and EAD_1; the credential the responder looked up, whose key it returns,
belongs to the initiator's ID_CRED_I, and the one the initiator looked up to the responder's ID_CRED_R. -/
theorem C60_same_key_same_session {cfgI cfgR : ECfg} {C : ECrypto} (hC : C.Lawful) {ci : ICtx} {cr : RCtx}
    {credsI credsR : List Cred} {crBuf wI wR : Bytes} {cICap L : Nat} {nI nI' nR nR' : Net} {oI : IOut} {oR : ROut}
    (hI : initiatorRun cfgI C ci credsI crBuf L nI = (.ok oI, nI'))
    (hR : responderRun cfgR C cr credsR cICap L nR = (.ok oR, nR'))
    (hk : oI.prkOut = some oR.prkOut) (hL : 32 ≤ L) (hL' : L ≤ 255 * 32)
    (hm : 0 ≤ ci.method ∧ ci.method ≤ 3) (hgx : ci.gX.length ≤ 32)
    (hs : ci.suitesI.length ≤ cfgR.suitesISize) (hc : ci.cI.length ≤ cICap) (hc' : ci.cI.length < 2 ^ 32)
    (he : ci.ead1.length ≤ cfgR.eadSize) (he' : ci.ead1.length < 2 ^ 32)
    (hcr : cr.cR.length ≤ crBuf.length) (hcr' : cr.cR.length < 2 ^ 32)
    (wi : IdWire ci.idCredI wI) (wil : ci.idCredI.length ≤ cfgR.idCredISize)
    (wr : IdWire cr.idCredR wR) (wrl : cr.idCredR.length ≤ cfgI.idCredRSize) :
    ∃ m2 m1 m3 q u w, nI.rxq.head? = some (.inr m2) ∧ nR.rxq = .inr m1 :: .inr m3 :: q ∧
      initInputs cfgI C ci credsI crBuf m2 L = .ok u ∧ respInputs cfgR C cr credsR cICap m1 m3 L = .ok w ∧
    (Clash C u w ∨
    (oI.cR = cr.cR ∧ oR.cI = cIStored ci.cI ∧
      (∃ credI gI, retrieveCred cfgR C (authType ci.method (false, false)).1 credsR ci.idCredI cfgR.credISize
        = .ok (credI, oR.pk, gI)) ∧
      (∃ credR pkR gR, retrieveCred cfgI C (authType ci.method (false, false)).2 credsI cr.idCredR cfgI.credRSize
        = .ok (credR, pkR, gR)))) := by
  obtain ⟨m1, m2, gY, c2, p2, credR, pkR, p3, th2, th3, suite, spR, fI⟩ := initiator_facts hC hI hk
  obtain ⟨m1', m3', q, p2', p3', credI, th2', th3', p, spI, hq, fR⟩ := responder_facts hC hR
  refine ⟨m2, m1', m3', q, _, _, fI.rcv, hq, fI.inputs, fR.inputs, ?_⟩
  rcases transcript hC fI fR hL hL' with h | ⟨a1, a2, -, -, a5, a6, a7, a8⟩
  · exact .inl h
  · refine .inr ?_
    exact same_session fI fR a5 a7 a8 hm hgx hs hc hc' he he' hcr hcr' wi wil wr wrl

/-- C60, no downgrade: if the responder received anything but the message_1 the initiator sent (another
method, other suites, another G_X, C_I or EAD_1), or the initiator another G_Y than the responder's, the
two never end with the same key, unless the inputs of the two runs are a collision. -/
theorem C60_tampering_splits_keys {cfgI cfgR : ECfg} {C : ECrypto} (hC : C.Lawful) {ci : ICtx} {cr : RCtx} {u w : Inputs}
    {q : List (Err ⊕ Bytes)} {credsI credsR : List Cred} {crBuf m1' m2 m3 gY c2 : Bytes} {cICap L : Nat} {nI nI' nR nR' : Net} {oI : IOut} {oR : ROut}
    (hI : initiatorRun cfgI C ci credsI crBuf L nI = (.ok oI, nI'))
    (hR : responderRun cfgR C cr credsR cICap L nR = (.ok oR, nR'))
    (hL : 32 ≤ L) (hL' : L ≤ 255 * 32) (h1 : nR.rxq = .inr m1' :: .inr m3 :: q) (h2 : nI.rxq.head? = some (.inr m2))
    (hu : initInputs cfgI C ci credsI crBuf m2 L = .ok u) (hw : respInputs cfgR C cr credsR cICap m1' m3 L = .ok w)
    (nc : ¬ Clash C u w)
    (hg : msg2Parse cfgI m2 (ctxt2Len m2.length) = .ok (gY, c2))
    (ht : m1' ≠ EdhocSpec.message1 ci.method ci.suitesI ci.gX ci.cI ci.ead1 ∨ gY ≠ cr.gY) :
    oI.prkOut ≠ some oR.prkOut := by
  intro hk
  obtain ⟨m2', m1, m3', q', u', w', a1, a2, a3, a4, ha⟩ := C60_same_key_same_transcript hC hI hR hk hL hL'
  rw [h1] at a2
  rw [h2] at a1
  simp only [List.cons.injEq, Option.some.injEq, Sum.inr.injEq] at a1 a2
  obtain ⟨rfl, rfl, rfl⟩ := a2
  subst a1
  rw [hu] at a3
  rw [hw] at a4
  cases a3
  cases a4
  rcases ha with h | ⟨c2', -, a3, a4, -⟩
  · exact nc h
  · rw [hg] at a3
    simp only [R.ok.injEq, Prod.mk.injEq] at a3
    rcases ht with ht | ht
    · exact ht a4
    · exact ht a3.1

/-- the hypotheses of C60 are met by a concrete run, here with both parties authenticating by static DH -/
example : ∃ nI nI' nR nR' oI oR,
    initiatorRun {} toyE (toyI 3) toyCredsR (List.replicate 10 0) 32 nI = (.ok oI, nI') ∧
    responderRun {} toyE toyR toyCredsI 10 32 nR = (.ok oR, nR') ∧ oI.prkOut = some oR.prkOut ∧
    toyE.Lawful ∧ IdWire toyR.idCredR toyR.idCredR ∧ IdWire (toyI 3).idCredI [0x2b] ∧
    toyR.cR.length ≤ 10 ∧ (toyI 3).cI.length ≤ 10 ∧ (toyI 3).idCredI.length ≤ ({} : ECfg).idCredISize :=
  let ⟨_, _, _, oI, oR, nI, nR, a, _, c, _, e, _⟩ := C39_partial (ex_honest (.inr ⟨rfl, rfl, rfl⟩)) ⟨rfl, rfl⟩
  ⟨_, nI, _, nR, oI, oR, a, c, e, toyE_lawful, ex_wire_r, ex_wire_i, by decide, by decide, by decide⟩

/-- another initiator, its message_1 and the responder's answer -/
def exTI : ICtx := { toyI 3 with cI := [0xaa, 0xbc] }
def exT1 : Bytes := match msg1Gen {} toyE exTI with | .ok (m, _) => m | _ => []
def exT2 : Bytes := match msg2Gen {} toyE toyR exT1 10 [] with | .ok (m, _) => m | _ => []

/-- decides `Clash` -/
def clashB (C : ECrypto) (u v : Inputs) : Bool :=
  (u.hashed.zip v.hashed).any (fun x => x.1 ≠ x.2 ∧ C.hash x.1 = C.hash x.2) ||
    (u.hmaced.zip v.hmaced).any (fun x => x.1 ≠ x.2 ∧ C.hmac x.1.1 x.1.2 = C.hmac x.2.1 x.2.2)

theorem clashB_iff {C : ECrypto} {u v : Inputs} : clashB C u v = true ↔ Clash C u v := by
  unfold clashB Clash HashClash HmacClash
  simp only [Bool.or_eq_true, List.any_eq_true, decide_eq_true_eq]

/-- the hypotheses of `C60_tampering_splits_keys` are met: the initiator's run and a responder's run with the message_1
and message_3 of an attacker (C41), without a collision between them -/
example : ∃ oI nI' oR nR' u w gY c2,
    initiatorRun {} toyE exTI toyCredsR (List.replicate 10 0) 32 (netOf [exT2]) = (.ok oI, nI') ∧
    responderRun {} toyE toyR toyCredsI 10 32 (netOf [forgeMsg1, forgeMsg3]) = (.ok oR, nR') ∧
    initInputs {} toyE exTI toyCredsR (List.replicate 10 0) exT2 32 = .ok u ∧
    respInputs {} toyE toyR toyCredsI 10 forgeMsg1 forgeMsg3 32 = .ok w ∧ ¬ Clash toyE u w ∧
    msg2Parse {} exT2 (ctxt2Len exT2.length) = .ok (gY, c2) ∧
    forgeMsg1 ≠ EdhocSpec.message1 exTI.method exTI.suitesI exTI.gX exTI.cI exTI.ead1 := by
  have okN : ∀ {α : Type} (x : R α × Net), (match x.1 with | .ok _ => true | _ => false) = true → ∃ o n, x = (.ok o, n) := by
    rintro α ⟨r, n⟩ h
    cases r with
    | ok o => exact ⟨o, n, rfl⟩
    | err e => cases h
    | ub => cases h
  have ok2 : ∀ (x y : R Inputs), (match x, y with | .ok u, .ok w => !clashB toyE u w | _, _ => false) = true →
      ∃ u w, x = .ok u ∧ y = .ok w ∧ ¬ Clash toyE u w := by
    intro x y h
    cases x with
    | ok u =>
      cases y with
      | ok w => exact ⟨u, w, rfl, rfl, fun hc => by dsimp only at h; rw [clashB_iff.2 hc] at h; cases h⟩
      | err e => cases h
      | ub => cases h
    | err e => cases h
    | ub => cases h
  have okP : ∀ (x : R (Bytes × Bytes)), x.isOk = true → ∃ a b, x = .ok (a, b) := by
    intro x h
    cases x with
    | ok o => exact ⟨o.1, o.2, rfl⟩
    | err e => cases h
    | ub => cases h
  obtain ⟨oI, nI', h1⟩ := okN (initiatorRun {} toyE exTI toyCredsR (List.replicate 10 0) 32 (netOf [exT2])) (by decide +kernel)
  obtain ⟨oR, nR', h2⟩ := okN (responderRun {} toyE toyR toyCredsI 10 32 (netOf [forgeMsg1, forgeMsg3])) (by decide +kernel)
  obtain ⟨u, w, h3, h4, h5⟩ := ok2 (initInputs {} toyE exTI toyCredsR (List.replicate 10 0) exT2 32)
    (respInputs {} toyE toyR toyCredsI 10 forgeMsg1 forgeMsg3 32) (by decide +kernel)
  obtain ⟨gY, c2, h6⟩ := okP (msg2Parse {} exT2 (ctxt2Len exT2.length)) (by decide +kernel)
  exact ⟨oI, nI', oR, nR', u, w, gY, c2, h1, h2, h3, h4, h5, h6, by decide +kernel⟩

end Verif.Edhoc
