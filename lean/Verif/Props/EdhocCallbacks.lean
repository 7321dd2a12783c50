import Verif.Props.EdhocPeer
import Verif.Props.EdhocAbort
/-
C80: what the callbacks `tx` and `ead_process` are given, in every run, whatever it returns.
-/
namespace Verif.Edhoc
open Verif

/-! ### specification -/

/-- The authentication of message_2 succeeded: with a signature key of the responder, the signature verified over the
string that contains EAD_2; with a static Diffie-Hellman key, the received field is (a prefix of, see C41) the MAC over
a context that contains EAD_2, under the PRK_3e2m of the responder's static key. -/
def Authentic2 (cfg : ECfg) (C : ECrypto) (c : ICtx) (creds : List Cred) (crBuf : Bytes) (v : IView) : Prop :=
  if (authType c.method (false, false)).2 = false then
    ∃ msg, v.verified cfg C crBuf = .ok msg ∧ C.verify v.suite.sign v.pkR msg v.sp.sigOrMac = some true
  else
    ∃ gR prk3 mac2, retrieveCred cfg C true creds v.sp.idCred cfg.credRSize = .ok (v.credR, v.pkR, gR) ∧
      prkDerive cfg C true v.suite 1 v.th2 (hkdfExtract C.toCrypto v.th2 v.gxy) gR c.x = .ok prk3 ∧
      mac cfg C prk3 v.cR (crBuf.drop v.cR.length) v.th2 v.sp.idCred v.credR v.sp.ead 2 true v.suite = .ok mac2 ∧
      v.sp.sigOrMac <+: mac2

/-- The authentication of message_3 succeeded: the ciphertext has a valid tag under the keys of this session, and the
signature (or the MAC, as above) is over a string that contains EAD_3. -/
def Authentic3 (cfg : ECfg) (C : ECrypto) (c : RCtx) (creds : List Cred) (rs : RState) (m3 : Bytes) (sp : Split) : Prop :=
  ∃ ct key iv aad p3 cred pk gI, decodeBstr cfg m3 m3.length = .ok ct ∧
    keyGen cfg C .c3 rs.prk3e2m rs.th3 ct.length = .ok (key, iv) ∧ assocData rs.th3 = .ok aad ∧
    C.aeadDec key iv aad rs.suite.aead.tagLen ct = some p3 ∧
    plaintext3Split cfg p3 cfg.idCredISize rs.ead.length = .ok sp ∧
    retrieveCred cfg C rs.staticDhI creds sp.idCred cfg.credISize = .ok (cred, pk, gI) ∧
    if rs.staticDhI = false then
      ∃ mac3 msg, mac cfg C rs.prk3e2m [] [] rs.th3 sp.idCred cred sp.ead 6 false rs.suite = .ok mac3 ∧
        sigStruct cfg rs.th3 sp.idCred cred sp.ead mac3 = .ok msg ∧ C.verify rs.suite.sign pk msg sp.sigOrMac = some true
    else
      ∃ prk4 mac3, prkDerive cfg C true rs.suite 5 rs.th3 rs.prk3e2m gI c.y = .ok prk4 ∧
        mac cfg C prk4 [] [] rs.th3 sp.idCred cred sp.ead 6 true rs.suite = .ok mac3 ∧ sp.sigOrMac <+: mac3

/-- EAD_4 comes out of a message_4 with a valid tag under the keys of this session (`cap`: room for it). -/
def Authentic4 (cfg : ECfg) (C : ECrypto) (suite : Suite) (prk4e3m th4 m4 : Bytes) (cap : Nat) (ead4 : Bytes) : Prop :=
  ∃ ct key iv aad p4, decodeBstr cfg m4 cfg.plaintext4Size = .ok ct ∧ keyGen cfg C .c4 prk4e3m th4 ct.length = .ok (key, iv) ∧
    assocData th4 = .ok aad ∧ C.aeadDec key iv aad suite.aead.tagLen ct = some p4 ∧
    (p4 = [] ∧ ead4 = [] ∨ p4 ≠ [] ∧ decodeBstr cfg p4 cap = .ok ead4)

/-! ### the callbacks -/

theorem netTx_cases (m : Bytes) (n : Net) : ∃ n1, (netTx m n = (.ok (), n1) ∨ ∃ e, netTx m n = (.err e, n1)) ∧
    n1.sent = n.sent ++ [m] ∧ n1.eads = n.eads ∧ n1.rxq = n.rxq := by
  unfold netTx
  split
  · exact ⟨_, .inr ⟨_, rfl⟩, rfl, rfl, rfl⟩
  · exact ⟨_, .inl rfl, rfl, rfl, rfl⟩

theorem netEad_cases (m : Bytes) (n : Net) : ∃ n1, (netEad m n = (.ok (), n1) ∨ ∃ e, netEad m n = (.err e, n1)) ∧
    n1.sent = n.sent ∧ n1.eads = n.eads ++ [m] ∧ n1.rxq = n.rxq := by
  unfold netEad
  split
  · exact ⟨_, .inr ⟨_, rfl⟩, rfl, rfl, rfl⟩
  · exact ⟨_, .inl rfl, rfl, rfl, rfl⟩

theorem netRx_cases (cap : Nat) (n : Net) : ∃ n1, ((∃ m, netRx cap n = (.ok m, n1) ∧ n.rxq = .inr m :: n1.rxq) ∨
    ∃ e, netRx cap n = (.err e, n1)) ∧ n1.sent = n.sent ∧ n1.eads = n.eads := by
  unfold netRx
  split
  · exact ⟨_, .inr ⟨_, rfl⟩, rfl, rfl⟩
  · exact ⟨_, .inr ⟨_, rfl⟩, rfl, rfl⟩
  · rename_i m q hq
    split
    · exact ⟨_, .inl ⟨m, rfl, hq⟩, rfl, rfl⟩
    · exact ⟨_, .inr ⟨_, rfl⟩, rfl, rfl⟩

theorem M.lift_ub' {σ α β : Type} {x : R α} {f : α → M σ β} {s : σ} (h : x = .ub) :
    (((M.lift x : M σ α) >>= f) s).2 = s := by subst h; rfl

/-- what a run of the initiator does to the network, step by step -/
theorem init_trace (cfg : ECfg) (C : ECrypto) (c : ICtx) (creds : List Cred) (crBuf : Bytes) (L : Nat) (n : Net) :
    ∃ n', (initiatorRun cfg C c creds crBuf L n).2 = n' ∧
    ((n'.sent = n.sent ∧ n'.eads = n.eads) ∨
    ∃ m1 suite h1, msg1Gen cfg C c = .ok (m1, suite, h1) ∧
    ((n'.sent = n.sent ++ [m1] ∧ n'.eads = n.eads) ∨
    ∃ m2 q st, n.rxq = .inr m2 :: q ∧
      msg2Process cfg C c creds suite h1 m2 (authType c.method (false, false)).1 (authType c.method (false, false)).2 crBuf
        (List.replicate cfg.eadSize 0) = .ok st ∧
      ∃ o, msg3OnlyGen cfg C c suite (authType c.method (false, false)).1 st m2 L = .ok o ∧
    ((n'.sent = n.sent ++ [m1] ∧ n'.eads = n.eads ++ [st.ead]) ∨
     (n'.sent = n.sent ++ [m1, o.msg] ∧
      (n'.eads = n.eads ++ [st.ead] ∨
       cfg.message4 = true ∧ ∃ m4 q' ead4, q = .inr m4 :: q' ∧
         msg4Process cfg C suite st.prk4e3m o.th4 m4 st.ead.length = .ok ead4 ∧ n'.eads = n.eads ++ [st.ead, ead4]))))) := by
  refine ⟨_, rfl, ?_⟩
  unfold initiatorRun
  cases a1 : msg1Gen cfg C c with
  | err e => rw [M.lift_err' rfl]; exact .inl ⟨rfl, rfl⟩
  | ub => rw [M.lift_ub' rfl]; exact .inl ⟨rfl, rfl⟩
  | ok t =>
  obtain ⟨m1, suite, h1⟩ := t
  rw [M.lift_ok' rfl]
  refine .inr ⟨m1, suite, h1, rfl, ?_⟩
  dsimp only
  obtain ⟨n1, b1 | ⟨e, b1⟩, s1, d1, r1⟩ := netTx_cases m1 n
  case inr => rw [M.bind_err' b1]; exact .inl ⟨s1, d1⟩
  rw [M.bind_ok' b1]
  obtain ⟨n2, ⟨m2, b2, q2⟩ | ⟨e, b2⟩, s2, d2⟩ := netRx_cases cfg.msgMaxSize n1
  case inr => rw [M.bind_err' b2]; exact .inl ⟨s2.trans s1, d2.trans d1⟩
  rw [M.bind_ok' b2]
  cases a2 : msg3Gen cfg C c creds suite h1 m2 crBuf (List.replicate cfg.eadSize 0) L with
  | err e => rw [M.lift_err' rfl]; exact .inl ⟨s2.trans s1, d2.trans d1⟩
  | ub => rw [M.lift_ub' rfl]; exact .inl ⟨s2.trans s1, d2.trans d1⟩
  | ok t =>
  obtain ⟨st, o⟩ := t
  rw [M.lift_ok' rfl]
  unfold msg3Gen at a2
  obtain ⟨st', a3, a2⟩ := R.bind_eq_ok.1 a2
  obtain ⟨o', a4, a2⟩ := R.bind_eq_ok.1 a2
  simp only [R.pure_eq, R.ok.injEq, Prod.mk.injEq] at a2
  obtain ⟨rfl, rfl⟩ := a2
  refine .inr ⟨m2, n2.rxq, st', by rw [← r1, q2], a3, o', a4, ?_⟩
  dsimp only
  obtain ⟨n3, b3 | ⟨e, b3⟩, s3, d3, r3⟩ := netEad_cases st'.ead n2
  case inr => rw [M.bind_err' b3]; exact .inl ⟨by rw [s3, s2, s1], by rw [d3, d2, d1]⟩
  rw [M.bind_ok' b3]
  obtain ⟨n4, b4 | ⟨e, b4⟩, s4, d4, r4⟩ := netTx_cases o'.msg n3
  case inr =>
    rw [M.bind_err' b4]
    exact .inr ⟨by rw [s4, s3, s2, s1, List.append_assoc]; rfl, .inl (by rw [d4, d3, d2, d1])⟩
  rw [M.bind_ok' b4]
  have hs : n4.sent = n.sent ++ [m1, o'.msg] := by rw [s4, s3, s2, s1, List.append_assoc]; rfl
  have hd : n4.eads = n.eads ++ [st'.ead] := by rw [d4, d3, d2, d1]
  cases hm : cfg.message4 with
  | false => exact .inr ⟨hs, .inl hd⟩
  | true =>
  rw [if_pos rfl]
  have fin : ∀ (x : M Net Unit) (y : IOut), ((x >>= fun _ => pure y) n4).2 = (x n4).2 := by
    intro x y
    rw [M.run_bind]
    split <;> rename_i he <;> rw [he] <;> rfl
  rw [fin]
  unfold initiatorMsg4
  obtain ⟨n5, ⟨m4, b5, q5⟩ | ⟨e, b5⟩, s5, d5⟩ := netRx_cases cfg.msgMaxSize n4
  case inr => rw [M.bind_err' b5]; exact .inr ⟨s5.trans hs, .inl (d5.trans hd)⟩
  rw [M.bind_ok' b5]
  cases a5 : msg4Process cfg C suite st'.prk4e3m o'.th4 m4 st'.ead.length with
  | err e => rw [M.lift_err' rfl]; exact .inr ⟨s5.trans hs, .inl (d5.trans hd)⟩
  | ub => rw [M.lift_ub' rfl]; exact .inr ⟨s5.trans hs, .inl (d5.trans hd)⟩
  | ok ead4 =>
  rw [M.lift_ok' rfl]
  obtain ⟨n6, b6, s6, d6, r6⟩ := netEad_cases ead4 n5
  have e6 : (netEad ead4 n5).2 = n6 := by
    rcases b6 with b6 | ⟨e, b6⟩ <;> rw [b6]
  rw [e6]
  refine .inr ⟨by rw [s6, s5, hs], .inr ⟨rfl, m4, n5.rxq, ead4, by rw [← q5, r4, r3], a5, ?_⟩⟩
  rw [d6, d5, hd, List.append_assoc]; rfl

/-- what a run of the responder does to the network, step by step -/
theorem resp_trace (cfg : ECfg) (C : ECrypto) (c : RCtx) (creds : List Cred) (cICap L : Nat) (n : Net) :
    ∃ n', (responderRun cfg C c creds cICap L n).2 = n' ∧
    ((n'.sent = n.sent ∧ n'.eads = n.eads) ∨
    ∃ m1 q m2 rs, n.rxq = .inr m1 :: q ∧ msg2Gen cfg C c m1 cICap (List.replicate cfg.eadSize 0) = .ok (m2, rs) ∧
    ((n'.sent = n.sent ∧ n'.eads = n.eads ++ [rs.ead]) ∨ (n'.sent = n.sent ++ [m2] ∧ n'.eads = n.eads ++ [rs.ead]) ∨
    ∃ m3 q' o, q = .inr m3 :: q' ∧ msg3Process cfg C c creds rs m3 L = .ok o ∧ n'.eads = n.eads ++ [rs.ead, o.ead] ∧
     (n'.sent = n.sent ++ [m2] ∨
      cfg.message4 = true ∧ ∃ m4, msg4Gen cfg C c.ead4 rs.suite o.prk4e3m o.th4 m3.length = .ok m4 ∧
        n'.sent = n.sent ++ [m2, m4]))) := by
  refine ⟨_, rfl, ?_⟩
  unfold responderRun
  obtain ⟨n1, ⟨m1, b1, q1⟩ | ⟨e, b1⟩, s1, d1⟩ := netRx_cases cfg.msgMaxSize n
  case inr => rw [M.bind_err' b1]; exact .inl ⟨s1, d1⟩
  rw [M.bind_ok' b1]
  cases a1 : msg2Gen cfg C c m1 cICap (List.replicate cfg.eadSize 0) with
  | err e => rw [M.lift_err' rfl]; exact .inl ⟨s1, d1⟩
  | ub => rw [M.lift_ub' rfl]; exact .inl ⟨s1, d1⟩
  | ok t =>
  obtain ⟨m2, rs⟩ := t
  rw [M.lift_ok' rfl]
  refine .inr ⟨m1, n1.rxq, m2, rs, q1, a1, ?_⟩
  dsimp only
  obtain ⟨n2, b2 | ⟨e, b2⟩, s2, d2, r2⟩ := netEad_cases rs.ead n1
  case inr => rw [M.bind_err' b2]; exact .inl ⟨s2.trans s1, by rw [d2, d1]⟩
  rw [M.bind_ok' b2]
  obtain ⟨n3, b3 | ⟨e, b3⟩, s3, d3, r3⟩ := netTx_cases m2 n2
  case inr => rw [M.bind_err' b3]; exact .inr (.inl ⟨by rw [s3, s2, s1], by rw [d3, d2, d1]⟩)
  rw [M.bind_ok' b3]
  have hs : n3.sent = n.sent ++ [m2] := by rw [s3, s2, s1]
  have hd : n3.eads = n.eads ++ [rs.ead] := by rw [d3, d2, d1]
  obtain ⟨n4, ⟨m3, b4, q4⟩ | ⟨e, b4⟩, s4, d4⟩ := netRx_cases cfg.msgMaxSize n3
  case inr => rw [M.bind_err' b4]; exact .inr (.inl ⟨s4.trans hs, d4.trans hd⟩)
  rw [M.bind_ok' b4]
  cases a2 : msg3Process cfg C c creds rs m3 L with
  | err e => rw [M.lift_err' rfl]; exact .inr (.inl ⟨s4.trans hs, d4.trans hd⟩)
  | ub => rw [M.lift_ub' rfl]; exact .inr (.inl ⟨s4.trans hs, d4.trans hd⟩)
  | ok o =>
  rw [M.lift_ok' rfl]
  refine .inr (.inr ⟨m3, n4.rxq, o, by rw [← r2, ← r3, q4], a2, ?_⟩)
  obtain ⟨n5, b5 | ⟨e, b5⟩, s5, d5, r5⟩ := netEad_cases o.ead n4
  case inr =>
    rw [M.bind_err' b5]
    exact ⟨by rw [d5, d4, hd, List.append_assoc]; rfl, .inl (by rw [s5, s4, hs])⟩
  rw [M.bind_ok' b5]
  have hs5 : n5.sent = n.sent ++ [m2] := by rw [s5, s4, hs]
  have hd5 : n5.eads = n.eads ++ [rs.ead, o.ead] := by rw [d5, d4, hd, List.append_assoc]; rfl
  cases hm : cfg.message4 with
  | false => exact ⟨hd5, .inl hs5⟩
  | true =>
  rw [if_pos rfl]
  have fin : ∀ (x : M Net Unit) (y : ROut), ((x >>= fun _ => pure y) n5).2 = (x n5).2 := by
    intro x y
    rw [M.run_bind]
    split <;> rename_i he <;> rw [he] <;> rfl
  rw [fin]
  unfold responderMsg4
  cases a5 : msg4Gen cfg C c.ead4 rs.suite o.prk4e3m o.th4 m3.length with
  | err e => rw [M.lift_err' rfl]; exact ⟨hd5, .inl hs5⟩
  | ub => rw [M.lift_ub' rfl]; exact ⟨hd5, .inl hs5⟩
  | ok m4 =>
  rw [M.lift_ok' rfl]
  obtain ⟨n6, b6, s6, d6, r6⟩ := netTx_cases m4 n5
  have e6 : (netTx m4 n5).2 = n6 := by
    rcases b6 with b6 | ⟨e, b6⟩ <;> rw [b6]
  rw [e6]
  exact ⟨by rw [d6, hd5], .inr ⟨rfl, m4, rfl, by rw [s6, hs5, List.append_assoc]; rfl⟩⟩

/-! ### what an accepted message proves -/

theorem dec_tag {cfg : ECfg} {C : ECrypto} {ct : Ctxt} {suite : Suite} {prk th c p : Bytes} (hct : ct ≠ .c2)
    (h : ctxtDecrypt cfg C ct suite prk th c = .ok p) :
    ∃ key iv aad, keyGen cfg C ct prk th c.length = .ok (key, iv) ∧ assocData th = .ok aad ∧
      C.aeadDec key iv aad suite.aead.tagLen c = some p := by
  unfold ctxtDecrypt at h
  obtain ⟨⟨key, iv⟩, h1, h⟩ := R.bind_eq_ok.1 h
  simp only at h
  obtain ⟨aad, h2, h⟩ := R.bind_eq_ok.1 h
  rw [if_neg hct] at h
  split at h
  · cases h
  split at h
  · rename_i p' h3
    simp only [R.pure_eq, R.ok.injEq] at h
    rw [h] at h3
    exact ⟨key, iv, aad, h1, h2, h3⟩
  · cases h

theorem authentic2 {cfg : ECfg} {C : ECrypto} {c : ICtx} {creds : List Cred} {crBuf m1 h1 m2 : Bytes} {suite : Suite}
    {st : IState} (e1 : msg1Gen cfg C c = .ok (m1, suite, h1))
    (e2 : msg2Process cfg C c creds suite h1 m2 (authType c.method (false, false)).1 (authType c.method (false, false)).2 crBuf
      (List.replicate cfg.eadSize 0) = .ok st) :
    ∃ v, initView cfg C c creds crBuf m2 = .ok v ∧ v.sp.ead = st.ead ∧ v.m1 = m1 ∧ v.suite = suite ∧
      Authentic2 cfg C c creds crBuf v := by
  have h := e2
  unfold msg2Process at h
  obtain ⟨_, _, h⟩ := R.bind_eq_ok.1 h
  obtain ⟨⟨gY, c2⟩, f1, h⟩ := R.bind_eq_ok.1 h
  simp only at h
  obtain ⟨gxy, f2, h⟩ := R.bind_eq_ok.1 h
  obtain ⟨th2, f3, h⟩ := R.bind_eq_ok.1 h
  obtain ⟨ptxt, f4, h⟩ := R.bind_eq_ok.1 h
  obtain ⟨⟨cR, sp⟩, f5, h⟩ := R.bind_eq_ok.1 h
  simp only at h
  unfold msg2Auth at h
  obtain ⟨⟨cred, pk, g⟩, f6, h⟩ := R.bind_eq_ok.1 h
  simp only at h
  obtain ⟨prk3, f7, h⟩ := R.bind_eq_ok.1 h
  obtain ⟨_, f8, h⟩ := R.bind_eq_ok.1 h
  obtain ⟨th3, f9, h⟩ := R.bind_eq_ok.1 h
  obtain ⟨prk4, f10, h⟩ := R.bind_eq_ok.1 h
  simp only [R.pure_eq, R.ok.injEq] at h
  subst h
  rw [List.length_replicate] at f5
  rw [msg1Gen_hash e1] at f3
  refine ⟨_, initView_eq e1 f1 f2 f3 f4 f5 f6, rfl, rfl, rfl, ?_⟩
  unfold Authentic2
  split
  · rename_i hs
    rw [hs] at f6 f7 f8
    unfold prkDerive at f7
    simp only [Bool.false_eq_true, ↓reduceIte, R.pure_eq, R.ok.injEq] at f7
    subst f7
    obtain ⟨m, s, k1, k2, k3⟩ := verify_sig_full f8
    refine ⟨s, ?_, k3⟩
    unfold IView.verified
    dsimp only
    rw [k1, R.ok_bind, k2]
  · rename_i hs
    have hs : (authType c.method (false, false)).2 = true := by simpa using hs
    rw [hs] at f6 f7 f8
    obtain ⟨m, k1, k2⟩ := C41_accepted_iff.1 f8
    exact ⟨g, prk3, m, f6, f7, k1, k2⟩

theorem authentic3 {cfg : ECfg} {C : ECrypto} {c : RCtx} {creds : List Cred} {m3 : Bytes} {rs : RState} {L : Nat} {o : R3Out}
    (e : msg3Process cfg C c creds rs m3 L = .ok o) : ∃ sp, sp.ead = o.ead ∧ Authentic3 cfg C c creds rs m3 sp := by
  unfold msg3Process at e
  obtain ⟨_, _, e⟩ := R.bind_eq_ok.1 e
  obtain ⟨c3, g1, e⟩ := R.bind_eq_ok.1 e
  obtain ⟨_, _, e⟩ := R.bind_eq_ok.1 e
  obtain ⟨p3, g2, e⟩ := R.bind_eq_ok.1 e
  obtain ⟨sp, g3, e⟩ := R.bind_eq_ok.1 e
  unfold msg3Auth at e
  obtain ⟨⟨credI, pk, gI⟩, g4, e⟩ := R.bind_eq_ok.1 e
  simp only at e
  obtain ⟨prk4, g5, e⟩ := R.bind_eq_ok.1 e
  obtain ⟨_, g6, e⟩ := R.bind_eq_ok.1 e
  obtain ⟨th4, g7, e⟩ := R.bind_eq_ok.1 e
  obtain ⟨prk, g8, e⟩ := R.bind_eq_ok.1 e
  simp only [R.pure_eq, R.ok.injEq] at e
  subst e
  obtain ⟨key, iv, aad, t1, t2, t3⟩ := dec_tag (by decide) g2
  refine ⟨sp, rfl, c3, key, iv, aad, p3, credI, pk, gI, g1, t1, t2, t3, g3, g4, ?_⟩
  split
  · rename_i hs
    rw [hs] at g5 g6
    unfold prkDerive at g5
    simp only [Bool.false_eq_true, ↓reduceIte, R.pure_eq, R.ok.injEq] at g5
    subst g5
    exact verify_sig_full g6
  · rename_i hs
    have hs : rs.staticDhI = true := by simpa using hs
    rw [hs] at g5 g6
    obtain ⟨m, k1, k2⟩ := C41_accepted_iff.1 g6
    exact ⟨prk4, m, g5, k1, k2⟩

theorem authentic4 {cfg : ECfg} {C : ECrypto} {suite : Suite} {prk th m4 ead4 : Bytes} {cap : Nat}
    (h : msg4Process cfg C suite prk th m4 cap = .ok ead4) : Authentic4 cfg C suite prk th m4 cap ead4 := by
  unfold msg4Process at h
  obtain ⟨c4, g1, h⟩ := R.bind_eq_ok.1 h
  obtain ⟨_, _, h⟩ := R.bind_eq_ok.1 h
  obtain ⟨p4, g2, h⟩ := R.bind_eq_ok.1 h
  obtain ⟨key, iv, aad, t1, t2, t3⟩ := dec_tag (by decide) g2
  refine ⟨c4, key, iv, aad, p4, g1, t1, t2, t3, ?_⟩
  unfold ead4Of at h
  split at h
  · rename_i hp
    exact .inr ⟨fun e => hp (by rw [e]; rfl), h⟩
  · rename_i hp
    simp only [R.ok.injEq] at h
    exact .inl ⟨List.length_eq_zero_iff.1 (by simpa using hp), h.symm⟩

/-! ### C80 -/

/-- C80, initiator: in every run of `edhoc_initiator_run`, whatever it returns and whatever the callbacks answer, `tx` gets
nothing, message_1, or message_1 and one further message, and `ead_process` gets nothing, one or (only with MESSAGE_4) two
values.  The further message and the first value appear only if a message_2 was received whose authentication
succeeded, and the value is its EAD_2; the second value is the EAD_4 of a message_4 with a valid tag under the keys that
follow from this message_2 and the message_3 sent. -/
theorem C80_initiator (cfg : ECfg) (C : ECrypto) (c : ICtx) (creds : List Cred) (crBuf : Bytes) (L : Nat) (n : Net) :
    ∃ n', (initiatorRun cfg C c creds crBuf L n).2 = n' ∧
    ((n'.sent = n.sent ∧ n'.eads = n.eads) ∨
    ∃ m1 suite h1, msg1Gen cfg C c = .ok (m1, suite, h1) ∧
    ((n'.sent = n.sent ++ [m1] ∧ n'.eads = n.eads) ∨
    ∃ m2 q v, n.rxq = .inr m2 :: q ∧ initView cfg C c creds crBuf m2 = .ok v ∧ v.m1 = m1 ∧
      Authentic2 cfg C c creds crBuf v ∧
      ((n'.sent = n.sent ++ [m1] ∧ n'.eads = n.eads ++ [v.sp.ead]) ∨
       ∃ st o, initResult cfg C c creds crBuf m2 = .ok (m1, suite, st) ∧
        msg3OnlyGen cfg C c suite (authType c.method (false, false)).1 st m2 L = .ok o ∧ n'.sent = n.sent ++ [m1, o.msg] ∧
        (n'.eads = n.eads ++ [v.sp.ead] ∨
         cfg.message4 = true ∧ ∃ m4 q' ead4, q = .inr m4 :: q' ∧
          Authentic4 cfg C suite st.prk4e3m o.th4 m4 v.sp.ead.length ead4 ∧ n'.eads = n.eads ++ [v.sp.ead, ead4])))) := by
  obtain ⟨n', hn, h⟩ := init_trace cfg C c creds crBuf L n
  refine ⟨n', hn, ?_⟩
  rcases h with h | ⟨m1, suite, h1, a1, h⟩
  · exact .inl h
  refine .inr ⟨m1, suite, h1, a1, ?_⟩
  rcases h with h | ⟨m2, q, st, hq, a2, o, a3, h⟩
  · exact .inl h
  obtain ⟨v, v1, v2, v3, v4, v5⟩ := authentic2 a1 a2
  refine .inr ⟨m2, q, v, hq, v1, v3, v5, ?_⟩
  rw [v2]
  rcases h with h | ⟨h, h'⟩
  · exact .inl h
  refine .inr ⟨st, o, initResult_eq a1 a2, a3, h, ?_⟩
  rcases h' with h' | ⟨hm, m4, q', ead4, hq', a4, h'⟩
  · exact .inl h'
  · exact .inr ⟨hm, m4, q', ead4, hq', authentic4 a4, h'⟩

/-- C80, responder: in every run of `edhoc_responder_run`, whatever it returns, `tx` gets nothing, message_2, or (only with
MESSAGE_4) message_2 and message_4, and `ead_process` nothing, EAD_1, or EAD_1 and EAD_3; the second value and message_4
appear only if a message_3 was received whose authentication succeeded, and the value is its EAD_3. -/
theorem C80_responder (cfg : ECfg) (C : ECrypto) (c : RCtx) (creds : List Cred) (cICap L : Nat) (n : Net) :
    ∃ n', (responderRun cfg C c creds cICap L n).2 = n' ∧
    ((n'.sent = n.sent ∧ n'.eads = n.eads) ∨
    ∃ m1 q m2 rs, n.rxq = .inr m1 :: q ∧ msg2Gen cfg C c m1 cICap (List.replicate cfg.eadSize 0) = .ok (m2, rs) ∧
    ((n'.sent = n.sent ∧ n'.eads = n.eads ++ [rs.ead]) ∨ (n'.sent = n.sent ++ [m2] ∧ n'.eads = n.eads ++ [rs.ead]) ∨
    ∃ m3 q' sp, q = .inr m3 :: q' ∧ Authentic3 cfg C c creds rs m3 sp ∧ n'.eads = n.eads ++ [rs.ead, sp.ead] ∧
     (n'.sent = n.sent ++ [m2] ∨ cfg.message4 = true ∧ ∃ m4, n'.sent = n.sent ++ [m2, m4]))) := by
  obtain ⟨n', hn, h⟩ := resp_trace cfg C c creds cICap L n
  refine ⟨n', hn, ?_⟩
  rcases h with h | ⟨m1, q, m2, rs, hq, a1, h⟩
  · exact .inl h
  refine .inr ⟨m1, q, m2, rs, hq, a1, ?_⟩
  rcases h with h | h | ⟨m3, q', o, hq', a2, h, h'⟩
  · exact .inl h
  · exact .inr (.inl h)
  obtain ⟨sp, v1, v2⟩ := authentic3 a2
  refine .inr (.inr ⟨m3, q', sp, hq', v2, by rw [v1]; exact h, ?_⟩)
  rcases h' with h' | ⟨hm, m4, -, h'⟩
  · exact .inl h'
  · exact .inr ⟨hm, m4, h'⟩

/-- C80, where EAD_2 comes from: if, in any run of an initiator whose peer signs (methods 0 and 2), `ead_process` is given
anything or a second message is sent - also if the run fails later - and the received signature is not a forgery, then a
session of the responder's key received exactly this initiator's message_1, and its CRED_R followed by its EAD_2 is the
credential found here followed by the value given to `ead_process` first; unless a collision was found. -/
theorem C80_initiator_partner {cfg : ECfg} {C : ECrypto} (hC : C.Lawful) (hs : cfg.Small) {c : ICtx} {creds : List Cred}
    {crBuf : Bytes} {L : Nat} {n n' : Net} {r : R IOut} (h : initiatorRun cfg C c creds crBuf L n = (r, n'))
    (hm : c.method = 0 ∨ c.method = 2) (hx : n'.eads ≠ n.eads ∨ n'.sent.length > n.sent.length + 1) :
    ∃ m2 v u msg later, n.rxq.head? = some (.inr m2) ∧ initView cfg C c creds crBuf m2 = .ok v ∧
      n'.eads = n.eads ++ v.sp.ead :: later ∧ v.checked cfg C crBuf = .ok u ∧ v.verified cfg C crBuf = .ok msg ∧
      C.verify v.suite.sign v.pkR msg v.sp.sigOrMac = some true ∧
      ∀ S : Session → Prop, NotForged C v.suite.sign v.pkR msg v.sp.sigOrMac S → (∀ s, S s → s.cfg.Small) →
        Clashes C u S ∨
        ∃ cfgR cr cICap, S (.resp cfgR cr cICap v.m1) ∧ cr.gY = v.gY ∧ cr.cR = v.cR ∧ cr.idCredR = v.sp.idCred ∧
          cr.credR ++ cr.ead2 = v.credR ++ v.sp.ead := by
  obtain ⟨n1, hn, ht⟩ := init_trace cfg C c creds crBuf L n
  rw [h] at hn
  dsimp only at hn
  subst hn
  have key : ∃ m1 suite h1 m2 q st later, msg1Gen cfg C c = .ok (m1, suite, h1) ∧ n.rxq = .inr m2 :: q ∧
      msg2Process cfg C c creds suite h1 m2 (authType c.method (false, false)).1 (authType c.method (false, false)).2 crBuf
        (List.replicate cfg.eadSize 0) = .ok st ∧ n'.eads = n.eads ++ st.ead :: later := by
    rcases ht with ⟨t1, t2⟩ | ⟨m1, suite, h1, a1, ⟨t1, t2⟩ | ⟨m2, q, st, hq, a2, o, a3, t⟩⟩
    · rcases hx with hx | hx
      · exact absurd t2 hx
      · rw [t1] at hx; omega
    · rcases hx with hx | hx
      · exact absurd t2 hx
      · rw [t1] at hx; simp at hx
    · rcases t with ⟨-, t⟩ | ⟨-, t | ⟨-, m4, q', ead4, -, -, t⟩⟩
      · exact ⟨m1, suite, h1, m2, q, st, [], a1, hq, a2, t⟩
      · exact ⟨m1, suite, h1, m2, q, st, [], a1, hq, a2, t⟩
      · exact ⟨m1, suite, h1, m2, q, st, [ead4], a1, hq, a2, t⟩
  obtain ⟨m1, suite, h1, m2, q, st, later, a1, hq, a2, t⟩ := key
  obtain ⟨v, u, msg, x1, x2, x3, xe, x4, x5, xv, x6⟩ := init_partner hC hs a1 a2 hm
  refine ⟨m2, v, u, msg, later, by rw [hq]; rfl, x1, by rw [xe]; exact t, x4, x5, xv, fun S hS hsm => ?_⟩
  rcases x6 S hS hsm with e | ⟨cfgR, cr, cICap, p, suiteR, y1, y2, y3, y4, y5, -⟩
  · exact .inl e
  · exact .inr ⟨cfgR, cr, cICap, y1, y2, y3, y4, y5⟩

/-- C80, where EAD_3 comes from: if, in any run of a responder whose peer signs, `ead_process` is given a second value -
also if the run fails later - and the received signature is not a forgery, then a session of the initiator's key sent
exactly the message_1 received here, received this responder's G_Y, and its CRED_I followed by its EAD_3 is the credential
found here followed by that value; unless a collision was found. -/
theorem C80_responder_partner {cfg : ECfg} {C : ECrypto} (hC : C.Lawful) (hs : cfg.Small) {c : RCtx} {creds : List Cred}
    {cICap L : Nat} {n n' : Net} {r : R ROut} (h : responderRun cfg C c creds cICap L n = (r, n'))
    (hx : n'.eads.length > n.eads.length + 1 ∨ n'.sent.length > n.sent.length + 1) :
    ∃ m1 m3 q w m2 rs ct ptxt ead3, n.rxq = .inr m1 :: .inr m3 :: q ∧ respView cfg C c cICap m1 = .ok w ∧
      msg2Gen cfg C c m1 cICap (List.replicate cfg.eadSize 0) = .ok (m2, rs) ∧ decodeBstr cfg m3 m3.length = .ok ct ∧
      ctxtDecrypt cfg C .c3 rs.suite rs.prk3e2m rs.th3 ct = .ok ptxt ∧ n'.eads = n.eads ++ [rs.ead, ead3] ∧
      ((authType w.p.method (false, false)).1 = false → ∃ sp cred pk g u msg,
        plaintext3Split cfg ptxt cfg.idCredISize w.p.ead.length = .ok sp ∧
        retrieveCred cfg C false creds sp.idCred cfg.credISize = .ok (cred, pk, g) ∧ sp.ead = ead3 ∧
        respChecked cfg C c m1 w rs sp cred = .ok u ∧ respVerified cfg C w rs sp cred = .ok msg ∧
        C.verify w.suite.sign pk msg sp.sigOrMac = some true ∧
        ∀ S : Session → Prop, NotForged C w.suite.sign pk msg sp.sigOrMac S → (∀ s, S s → s.cfg.Small) →
          Clashes C u S ∨
          ∃ cfgI ci credsI crBuf m2 suiteI h1 c2, S (.init cfgI ci credsI crBuf m2) ∧
            msg1Gen cfgI C ci = .ok (m1, suiteI, h1) ∧
            msg2Parse cfgI m2 (ctxt2Len m2.length) = .ok (c.gY, c2) ∧
            ci.idCredI = sp.idCred ∧ ci.credI ++ ci.ead3 = cred ++ ead3) := by
  obtain ⟨n1, hn, ht⟩ := resp_trace cfg C c creds cICap L n
  rw [h] at hn
  dsimp only at hn
  subst hn
  rcases ht with ⟨t1, t2⟩ | ⟨m1, q, m2, rs, hq, a1, ⟨t1, t2⟩ | ⟨t1, t2⟩ | ⟨m3, q', o, hq', a2, t, -⟩⟩
  · rw [t1, t2] at hx; omega
  · rw [t1, t2] at hx; simp at hx; omega
  · rw [t1, t2] at hx; simp at hx
  obtain ⟨w, ct, ptxt, x1, x2, x3, x4, x5⟩ := resp_partner hC hs a1 a2
  refine ⟨m1, m3, q', w, m2, rs, ct, ptxt, o.ead, by rw [hq, hq'], x1, a1, x3, x4, t, fun hI => ?_⟩
  obtain ⟨sp, cred, g, u, msg, y1, y2, ye, y3, y4, yv, y5⟩ := x5 hI
  refine ⟨sp, cred, o.pk, g, u, msg, y1, y2, ye, y3, y4, yv, fun S hS hsm => ?_⟩
  rcases y5 S hS hsm with e | ⟨cfgI, ci, credsI, crBuf, m2', suiteI, h1, st, c2, z1, z2, z3, z4, z5, z6, -⟩
  · exact .inl e
  · exact .inr ⟨cfgI, ci, credsI, crBuf, m2', suiteI, h1, c2, z1, z2, z4, z5, by rw [z6, ye]⟩

/-! ### the hypotheses can be met -/

/-- an application whose `tx` fails when message_3 is sent: the run fails, but EAD_2 was processed -/
def exTxFails : Net := { netOf [exP2] with txq := [none, some .transport_deinitialized] }
/-- an application that rejects EAD_3 -/
def exEadFails : Net := { netOf [exP1, exP3] with eadq := [none, some .wrong_parameter] }

example : let r := initiatorRun {} idealE (toyI 0) toyCredsR (List.replicate 10 0) 32 exTxFails
    r.1 = .err .transport_deinitialized ∧ r.2.eads ≠ exTxFails.eads ∧ r.2.sent.length > exTxFails.sent.length + 1 := by
  decide +kernel
example : let r := responderRun {} idealE toyR toyCredsI 10 32 exEadFails
    r.1 = .err .wrong_parameter ∧ r.2.eads.length > exEadFails.eads.length + 1 := by
  decide +kernel
/-- a run that stops before anything was accepted: message_1 was sent, nothing was handed to `ead_process` -/
example : let r := initiatorRun {} toyE (toyI 0) toyCredsR (List.replicate 10 0) 32 (netOf [[0x40]])
    r.2.sent.length = 1 ∧ r.2.eads = [] := by decide +kernel

end Verif.Edhoc
