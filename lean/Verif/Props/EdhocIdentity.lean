import Verif.Props.EdhocCallbacks
/-
C87: identities, credentials and authentication data appear on the network only encrypted.
-/
namespace Verif.Edhoc
open Verif.Cbor

/-! ### specification -/

/-- Two initiators that differ at most in who they are: the same method, suites, ephemeral key, C_I and EAD_1; identifier, credential,
long-term keys and EAD_3 may be different. -/
structure ICtx.SameFace (c c' : ICtx) : Prop where
  method : c'.method = c.method
  suites : c'.suitesI = c.suitesI
  gX : c'.gX = c.gX
  x : c'.x = c.x
  cI : c'.cI = c.cI
  ead1 : c'.ead1 = c.ead1

/-- Two responders that differ at most in who they are: the same suites and ephemeral key; C_R, identifier, credential, long-term keys,
EAD_2 and EAD_4 may be different. -/
structure RCtx.SameFace (c c' : RCtx) : Prop where
  suites : c'.suitesR = c.suitesR
  gY : c'.gY = c.gY
  y : c'.y = c.y

/-! ### the initiator -/

/-- TH_3 and PRK_3e2m: all that message_3 depends on apart from the identity -/
def faceKeys (cfg : ECfg) (C : ECrypto) (c : ICtx) (creds : List Cred) (crBuf m2 : Bytes) : R (Bytes × Bytes × Suite) := do
  let v ← initView cfg C c creds crBuf m2
  let (_, _, gR) ← retrieveCred cfg C (authType c.method (false, false)).2 creds v.sp.idCred cfg.credRSize
  let prk3e2m ← prkDerive cfg C (authType c.method (false, false)).2 v.suite 1 v.th2 (hkdfExtract C.toCrypto v.th2 v.gxy) gR c.x
  let th3 ← th34Calc cfg C v.th2 v.p2 v.credR
  pure (th3, prk3e2m, v.suite)

theorem msg1_face {cfg : ECfg} {C : ECrypto} {c c' : ICtx} (h : c.SameFace c') : msg1Gen cfg C c' = msg1Gen cfg C c := by
  unfold msg1Gen
  rw [h.method, h.suites, h.gX, h.cI, h.ead1]

theorem initView_face {cfg : ECfg} {C : ECrypto} {c c' : ICtx} (h : c.SameFace c') (creds : List Cred) (crBuf m2 : Bytes) :
    initView cfg C c' creds crBuf m2 = initView cfg C c creds crBuf m2 := by
  unfold initView
  rw [msg1_face h, h.x, h.method]

theorem faceKeys_face {cfg : ECfg} {C : ECrypto} {c c' : ICtx} (h : c.SameFace c') (creds : List Cred) (crBuf m2 : Bytes) :
    faceKeys cfg C c' creds crBuf m2 = faceKeys cfg C c creds crBuf m2 := by
  unfold faceKeys
  rw [initView_face h, h.x, h.method]

theorem msg2Process_face {cfg : ECfg} {C : ECrypto} {c : ICtx} {creds : List Cred} {crBuf m1 m2 h1 : Bytes} {suite : Suite} {st : IState}
    (h : msg1Gen cfg C c = .ok (m1, suite, h1))
    (hs : msg2Process cfg C c creds suite h1 m2 (authType c.method (false, false)).1 (authType c.method (false, false)).2 crBuf
        (List.replicate cfg.eadSize 0) = .ok st) :
    faceKeys cfg C c creds crBuf m2 = .ok (st.th3, st.prk3e2m, suite) := by
  have hh : h1 = C.hash m1 := by
    unfold msg1Gen at h
    obtain ⟨a, _, h⟩ := R.bind_eq_ok.1 h
    obtain ⟨b, _, h⟩ := R.bind_eq_ok.1 h
    obtain ⟨d, _, h⟩ := R.bind_eq_ok.1 h
    obtain ⟨e, _, h⟩ := R.bind_eq_ok.1 h
    simp only [R.pure_eq, R.ok.injEq, Prod.mk.injEq] at h
    obtain ⟨rfl, rfl, rfl⟩ := h
    rfl
  subst hh
  unfold msg2Process at hs
  obtain ⟨_, _, hs⟩ := R.bind_eq_ok.1 hs
  obtain ⟨⟨gY, c2⟩, p1, hs⟩ := R.bind_eq_ok.1 hs
  dsimp only at hs
  obtain ⟨gxy, p2, hs⟩ := R.bind_eq_ok.1 hs
  obtain ⟨th2, p3, hs⟩ := R.bind_eq_ok.1 hs
  obtain ⟨ptxt, p4, hs⟩ := R.bind_eq_ok.1 hs
  obtain ⟨⟨cR, sp⟩, p5, hs⟩ := R.bind_eq_ok.1 hs
  dsimp only at hs
  unfold msg2Auth at hs
  obtain ⟨⟨credR, pk, gR⟩, p6, hs⟩ := R.bind_eq_ok.1 hs
  dsimp only at hs
  obtain ⟨prk3, p7, hs⟩ := R.bind_eq_ok.1 hs
  obtain ⟨_, _, hs⟩ := R.bind_eq_ok.1 hs
  obtain ⟨th3, p8, hs⟩ := R.bind_eq_ok.1 hs
  obtain ⟨prk4, p9, hs⟩ := R.bind_eq_ok.1 hs
  simp only [R.pure_eq, R.ok.injEq] at hs
  subst hs
  rw [List.length_replicate] at p5
  have hv : initView cfg C c creds crBuf m2 = .ok ⟨m1, suite, gY, gxy, th2, ptxt, cR, sp, credR, pk⟩ := by
    unfold initView
    rw [h, R.ok_bind]
    dsimp only
    rw [p1, R.ok_bind]
    dsimp only
    rw [p2, R.ok_bind, p3, R.ok_bind, p4, R.ok_bind, p5, R.ok_bind]
    dsimp only
    rw [p6, R.ok_bind]
    rfl
  unfold faceKeys
  rw [hv, R.ok_bind]
  dsimp only
  rw [p6, R.ok_bind]
  dsimp only
  rw [p7, R.ok_bind, p8, R.ok_bind]
  rfl

theorem keyGen_c3_len (cfg : ECfg) (C : ECrypto) (prk th : Bytes) (a b : Nat) : keyGen cfg C .c3 prk th a = keyGen cfg C .c3 prk th b := rfl

theorem ciphertext3_sealed {cfg : ECfg} {C : ECrypto} {suite : Suite} {cR idCred sm ead prk th ct pt : Bytes} {a b : Nat}
    (h : ciphertextGen cfg C .c3 suite cR idCred sm ead prk th a b = .ok (ct, pt)) :
    ∃ key iv aad, keyGen cfg C .c3 prk th 0 = .ok (key, iv) ∧ assocData th = .ok aad ∧
      C.aeadEnc key iv aad suite.aead.tagLen pt = some ct := by
  unfold ciphertextGen at h
  obtain ⟨p, _, h⟩ := R.bind_eq_ok.1 h
  obtain ⟨⟨key, iv⟩, hk, h⟩ := R.bind_eq_ok.1 h
  dsimp only at h
  obtain ⟨c, hc, h⟩ := R.bind_eq_ok.1 h
  simp only [R.pure_eq, R.ok.injEq, Prod.mk.injEq] at h
  obtain ⟨rfl, rfl⟩ := h
  unfold ctxtEncrypt at hc
  rw [if_neg (by decide)] at hc
  obtain ⟨aad, ha, hc⟩ := R.bind_eq_ok.1 hc
  refine ⟨key, iv, aad, by rw [keyGen_c3_len cfg C prk th 0 p.length]; exact hk, ha, ?_⟩
  split at hc
  · cases hc
  · split at hc
    · rename_i x hx
      simp only [R.pure_eq, R.ok.injEq] at hc
      rw [hx, hc]
    · cases hc

theorem msg3_sealed {cfg : ECfg} {C : ECrypto} {c : ICtx} {suite : Suite} {sI : Bool} {st : IState} {m2 : Bytes} {L : Nat} {o : M3Out}
    (h : msg3OnlyGen cfg C c suite sI st m2 L = .ok o) :
    o.msg = m2 ∨ ∃ key iv aad pt ct, keyGen cfg C .c3 st.prk3e2m st.th3 0 = .ok (key, iv) ∧ assocData st.th3 = .ok aad ∧
      C.aeadEnc key iv aad suite.aead.tagLen pt = some ct ∧ o.msg = enc (.bstr ct) := by
  unfold msg3OnlyGen at h
  cases hb : msg3Build cfg C c suite sI st m2.length with
  | ub => rw [hb] at h; cases h
  | err e =>
    rw [hb] at h
    simp only [R.ok.injEq] at h
    exact .inl (by rw [← h])
  | ok t =>
    obtain ⟨m3, p3⟩ := t
    rw [hb] at h
    dsimp only at h
    have hm : o.msg = m3 := by
      split at h
      · cases h
      · rw [← R.ok.inj h]
      · split at h
        · cases h
        · rw [← R.ok.inj h]
        · rw [← R.ok.inj h]
    unfold msg3Build at hb
    obtain ⟨_, _, hb⟩ := R.bind_eq_ok.1 hb
    obtain ⟨_, _, hb⟩ := R.bind_eq_ok.1 hb
    obtain ⟨sm, _, hb⟩ := R.bind_eq_ok.1 hb
    obtain ⟨⟨c3, p⟩, hc, hb⟩ := R.bind_eq_ok.1 hb
    dsimp only at hb
    obtain ⟨m, he, hb⟩ := R.bind_eq_ok.1 hb
    simp only [R.pure_eq, R.ok.injEq, Prod.mk.injEq] at hb
    obtain ⟨rfl, rfl⟩ := hb
    obtain ⟨key, iv, aad, h1, h2, h3⟩ := ciphertext3_sealed hc
    exact .inr ⟨key, iv, aad, p, c3, h1, h2, h3, by rw [hm]; exact (encodeBstr_ok.1 he).1⟩

/-- **C87** What an initiator puts on the network is the same for all initiators that differ only in who they are, except for the
ciphertext of message_3: there are a message_1, a key, a nonce and associated data such that each of them, in the same situation, sends nothing,
message_1, or message_1 followed by one byte string with an AEAD ciphertext under that key and nonce (or by the message_2 it received, see `C44_false`). -/
theorem C87_initiator (cfg : ECfg) (C : ECrypto) (c : ICtx) (creds : List Cred) (crBuf : Bytes) (n : Net) :
    ∃ (m1 key iv aad : Bytes) (tag : Nat), ∀ (c' : ICtx) (L : Nat), c.SameFace c' →
      ∃ n', (initiatorRun cfg C c' creds crBuf L n).2 = n' ∧
        (n'.sent = n.sent ∨ n'.sent = n.sent ++ [m1] ∨
         (∃ m2, n.rxq.head? = some (.inr m2) ∧ n'.sent = n.sent ++ [m1, m2]) ∨
         ∃ pt ct, C.aeadEnc key iv aad tag pt = some ct ∧ n'.sent = n.sent ++ [m1, enc (.bstr ct)]) := by
  have hd : ∃ m1, ∀ a s h, msg1Gen cfg C c = .ok (a, s, h) → a = m1 := by
    cases h : msg1Gen cfg C c with
    | ok t => exact ⟨t.1, fun a s k e => by rw [R.ok.inj e]⟩
    | err e => exact ⟨[], fun a s k e => by cases e⟩
    | ub => exact ⟨[], fun a s k e => by cases e⟩
  obtain ⟨m1, hm1⟩ := hd
  have hk : ∃ key iv aad tag, ∀ m2 q th3 prk suite k i a, n.rxq = .inr m2 :: q → faceKeys cfg C c creds crBuf m2 = .ok (th3, prk, suite) →
      keyGen cfg C .c3 prk th3 0 = .ok (k, i) → assocData th3 = .ok a → k = key ∧ i = iv ∧ a = aad ∧ suite.aead.tagLen = tag := by
    by_cases hex : ∃ m2 q th3 prk suite k i a, n.rxq = .inr m2 :: q ∧ faceKeys cfg C c creds crBuf m2 = .ok (th3, prk, suite) ∧
      keyGen cfg C .c3 prk th3 0 = .ok (k, i) ∧ assocData th3 = .ok a
    · obtain ⟨m2, q, th3, prk, suite, k, i, a, h1, h2, h3, h4⟩ := hex
      refine ⟨k, i, a, suite.aead.tagLen, ?_⟩
      intro m2' q' th3' prk' suite' k' i' a' h1' h2' h3' h4'
      rw [h1] at h1'
      cases h1'
      rw [h2] at h2'
      cases h2'
      rw [h3] at h3'
      cases h3'
      rw [h4] at h4'
      cases h4'
      exact ⟨rfl, rfl, rfl, rfl⟩
    · refine ⟨[], [], [], 0, ?_⟩
      intro m2 q th3 prk suite k i a h1 h2 h3 h4
      exact absurd ⟨m2, q, th3, prk, suite, k, i, a, h1, h2, h3, h4⟩ hex
  obtain ⟨key, iv, aad, tag, hk⟩ := hk
  refine ⟨m1, key, iv, aad, tag, ?_⟩
  intro c' L hf
  obtain ⟨n', hn, ht⟩ := init_trace cfg C c' creds crBuf L n
  refine ⟨n', hn, ?_⟩
  rcases ht with ⟨h, _⟩ | ⟨a1, suite, h1, hg, ht⟩
  · exact .inl h
  have e1 : a1 = m1 := hm1 a1 suite h1 (by rw [← msg1_face hf]; exact hg)
  subst e1
  rcases ht with ⟨h, _⟩ | ⟨m2, q, st, hq, hst, o, ho, ht⟩
  · exact .inr (.inl h)
  rcases ht with ⟨h, _⟩ | ⟨h, _⟩
  · exact .inr (.inl h)
  rcases msg3_sealed ho with he | ⟨k, i, a, pt, ct, h2, h3, h4, h5⟩
  · exact .inr (.inr (.inl ⟨m2, by rw [hq]; rfl, by rw [h, he]⟩))
  · have hfk := msg2Process_face hg hst
    rw [faceKeys_face hf] at hfk
    obtain ⟨rfl, rfl, rfl, rfl⟩ := hk _ _ _ _ _ _ _ _ hq hfk h2 h3
    exact .inr (.inr (.inr ⟨pt, ct, h4, by rw [h, h5]⟩))

/-! ### the responder -/

/-- KEYSTREAM_2 and G_Y -/
def faceStream (cfg : ECfg) (C : ECrypto) (c : RCtx) (m1 : Bytes) (cICap len : Nat) : R Bytes := do
  let p ← msg1Parse cfg m1 cICap (List.replicate cfg.eadSize 0)
  let suite ← getSuite (p.suites.getLastD 0).toNat
  let th2 ← th2Calc C (hash C m1) c.gY
  let gxy ← sharedSecret C suite.ecdh c.y p.gX
  let (k, _) ← keyGen cfg C .c2 (hkdfExtract C.toCrypto th2 gxy) th2 len
  pure k

theorem faceStream_face {cfg : ECfg} {C : ECrypto} {c c' : RCtx} (h : c.SameFace c') (m1 : Bytes) (cICap len : Nat) :
    faceStream cfg C c' m1 cICap len = faceStream cfg C c m1 cICap len := by
  unfold faceStream
  rw [h.gY, h.y]

theorem msg2_stream {cfg : ECfg} {C : ECrypto} {c : RCtx} {m1 m2 : Bytes} {cICap : Nat} {rs : RState}
    (h : msg2Gen cfg C c m1 cICap (List.replicate cfg.eadSize 0) = .ok (m2, rs)) :
    ∃ pt ks, faceStream cfg C c m1 cICap pt.length = .ok ks ∧ m2 = enc (.bstr (c.gY ++ xorBytes pt ks)) := by
  unfold msg2Gen at h
  obtain ⟨p, hp, h⟩ := R.bind_eq_ok.1 h
  split at h
  · cases h
  unfold msg2Build at h
  obtain ⟨suite, hsu, h⟩ := R.bind_eq_ok.1 h
  dsimp only at h
  obtain ⟨th2, hth, h⟩ := R.bind_eq_ok.1 h
  obtain ⟨gxy, hg, h⟩ := R.bind_eq_ok.1 h
  obtain ⟨prk3, _, h⟩ := R.bind_eq_ok.1 h
  obtain ⟨⟨c2, p2⟩, hc, h⟩ := R.bind_eq_ok.1 h
  dsimp only at h
  obtain ⟨msg2, he, h⟩ := R.bind_eq_ok.1 h
  obtain ⟨th3, _, h⟩ := R.bind_eq_ok.1 h
  simp only [R.pure_eq, R.ok.injEq, Prod.mk.injEq] at h
  obtain ⟨rfl, _⟩ := h
  unfold ctxt2Gen at hc
  obtain ⟨sm, _, hc⟩ := R.bind_eq_ok.1 hc
  dsimp only at hc
  obtain ⟨_, _, hc⟩ := R.bind_eq_ok.1 hc
  unfold ciphertextGen at hc
  obtain ⟨pt, _, hc⟩ := R.bind_eq_ok.1 hc
  obtain ⟨⟨key, iv⟩, hk, hc⟩ := R.bind_eq_ok.1 hc
  dsimp only at hc
  obtain ⟨x, hx, hc⟩ := R.bind_eq_ok.1 hc
  simp only [R.pure_eq, R.ok.injEq, Prod.mk.injEq] at hc
  obtain ⟨rfl, rfl⟩ := hc
  unfold ctxtEncrypt at hx
  rw [if_pos rfl] at hx
  split at hx
  · cases hx
  simp only [R.pure_eq, R.ok.injEq] at hx
  subst hx
  unfold msg2Encode at he
  obtain ⟨_, _, he⟩ := R.bind_eq_ok.1 he
  refine ⟨pt, key, ?_, (encodeBstr_ok.1 he).1⟩
  unfold faceStream
  rw [hp, R.ok_bind, hsu, R.ok_bind, hth, R.ok_bind, hg, R.ok_bind, hk, R.ok_bind]
  rfl

theorem msg4_sealed {cfg : ECfg} {C : ECrypto} {ead4 prk th m4 : Bytes} {suite : Suite} {cap : Nat}
    (h : msg4Gen cfg C ead4 suite prk th cap = .ok m4) :
    ∃ key iv aad ct, C.aeadEnc key iv aad suite.aead.tagLen ead4 = some ct ∧ m4 = enc (.bstr ct) := by
  unfold msg4Gen at h
  obtain ⟨⟨c4, p⟩, hc, h4⟩ := R.bind_eq_ok.1 h
  clear h
  dsimp only at h4
  unfold ciphertextGen at hc
  obtain ⟨pt, hpt, hd⟩ := R.bind_eq_ok.1 hc
  clear hc
  obtain ⟨⟨key, iv⟩, hk, he⟩ := R.bind_eq_ok.1 hd
  clear hd
  dsimp only at he
  obtain ⟨x, hx, hf⟩ := R.bind_eq_ok.1 he
  clear he
  simp only [R.pure_eq, R.ok.injEq, Prod.mk.injEq] at hf
  obtain ⟨rfl, rfl⟩ := hf
  have hp : pt = ead4 := by
    unfold plaintextGen at hpt
    obtain ⟨_, _, hpt⟩ := R.bind_eq_ok.1 hpt
    obtain ⟨_, _, hpt⟩ := R.bind_eq_ok.1 hpt
    dsimp only at hpt
    exact byteArrayAppend_ok hpt
  subst hp
  unfold ctxtEncrypt at hx
  rw [if_neg (by decide)] at hx
  obtain ⟨aad, _, hy⟩ := R.bind_eq_ok.1 hx
  clear hx
  refine ⟨key, iv, aad, x, ?_, (encodeBstr_ok.1 h4).1⟩
  split at hy
  · cases hy
  · split at hy
    · rename_i y he
      simp only [R.pure_eq, R.ok.injEq] at hy
      rw [he, hy]
    · cases hy

/-- **C87** What a responder puts on the network is the same for all responders that differ only in who they are, except for the ciphertexts:
there is a keystream for every length such that each of them, in the same situation, sends nothing, or one byte string with
G_Y and its plaintext XORed with the keystream of the length of the plaintext, and then perhaps (message_4) one byte string with an AEAD ciphertext of EAD_4. -/
theorem C87_responder (cfg : ECfg) (C : ECrypto) (c : RCtx) (creds : List Cred) (cICap : Nat) (n : Net) :
    ∃ ks : Nat → Bytes, ∀ (c' : RCtx) (L : Nat), c.SameFace c' →
      ∃ n', (responderRun cfg C c' creds cICap L n).2 = n' ∧
        (n'.sent = n.sent ∨
         ∃ pt, (n'.sent = n.sent ++ [enc (.bstr (c.gY ++ xorBytes pt (ks pt.length)))] ∨
          cfg.message4 = true ∧ ∃ key iv aad tag ct, C.aeadEnc key iv aad tag c'.ead4 = some ct ∧
            n'.sent = n.sent ++ [enc (.bstr (c.gY ++ xorBytes pt (ks pt.length))), enc (.bstr ct)])) := by
  refine ⟨fun len => match n.rxq with
    | .inr m1 :: _ => (match faceStream cfg C c m1 cICap len with | .ok k => k | _ => [])
    | _ => [], ?_⟩
  intro c' L hf
  obtain ⟨n', hn, ht⟩ := resp_trace cfg C c' creds cICap L n
  refine ⟨n', hn, ?_⟩
  rcases ht with ⟨h, _⟩ | ⟨m1, q, m2, rs, hq, hg, ht⟩
  · exact .inl h
  obtain ⟨pt, ks, hks, hm2⟩ := msg2_stream hg
  rw [faceStream_face hf] at hks
  rw [hf.gY] at hm2
  rcases ht with ⟨h, _⟩ | ⟨h, _⟩ | ⟨m3, q', o, _, _, _, ht⟩
  · exact .inl h
  · refine .inr ⟨pt, .inl ?_⟩
    rw [h, hm2, hq]
    dsimp only
    rw [hks]
  · refine .inr ⟨pt, ?_⟩
    rcases ht with h | ⟨h4, m4, hm4, h⟩
    · left
      rw [h, hm2, hq]
      dsimp only
      rw [hks]
    · right
      obtain ⟨key, iv, aad, ct, h1, h2⟩ := msg4_sealed hm4
      refine ⟨h4, key, iv, aad, _, ct, h1, ?_⟩
      rw [h, h2, hm2, hq]
      dsimp only
      rw [hks]

/-! ### non-vacuity: two parties each -/

/-- another initiator with the same face -/
def exOther : ICtx :=
  { toyI 0 with idCredI := [0xa1, 0x04, 0x2c], credI := [0xa1, 9, 9], i := List.replicate 32 9, skI := List.replicate 32 8, pkI := List.replicate 32 8 }
/-- another responder with the same face -/
def exOtherR : RCtx :=
  { toyR with cR := [0x11, 0x22], idCredR := [0xa1, 0x18, 0x22, 0x82, 0x2e, 0x42, 3, 4], credR := [0xa1, 9, 9], r := List.replicate 32 9, skR := List.replicate 32 8, pkR := List.replicate 32 8 }

example : (toyI 0).SameFace exOther ∧ toyR.SameFace exOtherR := ⟨⟨rfl, rfl, rfl, rfl, rfl, rfl⟩, ⟨rfl, rfl, rfl⟩⟩

/-- both initiators send message_1 and a message_3 of the same length; they differ only in the latter -/
example :
    let run := fun c => (initiatorRun {} toyE c toyCredsR (List.replicate 10 0) 32 (netOf [exMsg2 0 toyR])).2.sent
    (run (toyI 0)).length = 2 ∧ (run exOther).length = 2 ∧ run (toyI 0) ≠ run exOther ∧ (run (toyI 0)).head? = (run exOther).head? ∧
      (run (toyI 0)).map List.length = (run exOther).map List.length := by
  decide +kernel

/-- both responders answer with messages that begin alike -/
example :
    let run := fun c => (responderRun {} toyE c toyCredsI 10 32 (netOf [exMsg1])).2.sent
    (run toyR).length = 1 ∧ (run exOtherR).length = 1 ∧ run toyR ≠ run exOtherR ∧ (run toyR).map (List.take 34) = (run exOtherR).map (List.take 34) := by
  decide +kernel

end Verif.Edhoc
