import Verif.Props.EdhocSafe
import Verif.Props.EdhocHonest
import Verif.Lemmas.EdhocToy
/-
C68: concrete cases that meet the hypotheses, and where the full property fails.
-/
namespace Verif.Edhoc
open Verif Verif.Cbor Verif.EdhocGrammar Verif.EdhocSafe

/-- message_1 with the given method, suite 0, the given G_X and C_I = 0 -/
def rawMsg1 (method : UInt8) (gX : Bytes) : Bytes := [method, 0] ++ cborBstr gX ++ [0]

theorem responderRun_msg2_ub {C : ECrypto} {c : RCtx} {creds : List Cred} {L : Nat} {m1 : Bytes} (hl : m1.length ≤ ({} : ECfg).msgMaxSize)
    (h : msg2Gen {} C c m1 10 [] = .ub) : (responderRun {} C c creds 10 L (netOf [m1])).1 = .ub := by
  have h1 : netRx ({} : ECfg).msgMaxSize (netOf [m1]) = (.ok m1, netOf []) := by
    show (if _ then _ else _) = _
    rw [if_pos hl]
    rfl
  unfold responderRun
  rw [M.run_bind, h1]
  show ((M.lift (msg2Gen {} C c m1 10 []) >>= _) (netOf [])).1 = _
  rw [h]
  rfl

/-- C68 is false of the code (a): any responder with an X25519 key pair and a non-empty list of suites reads beyond a G_X
shorter than 32 bytes; message_1 is not authenticated, so anybody can send one. -/
theorem C68_false_short_gx (C : ECrypto) (hC : C.Lawful) (c : RCtx) (creds : List Cred) (L : Nat) (h : c.suitesR ≠ [])
    (hg : c.gY.length = 32) : (responderRun {} C c creds 10 L (netOf [rawMsg1 3 []])).1 = .ub := by
  obtain ⟨s, t, hs⟩ : ∃ s t, c.suitesR = s :: t := by
    cases e : c.suitesR with
    | nil => exact absurd e h
    | cons s t => exact ⟨s, t, rfl⟩
  have h1 : msg1Parse {} (rawMsg1 3 []) 10 [] = .ok ⟨3, [0], [], [0], []⟩ := by decide +kernel
  refine responderRun_msg2_ub (by decide) ?_
  unfold msg2Gen
  rw [h1, R.ok_bind]
  have hsup : suiteSupported 0 c.suitesR = true := by rw [hs]; rfl
  show (if suiteSupported 0 c.suitesR = false then _ else _) = _
  rw [hsup, if_neg (by simp)]
  unfold msg2Build
  have hgs : getSuite (([0] : Bytes).getLastD 0).toNat = .ok ⟨0, .ccm64, 8, .x25519, .eddsa, .ccm64⟩ := by decide
  rw [hgs, R.ok_bind, authType_eq]
  simp only
  rw [show hash C (rawMsg1 3 []) = C.hash (rawMsg1 3 []) from rfl, th2_total (hC.base.hash_len _) hg, R.ok_bind]
  have : sharedSecret C .x25519 c.y [] = .ub := by unfold sharedSecret; rw [if_pos ⟨rfl, .inr (by simp)⟩]
  rw [this]
  rfl

/-- C68 is false of the code (b): a responder that only has a signature key reads beyond its (absent) static DH key when an
initiator chooses a method with static DH for the responder; it does not check whether it supports the method. -/
theorem C68_false_method (C : ECrypto) (hC : C.Lawful) (c : RCtx) (creds : List Cred) (L : Nat) (gXY : Bytes) (h : c.suitesR ≠ [])
    (hg : c.gY.length = 32) (hy : 32 ≤ c.y.length) (hdh : C.dh .x25519 c.y (List.replicate 32 9) = some gXY) (hr : c.r = []) :
    (responderRun {} C c creds 10 L (netOf [rawMsg1 3 (List.replicate 32 9)])).1 = .ub := by
  obtain ⟨s, t, hs⟩ : ∃ s t, c.suitesR = s :: t := by
    cases e : c.suitesR with
    | nil => exact absurd e h
    | cons s t => exact ⟨s, t, rfl⟩
  have h1 : msg1Parse {} (rawMsg1 3 (List.replicate 32 9)) 10 [] = .ok ⟨3, [0], List.replicate 32 9, [0], []⟩ := by decide +kernel
  refine responderRun_msg2_ub (by decide) ?_
  unfold msg2Gen
  rw [h1, R.ok_bind]
  have hsup : suiteSupported 0 c.suitesR = true := by rw [hs]; rfl
  show (if suiteSupported 0 c.suitesR = false then _ else _) = _
  rw [hsup, if_neg (by simp)]
  unfold msg2Build
  have hgs : getSuite (([0] : Bytes).getLastD 0).toNat = .ok ⟨0, .ccm64, 8, .x25519, .eddsa, .ccm64⟩ := by decide
  rw [hgs, R.ok_bind, authType_eq]
  simp only
  rw [show hash C (rawMsg1 3 (List.replicate 32 9)) = C.hash (rawMsg1 3 (List.replicate 32 9)) from rfl,
    th2_total (hC.base.hash_len _) hg, R.ok_bind, sharedSecret_total hdh hy (by simp), R.ok_bind]
  have h3 : sharedSecret C .x25519 c.r (List.replicate 32 9) = .ub := by
    unfold sharedSecret; rw [if_pos ⟨rfl, .inl (by rw [hr]; decide)⟩]
  unfold prkDerive
  rw [if_pos (by decide), h3]
  rfl

/-! a message_3 made by somebody who knows nothing but his own ephemeral key -/

/-- message_1 of the example, with the given method -/
def attMsg1 (method : Int) : Bytes := ((msg1Gen {} toyE (toyI method)).getD ([], ⟨0, .ccm64, 8, .p256, .es256, .ccm64⟩, [])).1
/-- the responder's state after message_2 (PRK_3e2m and TH_3 are known to whoever made message_1) -/
def attState (method : Int) : RState := ((msg2Gen {} toyE toyR (attMsg1 method) 10 []).getD
  ([], ⟨⟨0, .ccm64, 8, .p256, .es256, .ccm64⟩, true, [], [], [], []⟩)).2
/-- message_3 with the given plaintext -/
def attMsg3 (method : Int) (p : Bytes) : Bytes :=
  cborBstr ((ctxtEncrypt toyE .c3 (attState method).suite
    ((edhocKdf {} toyE (attState method).prk3e2m 3 (attState method).th3 16).getD [])
    ((edhocKdf {} toyE (attState method).prk3e2m 4 (attState method).th3 13).getD []) (attState method).th3 p 1000).getD [])

/-- C68 is false of the code (c): ID_CRED_I is an empty map, a map with x5u, or a byte-string kid; (d): an EdDSA signature
of one byte.  Each time the sender of message_3 has not been authenticated yet. -/
theorem C68_false_plaintext :
    (responderRun {} toyE toyR toyCredsI 10 32 (netOf [attMsg1 0, attMsg3 0 [0xa0, 0x40]])).1 = .ub ∧
    (responderRun {} toyE toyR toyCredsI 10 32 (netOf [attMsg1 0, attMsg3 0 [0xa1, 0x18, 0x23, 0x41, 0x61, 0x40]])).1 = .ub ∧
    (responderRun {} toyE toyR toyCredsI 10 32 (netOf [attMsg1 0, attMsg3 0 [0x41, 0x2b, 0x40]])).1 = .ub ∧
    (responderRun {} toyE toyR toyCredsI 10 32 (netOf [attMsg1 0, attMsg3 0 [0x2b, 0x41, 0]])).1 = .ub := by
  refine ⟨?_, ?_, ?_, ?_⟩ <;> decide +kernel

/-- the same for the initiator: message_2 of a responder whose ID_CRED_R is a map with a c5c certificate, which RFC 9528
allows; nobody has been authenticated yet. -/
theorem C68_false_c509 :
    (initiatorRun {} toyE (toyI 3) toyCredsR (List.replicate 10 0) 32
      (netOf [exMsg2 3 { toyR with idCredR := [0xa1, 0x18, 0x35, 0x41, 0x01] }])).1 = .ub := by
  decide +kernel

/-- C68 is false of the code (e): with a 16-byte tag, creating message_4 overflows its buffer unless EAD_SIZE leaves 8 bytes;
in the default build with MESSAGE_4 (EAD_SIZE 0) that is every message_4 of the suites 1 and 3. -/
theorem C68_false_message_4 (cfg : ECfg) (C : ECrypto) (hC : C.Lawful) (suite : Suite) (prk th : Bytes) (cap : Nat)
    (hs : suite.aead.tagLen = 16) (hth : th.length = 32) (he : cfg.eadSize < 8) :
    msg4Gen cfg C [] suite prk th cap = .ub := by
  have hp : plaintextGen cfg .c4 [] [] [] [] cfg.plaintext4Size = .ok [] := by
    unfold plaintextGen
    have h1 : checkBufferSize (asBstr sigOrMacSize) (asBstr ([] : Bytes).length) = .ok () := by decide
    have h2 : encodeBstr [] (asBstr ([] : Bytes).length) = .ok [0x40] := by decide
    rw [h1, R.ok_bind, h2, R.ok_bind]
    simp [byteArrayAppend, memcpyS]
  unfold msg4Gen ciphertextGen
  rw [hp, R.ok_bind, keyGen34_total hC (by decide) prk hth, R.ok_bind]
  have h3 : ∀ k iv, ctxtEncrypt C .c4 suite k iv th [] cfg.plaintext4Size = .ub := by
    intro k iv
    unfold ctxtEncrypt
    rw [if_neg (by decide), assocData_total hth, R.ok_bind, if_pos (by simp [ECfg.plaintext4Size, hs]; omega)]
  simp only [h3]
  rfl

/-! the hypotheses of the partial theorems are met -/

/-- the example's primitives without certificates -/
def plainE : ECrypto := { toyE with x509 := fun _ => none }
theorem plainE_lawful : plainE.Lawful := { toyE_lawful with }

theorem sample_cfg : CfgOk {} := ⟨by decide, by decide⟩

/-- `{4: -12}` is not a byte-string kid -/
theorem noBstrKid_int (s : Bool) : NoBstrKid s [0xa1, 0x04, 0x2b] := by
  intro v es x t hx he
  simp only [IsItem, IsSeq] at hx
  obtain ⟨h1, t1, hh, ⟨x4, y, h4, ⟨xb, z, ⟨hb, hb', exb⟩, hz, ey⟩, et⟩, ex⟩ := hx
  have e0 : zHead s ([0xa1, 0x04, 0x2b] : Bytes) = some (5, (Item.uint 4 :: .bstr v :: es).length / 2, t1 ++ t) :=
    zHead_iff.2 ⟨by omega, h1, hh, by rw [he, ex]; simp⟩
  have f0 : zHead s ([0xa1, 0x04, 0x2b] : Bytes) = some (5, 1, [0x04, 0x2b]) := rfl
  rw [f0] at e0
  simp only [Option.some.injEq, Prod.mk.injEq] at e0
  have e1 : zHead s ([0x04, 0x2b] : Bytes) = some (0, 4, y ++ t) :=
    zHead_iff.2 ⟨by omega, x4, h4, by rw [e0.2.2, et]; simp⟩
  have f1 : zHead s ([0x04, 0x2b] : Bytes) = some (0, 4, [0x2b]) := rfl
  rw [f1] at e1
  simp only [Option.some.injEq, Prod.mk.injEq] at e1
  have e2 : zHead s ([0x2b] : Bytes) = some (2, v.length, v ++ z ++ t) :=
    zHead_iff.2 ⟨by omega, hb, hb', by rw [e1.2.2, ey, exb]; simp⟩
  have f2 : zHead s ([0x2b] : Bytes) = some (1, 11, []) := rfl
  rw [f2] at e2
  simp at e2

/-- a plaintext_3 that identifies its sender by kid -12 -/
theorem harmless_kid {s sd ed : Bool} {ml : Nat} {r : Bytes}
    (h : ∀ sm l, zBstr s r = some (sm, l) → SmOk sd ed ml sm) : Harmless3 s sd ed ml (0x2b :: r) := by
  intro id sm ead hp hid
  obtain ⟨w, r', hw, hb, _⟩ := hp
  simp only [IsSeq] at hw
  obtain ⟨x, y, hx, ⟨x2, y2, hx2, rfl, rfl⟩, rfl⟩ := hw
  have f0 : ∀ l, zHead s (0x2b :: l) = some (1, 11, l) := fun l => rfl
  have hid' : ∃ i, id = .int i := by
    rcases hid with h | ⟨b, rfl⟩ | ⟨es, rfl, _⟩
    · exact h
    · obtain ⟨v, r2, h2⟩ := item_head (l := x2 ++ r') (by simp) hx
      rw [show x ++ (x2 ++ r') = 0x2b :: r by rw [hb]; simp, f0] at h2
      simp [majorOf] at h2
    · obtain ⟨v, r2, h2⟩ := item_head (l := x2 ++ r') (by simp) hx
      rw [show x ++ (x2 ++ r') = 0x2b :: r by rw [hb]; simp, f0] at h2
      simp [majorOf] at h2
  refine ⟨.inl hid', h sm r' (zBstr_iff.2 ⟨x2, hx2, ?_⟩)⟩
  obtain ⟨i, rfl⟩ := hid'
  have hh : ∃ m n, m < 8 ∧ IsHead s m n x := by
    unfold Item.int at hx
    split at hx
    · exact ⟨0, _, by omega, by simpa [IsItem] using hx⟩
    · exact ⟨1, _, by omega, by simpa [IsItem] using hx⟩
  obtain ⟨m, n, hm, hi⟩ := hh
  have h3 := zHead_iff.2 ⟨hm, x, hi, show (0x2b :: r : Bytes) = x ++ (x2 ++ r') by rw [hb]; simp⟩
  rw [f0] at h3
  simp only [Option.some.injEq, Prod.mk.injEq] at h3
  exact h3.2.2

theorem sample_init : InitOk {} plainE (toyI 3) toyCredsR (List.replicate 10 0) where
  suites := by decide
  x := by decide
  i := fun _ => by decide
  sig := fun _ => by decide
  peer := ⟨by decide, fun _ _ h => by cases h⟩
  id := noBstrKid_int _
  buf := by decide

/-- the example responder, identified by a kid -/
def kidR : RCtx := { toyR with idCredR := [0xa1, 0x04, 0x2b] }

theorem sample_resp : RespOk {} plainE kidR toyCredsI where
  y := by decide
  r := by decide
  sig := by decide
  peer := fun sd => ⟨by cases sd <;> decide, fun _ _ h => by cases h⟩
  id := noBstrKid_int _
  mem := fun b h => by cases h
  ead4 := by decide

/-- an honest exchange: message_1 and message_3 of the example initiator -/
def okMsg1 : Bytes := ((msg1Gen {} plainE (toyI 3)).getD ([], ⟨0, .ccm64, 8, .p256, .es256, .ccm64⟩, [])).1
def okMsg2 : Bytes := ((msg2Gen {} plainE kidR okMsg1 10 []).getD
  ([], ⟨⟨0, .ccm64, 8, .p256, .es256, .ccm64⟩, true, [], [], [], []⟩)).1
def okState : RState := ((msg2Gen {} plainE kidR okMsg1 10 []).getD
  ([], ⟨⟨0, .ccm64, 8, .p256, .es256, .ccm64⟩, true, [], [], [], []⟩)).2
/-- what the initiator knows of this responder -/
def kidCredsR : List Cred := [⟨[0xa1, 0x04, 0x2b], [0xa1, 3, 4], List.replicate 32 7, List.replicate 32 6, [], []⟩]
def okMsg3 : Bytes := ((initiatorRun {} plainE (toyI 3) kidCredsR (List.replicate 10 0) 32 (netOf [okMsg2])).2.sent.getD 1 [])

/-- a plaintext_2 is C_R followed by a plaintext_3 -/
theorem harmless2_of {s sd ed : Bool} {ml : Nat} {p r : Bytes} {c : Int ⊕ Bytes} (h1 : zIntOrBstr s p = some (c, r))
    (h : Harmless3 s sd ed ml r) : Harmless2 s sd ed ml p := by
  intro cR id sm ead hp hid
  obtain ⟨hf, w, r', hw, hb, ht⟩ := hp
  rw [IsSeq] at hw
  obtain ⟨x, y, hx, hy, rfl⟩ := hw
  have h2 : zIntOrBstr s p = some (cR, y ++ r') := zIntOrBstr_iff.2 ⟨hf, x, hx, by rw [hb]; simp⟩
  rw [h1] at h2
  simp only [Option.some.injEq, Prod.mk.injEq] at h2
  exact h id sm ead ⟨y, r', hy, h2.2, ht⟩ hid

/-- a plaintext_3 with kid -12 and a MAC of 8 bytes -/
theorem harmless_mac {s ed : Bool} {sm : Bytes} (h : sm.length = 8) : Harmless3 s true ed 8 (0x2b :: (0x48 :: sm)) := by
  refine harmless_kid fun sm' l hz => ?_
  have hz' : zBstr s (0x48 :: sm) = some (sm, []) := zBstr_iff.2 ⟨0x48 :: sm, by
    rw [IsItem]
    obtain ⟨_, h1, h2, h3⟩ := zHead_iff.1 (show zHead s (0x48 :: sm) = some (2, 8, sm) from rfl)
    exact ⟨h1, by rw [h]; exact h2, h3⟩, by simp⟩
  rw [hz'] at hz
  simp only [Option.some.injEq, Prod.mk.injEq] at hz
  rw [← hz.1]
  show sm.length ≤ 8
  omega

/-- the hypotheses of `C68_responder_partial` are met by an honest exchange, which succeeds -/
example : CfgOk {} ∧ plainE.Lawful ∧ RespOk {} plainE kidR toyCredsI ∧
    (∀ m1 q method su gX cI e, (netOf [okMsg1, okMsg3]).rxq = .inr m1 :: q →
      Message1 ({} : ECfg).strictCbor method su gX cI e m1 → 32 ≤ gX.length) ∧
    (∀ m1 m2 rs m3 q ct p, (netOf [okMsg1, okMsg3]).rxq = .inr m1 :: .inr m3 :: q →
      msg2Gen {} plainE kidR m1 10 (List.replicate ({} : ECfg).eadSize 0) = .ok (m2, rs) → OneBstr ({} : ECfg).strictCbor ct m3 →
      plainE.aeadDec (EdhocSpec.kdf plainE.hmac rs.prk3e2m 3 rs.th3 16) (EdhocSpec.kdf plainE.hmac rs.prk3e2m 4 rs.th3 13)
        (EdhocSpec.encStructure rs.th3) rs.suite.aead.tagLen ct = some p →
      Harmless3 ({} : ECfg).strictCbor rs.staticDhI (decide (rs.suite.sign = .eddsa)) rs.suite.macLen p) ∧
    (responderRun {} plainE kidR toyCredsI 10 32 (netOf [okMsg1, okMsg3])).1.isOk = true := by
  refine ⟨sample_cfg, plainE_lawful, sample_resp, ?_, ?_, by decide +kernel⟩
  · intro m1 q method su gX cI e h hm
    have h1 : m1 = okMsg1 := by
      simp only [netOf, List.map_cons, List.cons.injEq, Sum.inr.injEq] at h
      exact h.1.symm
    subst h1
    have h2 : decMsg1 ({} : ECfg).strictCbor okMsg1 = some ⟨method, su, gX, cI, e⟩ := decMsg1_iff.2 hm
    have h3 : ((decMsg1 ({} : ECfg).strictCbor okMsg1).map fun m => decide (32 ≤ m.gX.length)) = some true := by decide +kernel
    rw [h2] at h3
    simpa using h3
  · intro m1 m2 rs m3 q ct p h hg hb hd
    simp only [netOf, List.map_cons, List.cons.injEq, Sum.inr.injEq] at h
    obtain ⟨rfl, rfl, _⟩ := h
    have h1 : msg2Gen {} plainE kidR okMsg1 10 (List.replicate ({} : ECfg).eadSize 0) = .ok (okMsg2, okState) := by decide +kernel
    rw [h1] at hg
    simp only [R.ok.injEq, Prod.mk.injEq] at hg
    obtain ⟨rfl, rfl⟩ := hg
    have h2 : zBstr ({} : ECfg).strictCbor okMsg3 = some (ct, []) := by
      obtain ⟨x, t, hx, e⟩ := hb
      have := zBstr_iff.2 ⟨x, hx, e⟩
      have h3 : (zBstr ({} : ECfg).strictCbor okMsg3).map (fun y => decide (y.2 = [])) = some true := by decide +kernel
      rw [this] at h3
      rw [this]
      simpa using h3
    have h3 : zBstr ({} : ECfg).strictCbor okMsg3 = some (okMsg3.drop 1, []) := by decide +kernel
    rw [h3] at h2
    simp only [Option.some.injEq, Prod.mk.injEq, and_true] at h2
    subst h2
    have h4 : plainE.aeadDec (EdhocSpec.kdf plainE.hmac okState.prk3e2m 3 okState.th3 16) (EdhocSpec.kdf plainE.hmac okState.prk3e2m 4 okState.th3 13)
        (EdhocSpec.encStructure okState.th3) okState.suite.aead.tagLen (okMsg3.drop 1) =
          some [43, 72, 20, 40, 80, 137, 187, 22, 89, 27] := by decide +kernel
    rw [h4] at hd
    obtain rfl := Option.some.inj hd
    have h5 : okState.staticDhI = true := by decide +kernel
    have h6 : okState.suite.macLen = 8 := by decide +kernel
    rw [h5, h6]
    exact harmless_mac (by decide)

/-- the hypotheses of `C68_initiator_partial` are met by the same exchange -/
example : InitOk {} plainE (toyI 3) kidCredsR (List.replicate 10 0) ∧
    (∀ m1 suite h1 m2 q gY ct gXY, msg1Gen {} plainE (toyI 3) = .ok (m1, suite, h1) → (netOf [okMsg2]).rxq = .inr m2 :: q →
      OneBstr ({} : ECfg).strictCbor (gY ++ ct) m2 → gY.length = 32 → plainE.dh suite.ecdh (toyI 3).x gY = some gXY →
      Harmless2 ({} : ECfg).strictCbor (decide ((toyI 3).method = 1 ∨ (toyI 3).method = 3)) (decide (suite.sign = .eddsa)) suite.macLen
        (EdhocSafe.plaintext2 plainE.hash plainE.hmac m1 gY gXY ct)) ∧
    (initiatorRun {} plainE (toyI 3) kidCredsR (List.replicate 10 0) 32 (netOf [okMsg2])).1.isOk = true := by
  refine ⟨{ sample_init with peer := ⟨by decide, fun _ _ h => by cases h⟩ }, ?_, by decide +kernel⟩
  intro m1 suite h1 m2 q gY ct gXY hm h hb hg hd
  simp only [netOf, List.map_cons, List.cons.injEq, Sum.inr.injEq] at h
  obtain ⟨rfl, _⟩ := h
  have e1 : msg1Gen {} plainE (toyI 3) = .ok (okMsg1, ⟨0, .ccm64, 8, .x25519, .eddsa, .ccm64⟩, plainE.hash okMsg1) := by decide +kernel
  rw [e1] at hm
  simp only [R.ok.injEq, Prod.mk.injEq] at hm
  obtain ⟨rfl, rfl, _⟩ := hm
  have e2 : zBstr ({} : ECfg).strictCbor okMsg2 = some (kidR.gY ++ okMsg2.drop 34, []) := by decide +kernel
  obtain ⟨x, t, hx, e⟩ := hb
  have e3 := zBstr_iff.2 ⟨x, hx, e⟩
  rw [e2] at e3
  simp only [Option.some.injEq, Prod.mk.injEq] at e3
  obtain ⟨rfl, rfl⟩ := List.append_inj e3.1 (by rw [hg]; decide)
  have e4 : plainE.dh .x25519 (toyI 3).x kidR.gY = some ((plainE.dh .x25519 (toyI 3).x kidR.gY).getD []) := by decide +kernel
  rw [show (Suite.mk 0 .ccm64 8 .x25519 .eddsa .ccm64).ecdh = .x25519 from rfl, e4] at hd
  obtain rfl := Option.some.inj hd
  have e5 : zIntOrBstr ({} : ECfg).strictCbor (EdhocSafe.plaintext2 plainE.hash plainE.hmac okMsg1 kidR.gY
      ((plainE.dh .x25519 (toyI 3).x kidR.gY).getD []) (okMsg2.drop 34)) = some (.inr [0xcc, 0x27], 0x2b :: 0x48 ::
        (EdhocSafe.plaintext2 plainE.hash plainE.hmac okMsg1 kidR.gY
      ((plainE.dh .x25519 (toyI 3).x kidR.gY).getD []) (okMsg2.drop 34)).drop 5) := by decide +kernel
  refine harmless2_of e5 ?_
  exact harmless_mac (by decide +kernel)

end Verif.Edhoc
