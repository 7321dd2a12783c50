import Verif.Model.Sample
import Verif.Props.EdhocHonest
import Verif.Props.Exchange
import Verif.Props.OscoreKeys
/-
C57: from an EDHOC run to protected CoAP messages.
-/
namespace Verif.Edhoc
open Verif Cbor

/-- the OSCORE parameters are those of RFC 9528 A.1 -/
theorem oscoreParams_rfc {cfg : ECfg} {C : ECrypto} (hC : C.Lawful) (prk sid rid idc : Bytes) :
    oscoreParams cfg C prk sid rid idc = .ok
      { masterSecret := EdhocSpec.kdf C.hmac (EdhocSpec.kdf C.hmac prk 10 [] 32) 0 [] 16
        masterSalt := EdhocSpec.kdf C.hmac (EdhocSpec.kdf C.hmac prk 10 [] 32) 1 [] 8
        senderId := sid, recipientId := rid, idContext := idc, fresh := true } := by
  have h0 : asBstr ([] : Bytes).length + 4 ≤ cfg.infoMaxSize := by
    have e : asBstr ([] : Bytes).length ≤ 1 := by decide
    have e2 : 1 ≤ cfg.contextMacSize := by
      unfold ECfg.contextMacSize asBstr bstrOverhead; split <;> omega
    unfold ECfg.infoMaxSize; omega
  unfold oscoreParams prkOut2exporter edhocExporter
  rw [kdf_total hC prk (by decide) (by decide) h0 (by decide), R.ok_bind,
    kdf_total hC _ (by decide) (by decide) h0 (by decide), R.ok_bind,
    kdf_total hC _ (by decide) (by decide) h0 (by decide), R.ok_bind]
  rfl

theorem derive_total {cfg : Cfg} {C : Crypto} (hC : C.Lawful) (hinfo : 50 ≤ cfg.infoMax) {p : InitParams} {id : Bytes}
    (ty : DeriveType) (hid : id.length ≤ 8) (hc : p.idContext.length ≤ 32) : ∃ k, derive cfg C p id ty = .ok k := by
  have hl : (Cbor.enc (oscoreInfo id p.idContext (deriveString ty) (deriveLen ty))).length ≤ 50 := by
    have hk : "Key".toUTF8.toList = [0x4B, 0x65, 0x79] := by decide +kernel
    have hv : "IV".toUTF8.toList = [0x49, 0x56] := by decide +kernel
    have h10 : Cbor.Item.int 10 = .uint 10 := rfl
    have hi : (Cbor.enc (if p.idContext = [] then .null else .bstr p.idContext)).length ≤ 34 := by
      split
      · simp [Cbor.enc]
      · simp only [Cbor.enc, List.length_append, Cbor.head_length]
        repeat' split
        all_goals omega
    cases ty
    · simp only [oscoreInfo, deriveString, deriveLen, h10, Cbor.enc, Cbor.encList, List.length_append, Cbor.head_length, List.length_cons,
        List.length_nil, hk]
      rw [if_pos (show id.length < 24 by omega)]
      simp; omega
    · simp only [oscoreInfo, deriveString, deriveLen, h10, Cbor.enc, Cbor.encList, List.length_append, Cbor.head_length, List.length_cons,
        List.length_nil, hv]
      rw [if_pos (show id.length < 24 by omega)]
      simp; omega
  unfold derive
  rw [hkdfInfo_ok.2 ⟨rfl, hl⟩, R.ok_bind]
  cases ty
  · exact ⟨_, C37_hkdf hC _ _ _ (by decide) (by omega)⟩
  · exact ⟨_, C37_hkdf hC _ _ _ (by decide) (by omega)⟩

/-- a fresh context can be initialised for all IDs of at most 8 bytes and ID contexts of at most 32 bytes -/
theorem contextInit_total {cfg : Cfg} {C : Crypto} (hC : C.Lawful) (hinfo : 50 ≤ cfg.infoMax) {p : InitParams}
    (halg : p.aeadAlg = 10 ∧ p.hkdf = -10) (hf : p.fresh = true) (hs : p.senderId.length ≤ 8)
    (hr : p.recipientId.length ≤ 8) (hc : p.idContext.length ≤ 32) (nv : R Nat) (jn je : Bytes) :
    ∃ a, contextInit cfg C p nv jn je = .ok a := by
  obtain ⟨k1, e1⟩ := derive_total hC hinfo (p := p) (id := []) .iv (by simp) hc
  obtain ⟨k2, e2⟩ := derive_total hC hinfo (p := p) .key hr hc
  obtain ⟨k3, e3⟩ := derive_total hC hinfo (p := p) .key hs hc
  unfold contextInit
  rw [if_neg (by simp [halg.1]), if_neg (by simp [halg.2]), e1, R.ok_bind, if_neg (by omega), e2, R.ok_bind, hf]
  simp only [ssnInit, if_true, R.ok_bind, e3]
  exact ⟨_, rfl⟩

/-- the two contexts of one security association, as initialised: mirrored IDs and keys -/
structure Pair (cfg : Cfg) (a b : Ctx) : Prop where
  ab : Mirror a b
  ba : Mirror b a
  ssnA : a.ssn = 0
  ssnB : b.ssn = 0
  syncA : a.echo = .synchronized
  syncB : b.echo = .synchronized
  winA : a.window = ReplayWindow.init cfg.windowSize
  winB : b.window = ReplayWindow.init cfg.windowSize
  interA : a.inter = Table.init cfg.interactions
  interB : b.inter = Table.init cfg.interactions
  notifA : a.notifInit = false
  notifB : b.notifInit = false

theorem Pair.swap {cfg : Cfg} {a b : Ctx} (h : Pair cfg a b) : Pair cfg b a :=
  ⟨h.ba, h.ab, h.ssnB, h.ssnA, h.syncB, h.syncA, h.winB, h.winA, h.interB, h.interA, h.notifB, h.notifA⟩

theorem pair_of_params {cfg : Cfg} {C : Crypto} {p q : InitParams} {nv nv' : R Nat} {jn je jn' je' : Bytes}
    {a b : Ctx} (hm : MirroredParams p q) (hp : p.fresh = true) (hq : q.fresh = true)
    (ha : contextInit cfg C p nv jn je = .ok a) (hb : contextInit cfg C q nv' jn' je' = .ok b) : Pair cfg a b := by
  obtain ⟨k1, k2, k3, k4, k5, -⟩ := C27_mirrored hm ha hb
  obtain ⟨iv, rk, ssn, sk, _, _, _, _, _, hs, _, rfl⟩ := contextInit_ok ha
  obtain ⟨iv', rk', ssn', sk', _, _, _, _, _, hs', _, rfl⟩ := contextInit_ok hb
  rw [hp] at hs; rw [hq] at hs'
  simp only [ssnInit, if_true, R.ok.injEq] at hs hs'
  exact ⟨⟨k4.symm, k1.symm, k3.symm⟩, ⟨k5, k2, k3⟩, hs.symm, hs'.symm, by simp [hp], by simp [hq], rfl, rfl, rfl, rfl,
    rfl, rfl⟩

theorem init_valid_zero (n : Nat) : (ReplayWindow.init n).valid 0 = true := by
  cases n with
  | zero => rfl
  | succ n => rfl

/-- the first exchange over a new pair of contexts -/
theorem Pair.exchange {cfg : Cfg} {C : Crypto} (hC : C.Lawful) {a b : Ctx} (P : Pair cfg a b)
    (hroom : 0 < cfg.interactions) {nw1 nw2 : Option Err} {inp1 b1 inp2 b2 : Bytes} {c1 c2 c3 c4 : Nat}
    {w' s' : World} {p1 p2 : Pkt} {nvmA nvmB : Nat} {logA logB : List EncCall}
    (hsend : coap2oscore cfg C nw1 inp1 c1 ⟨a, nvmA, logA⟩ = (.ok b1, w'))
    (hp1 : coapDeserialize inp1 = .ok p1) (hreq : isRequest p1 = true) (hack : ¬(p1.type = 2 ∧ p1.code = 0))
    (hcar1 : Carriable cfg p1) (hb1 : b1.length < 65536) (hcap1 : (encPkt p1).length ≤ c2)
    (hrsp : coap2oscore cfg C nw2 inp2 c3 ⟨(oscore2coap cfg C b1 c2 b).2, nvmB, logB⟩ = (.ok b2, s'))
    (hp2 : coapDeserialize inp2 = .ok p2) (hr2 : isRequest p2 = false) (htok : p2.token = p1.token)
    (hcar2 : Carriable cfg p2) (hb2 : b2.length < 65536)
    (hcap2 : (encPkt (receivedResponse p2)).length ≤ c4) :
    coapDeserialize (encPkt p1) = .ok p1 ∧ (oscore2coap cfg C b1 c2 b).1 = .ok (encPkt p1) ∧
    (oscore2coap cfg C b2 c4 w'.ctx).1 = .ok (encPkt (receivedResponse p2)) := by
  have hfw := coap2oscore_frame cfg C nw1 inp1 c1 ⟨a, nvmA, logA⟩
  rw [hsend] at hfw
  refine C23_exchange_partial cfg C hC nw1 nw2 inp1 b1 inp2 b2 c1 c2 c3 c4 ⟨a, nvmA, logA⟩ w' s' b p1 p2 nvmB logB
    P.ab P.ba (by rw [P.interA]; exact distinct_init _) (by rw [P.interB]; exact distinct_init _) hsend hp1 hreq hack hcar1
    hb1 (by rw [P.ssnB]; decide) P.syncB (by rw [P.winB]; simp only [P.ssnA]; exact init_valid_zero _) ⟨?_, ?_⟩ hcap1 hrsp
    hp2 hr2 htok hcar2 hb2 ?_ ?_ hcap2
  · rw [P.interB]; unfold Table.init
    exact List.mem_replicate.2 ⟨by omega, rfl⟩
  · intro r hr
    rw [P.interB] at hr
    unfold Table.init at hr
    cases (List.mem_replicate.1 hr).2
  · have := P.ssnA
    rcases hfw.ssn with ⟨h, _⟩ | h <;> simp only [] at h <;> omega
  · intro _ h
    rw [show (World.mk a nvmA logA).ctx = a from rfl, P.notifA] at h
    cases h

/-- what follows a run that ended in the same way on both sides -/
theorem contexts_of_run {S : Setup} {A : Agreed} (H : S.Honest A) {oI : IOut} {oR : ROut} (h6 : oI.cR = S.r.cR)
    (h7 : oR.cI = cIStored S.i.cI) (hcI : cIStored S.i.cI = S.i.cI)
    (hid : S.i.cI.length ≤ 8 ∧ S.r.cR.length ≤ 8) (idContext : Bytes) (hctx : idContext.length ≤ 32) :
    ∃ p q,
      oscoreParams S.cfgI S.C oR.prkOut oI.cR S.i.cI idContext = .ok p ∧
      oscoreParams S.cfgR S.C oR.prkOut oR.cI S.r.cR idContext = .ok q ∧
      MirroredParams p q ∧
      -- the contexts
      ∀ (cfg : Cfg) (nv nv' : R Nat) (jn je jn' je' : Bytes), 0 < cfg.interactions → 50 ≤ cfg.infoMax →
        ∃ a b, contextInit cfg S.C.toCrypto p nv jn je = .ok a ∧ contextInit cfg S.C.toCrypto q nv' jn' je' = .ok b ∧
          ∀ client server, (client = a ∧ server = b ∨ client = b ∧ server = a) →
          -- an exchange of a request and its response
          ∀ (nw1 nw2 : Option Err) (inp1 b1 inp2 b2 : Bytes) (c1 c2 c3 c4 : Nat) (w' s' : World) (p1 p2 : Pkt)
            (nvmA nvmB : Nat) (logA logB : List EncCall),
          coap2oscore cfg S.C.toCrypto nw1 inp1 c1 ⟨client, nvmA, logA⟩ = (.ok b1, w') →
          coapDeserialize inp1 = .ok p1 → isRequest p1 = true → ¬(p1.type = 2 ∧ p1.code = 0) →
          Carriable cfg p1 → b1.length < 65536 → (encPkt p1).length ≤ c2 →
          coap2oscore cfg S.C.toCrypto nw2 inp2 c3 ⟨(oscore2coap cfg S.C.toCrypto b1 c2 server).2, nvmB, logB⟩ = (.ok b2, s') →
          coapDeserialize inp2 = .ok p2 → isRequest p2 = false → p2.token = p1.token →
          Carriable cfg p2 → b2.length < 65536 → (encPkt (receivedResponse p2)).length ≤ c4 →
          coapDeserialize (encPkt p1) = .ok p1 ∧
          (oscore2coap cfg S.C.toCrypto b1 c2 server).1 = .ok (encPkt p1) ∧
          (oscore2coap cfg S.C.toCrypto b2 c4 w'.ctx).1 = .ok (encPkt (receivedResponse p2)) := by
  have e1 := oscoreParams_rfc (cfg := S.cfgI) H.lawful oR.prkOut oI.cR S.i.cI idContext
  have e2 := oscoreParams_rfc (cfg := S.cfgR) H.lawful oR.prkOut oR.cI S.r.cR idContext
  have hm : MirroredParams
      { masterSecret := EdhocSpec.kdf S.C.hmac (EdhocSpec.kdf S.C.hmac oR.prkOut 10 [] 32) 0 [] 16
        masterSalt := EdhocSpec.kdf S.C.hmac (EdhocSpec.kdf S.C.hmac oR.prkOut 10 [] 32) 1 [] 8
        senderId := oI.cR, recipientId := S.i.cI, idContext := idContext, fresh := true }
      { masterSecret := EdhocSpec.kdf S.C.hmac (EdhocSpec.kdf S.C.hmac oR.prkOut 10 [] 32) 0 [] 16
        masterSalt := EdhocSpec.kdf S.C.hmac (EdhocSpec.kdf S.C.hmac oR.prkOut 10 [] 32) 1 [] 8
        senderId := oR.cI, recipientId := S.r.cR, idContext := idContext, fresh := true } :=
    ⟨rfl, rfl, rfl, by simp only [h7, hcI], by simp only [h6]⟩
  refine ⟨_, _, e1, e2, hm, ?_⟩
  intro cfg nv nv' jn je jn' je' hroom hinfo
  obtain ⟨a, ha⟩ := contextInit_total H.lawful.base hinfo (p := { masterSecret := _, masterSalt := _, senderId := oI.cR, recipientId := S.i.cI, idContext := idContext, fresh := true })
    ⟨rfl, rfl⟩ rfl (by simp only [h6]; exact hid.2) hid.1 hctx nv jn je
  obtain ⟨b, hb⟩ := contextInit_total H.lawful.base hinfo (p := { masterSecret := _, masterSalt := _, senderId := oR.cI, recipientId := S.r.cR, idContext := idContext, fresh := true })
    ⟨rfl, rfl⟩ rfl (by simp only [h7, hcI]; exact hid.1) hid.2 hctx nv' jn' je'
  have P := pair_of_params hm rfl rfl ha hb
  refine ⟨a, b, ha, hb, ?_⟩
  rintro client server (⟨rfl, rfl⟩ | ⟨rfl, rfl⟩) nw1 nw2 inp1 b1 inp2 b2 c1 c2 c3 c4 w' s' p1 p2 nvmA nvmB logA logB
    g1 g2 g3 g4 g5 g6 g7 g8 g9 g10 g11 g12 g13 g14
  · exact P.exchange H.lawful.base hroom g1 g2 g3 g4 g5 g6 g7 g8 g9 g10 g11 g12 g13 g14
  · exact P.swap.exchange H.lawful.base hroom g1 g2 g3 g4 g5 g6 g7 g8 g9 g10 g11 g12 g13 g14

/-- **C57** An honest run of EDHOC followed by the set-up of OSCORE as in the samples: the run succeeds on
both sides, both obtain OSCORE parameters, these are mirrored (initiator's sender ID is C_R, responder's is
C_I), and both contexts can be initialised.  Over the two contexts the
first request of either party is recovered exactly by the other, and its response by the requester.

`_partial`: as in C39 (EAD_2, EAD_3, long message_3) and C22/C23 (carriable messages), and C_I must not be
a one-byte negative integer, which the responder stores as another byte (C45). -/
theorem C57_partial {S : Setup} {A : Agreed} (H : S.Honest A)
    (hm4 : S.cfgI.message4 = false ∧ S.cfgR.message4 = false) (hcI : cIStored S.i.cI = S.i.cI)
    (hid : S.i.cI.length ≤ 8 ∧ S.r.cR.length ≤ 8) (idContext : Bytes) (hctx : idContext.length ≤ 32) :
    ∃ m1 m2 m3 oI oR nI nR prk p q,
      -- the run
      initiatorRun S.cfgI S.C S.i S.credsR S.crBuf S.L (netOf [m2]) = (.ok oI, nI) ∧ nI.sent = [m1, m3] ∧
      responderRun S.cfgR S.C S.r S.credsI S.cICap S.L (netOf [m1, m3]) = (.ok oR, nR) ∧ nR.sent = [m2] ∧
      -- the parameters
      oI.prkOut = some prk ∧
      oscoreParams S.cfgI S.C prk oI.cR S.i.cI idContext = .ok p ∧
      oscoreParams S.cfgR S.C oR.prkOut oR.cI S.r.cR idContext = .ok q ∧
      MirroredParams p q ∧
      -- the contexts
      ∀ (cfg : Cfg) (nv nv' : R Nat) (jn je jn' je' : Bytes), 0 < cfg.interactions → 50 ≤ cfg.infoMax →
        ∃ a b, contextInit cfg S.C.toCrypto p nv jn je = .ok a ∧ contextInit cfg S.C.toCrypto q nv' jn' je' = .ok b ∧
          ∀ client server, (client = a ∧ server = b ∨ client = b ∧ server = a) →
          -- an exchange of a request and its response
          ∀ (nw1 nw2 : Option Err) (inp1 b1 inp2 b2 : Bytes) (c1 c2 c3 c4 : Nat) (w' s' : World) (p1 p2 : Pkt)
            (nvmA nvmB : Nat) (logA logB : List EncCall),
          coap2oscore cfg S.C.toCrypto nw1 inp1 c1 ⟨client, nvmA, logA⟩ = (.ok b1, w') →
          coapDeserialize inp1 = .ok p1 → isRequest p1 = true → ¬(p1.type = 2 ∧ p1.code = 0) →
          Carriable cfg p1 → b1.length < 65536 → (encPkt p1).length ≤ c2 →
          coap2oscore cfg S.C.toCrypto nw2 inp2 c3 ⟨(oscore2coap cfg S.C.toCrypto b1 c2 server).2, nvmB, logB⟩ = (.ok b2, s') →
          coapDeserialize inp2 = .ok p2 → isRequest p2 = false → p2.token = p1.token →
          Carriable cfg p2 → b2.length < 65536 → (encPkt (receivedResponse p2)).length ≤ c4 →
          coapDeserialize (encPkt p1) = .ok p1 ∧
          (oscore2coap cfg S.C.toCrypto b1 c2 server).1 = .ok (encPkt p1) ∧
          (oscore2coap cfg S.C.toCrypto b2 c4 w'.ctx).1 = .ok (encPkt (receivedResponse p2)) := by
  obtain ⟨m1, m2, m3, oI, oR, nI, nR, h1, h2, h3, h4, h5, _, _, _, h6, h7, _⟩ := C39_partial H hm4
  obtain ⟨p, q, h8⟩ := contexts_of_run H h6 h7 hcI hid idContext hctx
  exact ⟨m1, m2, m3, oI, oR, nI, nR, oR.prkOut, p, q, h1, h2, h3, h4, h5, h8⟩

/-- **C57** The same with message_4 (without EAD_4, see C39). -/
theorem C57_message_4_partial {S : Setup} {A : Agreed} (H : S.Honest A)
    (hm4 : S.cfgI.message4 = true ∧ S.cfgR.message4 = true) (he : S.r.ead4 = [])
    (ht : A.suite.aead.tagLen ≤ S.cfgI.eadSize + 8 ∧ A.suite.aead.tagLen ≤ S.cfgR.eadSize + 8) (hcI : cIStored S.i.cI = S.i.cI)
    (hid : S.i.cI.length ≤ 8 ∧ S.r.cR.length ≤ 8) (idContext : Bytes) (hctx : idContext.length ≤ 32) :
    ∃ m1 m2 m3 m4 oI oR nI nR prk p q,
      -- the run
      initiatorRun S.cfgI S.C S.i S.credsR S.crBuf S.L (netOf [m2, m4]) = (.ok oI, nI) ∧ nI.sent = [m1, m3] ∧
      responderRun S.cfgR S.C S.r S.credsI S.cICap S.L (netOf [m1, m3]) = (.ok oR, nR) ∧ nR.sent = [m2, m4] ∧
      -- the parameters
      oI.prkOut = some prk ∧
      oscoreParams S.cfgI S.C prk oI.cR S.i.cI idContext = .ok p ∧
      oscoreParams S.cfgR S.C oR.prkOut oR.cI S.r.cR idContext = .ok q ∧
      MirroredParams p q ∧
      -- the contexts
      ∀ (cfg : Cfg) (nv nv' : R Nat) (jn je jn' je' : Bytes), 0 < cfg.interactions → 50 ≤ cfg.infoMax →
        ∃ a b, contextInit cfg S.C.toCrypto p nv jn je = .ok a ∧ contextInit cfg S.C.toCrypto q nv' jn' je' = .ok b ∧
          ∀ client server, (client = a ∧ server = b ∨ client = b ∧ server = a) →
          -- an exchange of a request and its response
          ∀ (nw1 nw2 : Option Err) (inp1 b1 inp2 b2 : Bytes) (c1 c2 c3 c4 : Nat) (w' s' : World) (p1 p2 : Pkt)
            (nvmA nvmB : Nat) (logA logB : List EncCall),
          coap2oscore cfg S.C.toCrypto nw1 inp1 c1 ⟨client, nvmA, logA⟩ = (.ok b1, w') →
          coapDeserialize inp1 = .ok p1 → isRequest p1 = true → ¬(p1.type = 2 ∧ p1.code = 0) →
          Carriable cfg p1 → b1.length < 65536 → (encPkt p1).length ≤ c2 →
          coap2oscore cfg S.C.toCrypto nw2 inp2 c3 ⟨(oscore2coap cfg S.C.toCrypto b1 c2 server).2, nvmB, logB⟩ = (.ok b2, s') →
          coapDeserialize inp2 = .ok p2 → isRequest p2 = false → p2.token = p1.token →
          Carriable cfg p2 → b2.length < 65536 → (encPkt (receivedResponse p2)).length ≤ c4 →
          coapDeserialize (encPkt p1) = .ok p1 ∧
          (oscore2coap cfg S.C.toCrypto b1 c2 server).1 = .ok (encPkt p1) ∧
          (oscore2coap cfg S.C.toCrypto b2 c4 w'.ctx).1 = .ok (encPkt (receivedResponse p2)) := by
  obtain ⟨m1, m2, m3, m4, oI, oR, nI, nR, h1, h2, h3, h4, h5, _, _, _, h6, h7, _⟩ := C39_message_4_partial H hm4 he ht
  obtain ⟨p, q, h8⟩ := contexts_of_run H h6 h7 hcI hid idContext hctx
  exact ⟨m1, m2, m3, m4, oI, oR, nI, nR, oR.prkOut, p, q, h1, h2, h3, h4, h5, h8⟩

/-- the hypotheses of `C57_message_4_partial` are met -/
example : (exSetup4 false).Honest (exAgreed true true) ∧ ((exSetup4 false).cfgI.message4 = true ∧ (exSetup4 false).cfgR.message4 = true) ∧
    (exSetup4 false).r.ead4 = [] ∧ (exAgreed true true).suite.aead.tagLen ≤ (exSetup4 false).cfgI.eadSize + 8 ∧
    (exAgreed true true).suite.aead.tagLen ≤ (exSetup4 false).cfgR.eadSize + 8 ∧ cIStored (exSetup4 false).i.cI = (exSetup4 false).i.cI :=
  ⟨ex_honest4 false, ⟨rfl, rfl⟩, rfl, by decide, by decide, by decide +kernel⟩

/-- the hypotheses of `C57_partial` are met by the example parties, methods 0 and 3 -/
example : (exSetup 3).Honest (exAgreed true true) ∧ cIStored (exSetup 3).i.cI = (exSetup 3).i.cI ∧
    (exSetup 3).i.cI.length ≤ 8 ∧ (exSetup 3).r.cR.length ≤ 8 ∧ (exSetup 0).Honest (exAgreed false false) :=
  ⟨ex_honest (.inr ⟨rfl, rfl, rfl⟩), by decide +kernel, by decide, by decide, ex_honest (.inl ⟨rfl, rfl, rfl⟩)⟩

/-- **C57_false** Nothing prevents C_I = C_R: then each party's sender key is its recipient key, on both
sides, so that both protect their messages with the same key and (RFC 8613 5.2) the same nonces. -/
theorem C57_false_same_ids {cfg : Cfg} {C : Crypto} {p q : InitParams} {nv nv' : R Nat} {jn je jn' je' : Bytes}
    {a b : Ctx} (hm : MirroredParams p q) (hid : p.senderId = p.recipientId)
    (ha : contextInit cfg C p nv jn je = .ok a) (hb : contextInit cfg C q nv' jn' je' = .ok b) :
    a.senderKey = b.senderKey ∧ a.senderId = b.senderId ∧ a.commonIv = b.commonIv := by
  obtain ⟨k1, k2, k3, k4, k5, -⟩ := C27_mirrored hm ha hb
  obtain ⟨iv, rk, ssn, sk, _, _, _, _, hrk, _, hsk, rfl⟩ := contextInit_ok ha
  rw [hid] at hsk
  have : sk = rk := R.ok.inj (hsk.symm.trans hrk)
  subst this
  exact ⟨k2, by simp only [] at k5 ⊢; rw [hid]; exact k5, k3⟩

/-- such a run: the example parties with C_R = C_I -/
def sameIdSetup : Setup := { exSetup 3 with i := { (exSetup 3).i with cI := (exSetup 3).r.cR } }

theorem sameId_honest : sameIdSetup.Honest (exAgreed true true) :=
  { ex_honest (method := 3) (sI := true) (sR := true) (.inr ⟨rfl, rfl, rfl⟩) with
    fit_ci := by decide
    fit_ci' := by decide
    fit_m1 := by decide +kernel }

/-- **C57_false** Whole runs: whenever the responder happens to choose C_R = C_I (RFC 9528 3.3.3 demands
that they differ when OSCORE follows), both parties finish and initialise contexts that send with the same
key, ID and common IV. -/
theorem C57_false_run {S : Setup} {A : Agreed} (H : S.Honest A)
    (hm4 : S.cfgI.message4 = false ∧ S.cfgR.message4 = false) (hcI : cIStored S.i.cI = S.i.cI)
    (hid : S.i.cI.length ≤ 8) (hsame : S.r.cR = S.i.cI) (cfg : Cfg) (hroom : 0 < cfg.interactions)
    (hinfo : 50 ≤ cfg.infoMax) (nv nv' : R Nat) (jn je jn' je' : Bytes) :
    ∃ m1 m2 m3 oI oR nI nR prk p q a b,
      initiatorRun S.cfgI S.C S.i S.credsR S.crBuf S.L (netOf [m2]) = (.ok oI, nI) ∧ nI.sent = [m1, m3] ∧
      responderRun S.cfgR S.C S.r S.credsI S.cICap S.L (netOf [m1, m3]) = (.ok oR, nR) ∧ nR.sent = [m2] ∧
      oI.prkOut = some prk ∧
      oscoreParams S.cfgI S.C prk oI.cR S.i.cI [] = .ok p ∧ contextInit cfg S.C.toCrypto p nv jn je = .ok a ∧
      oscoreParams S.cfgR S.C oR.prkOut oR.cI S.r.cR [] = .ok q ∧ contextInit cfg S.C.toCrypto q nv' jn' je' = .ok b ∧
      a.senderKey = b.senderKey ∧ a.senderId = b.senderId ∧ a.commonIv = b.commonIv := by
  obtain ⟨m1, m2, m3, oI, oR, nI, nR, prk, p, q, h1, h2, h3, h4, h5, h6, h7, hm, h8⟩ :=
    C57_partial H hm4 hcI ⟨hid, by rw [hsame]; exact hid⟩ [] (by simp)
  obtain ⟨a, b, ha, hb, -⟩ := h8 cfg nv nv' jn je jn' je' hroom hinfo
  have e1 := oscoreParams_rfc (cfg := S.cfgI) H.lawful prk oI.cR S.i.cI []
  have e2 := oscoreParams_rfc (cfg := S.cfgR) H.lawful oR.prkOut oR.cI S.r.cR []
  have f1 : p.recipientId = S.i.cI := by rw [e1] at h6; rw [← R.ok.inj h6]
  have f2 : q.recipientId = S.r.cR := by rw [e2] at h7; rw [← R.ok.inj h7]
  have f3 : p.senderId = p.recipientId := by rw [← hm.recipient, f2, hsame, f1]
  exact ⟨m1, m2, m3, oI, oR, nI, nR, prk, p, q, a, b, h1, h2, h3, h4, h5, h6, ha, h7, hb,
    C57_false_same_ids hm f3 ha hb⟩

/-- the hypotheses of `C57_false_run` are met -/
example : sameIdSetup.Honest (exAgreed true true) ∧ cIStored sameIdSetup.i.cI = sameIdSetup.i.cI ∧
    sameIdSetup.r.cR = sameIdSetup.i.cI := ⟨sameId_honest, by decide +kernel, rfl⟩

end Verif.Edhoc
