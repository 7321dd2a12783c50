import Verif.Props.EdhocTranscript
import Verif.Props.EdhocSchedule
/-
C75: a completed EDHOC run whose peer authenticates by a signature has a partner: the holder of the peer's key took
part in the same session.
-/
namespace Verif.Edhoc
open Verif Verif.Cbor

/-! ### specification -/

/-- One use of a signing key through the API: a responder that received `m1`, or an initiator that received `m2`. -/
inductive Session where
  | resp (cfg : ECfg) (c : RCtx) (cICap : Nat) (m1 : Bytes)
  | init (cfg : ECfg) (c : ICtx) (creds : List Cred) (crBuf : Bytes) (m2 : Bytes)

/-- the configuration of the session -/
def Session.cfg : Session → ECfg
  | .resp cfg _ _ _ => cfg
  | .init cfg _ _ _ _ => cfg

/-- The string the session hands to `sign`, if it gets that far: signature_or_mac_msg.c:165-176, called from
responder.c:212-220 after the preceding steps succeeded (`C75_responder_signs`), and from initiator.c:209-214 after
message_2 was accepted (`C75_initiator_signs`).  Any error stands for: nothing is signed. -/
def Session.signed (C : ECrypto) : Session → R Bytes
  | .resp cfg c cICap m1 => do
    let p ← msg1Parse cfg m1 cICap (List.replicate cfg.eadSize 0)
    if suiteSupported (p.suites.getLastD 0) c.suitesR = false then .err .error_message_sent
    else do
      let suite ← getSuite (p.suites.getLastD 0).toNat
      if (authType p.method (false, false)).2 then .err .wrong_parameter
      else do
        let th2 ← th2Calc C (C.hash m1) c.gY
        let gxy ← sharedSecret C suite.ecdh c.y p.gX
        let mac2 ← mac cfg C (hkdfExtract C.toCrypto th2 gxy) c.cR c.cRMem th2 c.idCredR c.credR c.ead2 2 false suite
        sigStruct cfg th2 c.idCredR c.credR c.ead2 mac2
  | .init cfg c creds crBuf m2 => do
    let (_, suite, h1) ← msg1Gen cfg C c
    let (sI, sR) := authType c.method (false, false)
    let st ← msg2Process cfg C c creds suite h1 m2 sI sR crBuf (List.replicate cfg.eadSize 0)
    if sI then .err .wrong_parameter
    else do
      let mac3 ← mac cfg C st.prk4e3m [] [] st.th3 c.idCredI c.credI c.ead3 6 false suite
      sigStruct cfg st.th3 c.idCredI c.credI c.ead3 mac3

/-- The received signature `sig` of `msg` is not a forgery under `pk`: if it verifies, `msg` was signed in one of the sessions. -/
def NotForged (C : ECrypto) (alg : SignAlg) (pk msg sig : Bytes) (S : Session → Prop) : Prop :=
  C.verify alg pk msg sig = some true → ∃ s, S s ∧ s.signed C = .ok msg

/-- The inputs of the hash and of the HMAC on which the session's signature depends: H(message_1), TH_2 (and TH_3); the
MAC, its key first (and PRK_2e).  Collisions are between these and the peer's. -/
def Session.inputs (C : ECrypto) : Session → R Inputs
  | .resp cfg c cICap m1 => do
    let p ← msg1Parse cfg m1 cICap (List.replicate cfg.eadSize 0)
    let suite ← getSuite (p.suites.getLastD 0).toNat
    let th2 ← th2Calc C (C.hash m1) c.gY
    let gxy ← sharedSecret C suite.ecdh c.y p.gX
    let ctx ← macContext cfg c.cR c.cRMem th2 c.idCredR c.credR c.ead2
    pure ⟨[m1, th2In c.gY (C.hash m1)], [(hkdfExtract C.toCrypto th2 gxy, kdfIn 2 ctx 32), (th2, gxy)]⟩
  | .init cfg c creds crBuf m2 => do
    let v ← initView cfg C c creds crBuf m2
    let (_, _, st) ← initResult cfg C c creds crBuf m2
    let ctx ← macContext cfg [] [] st.th3 c.idCredI c.credI c.ead3
    pure ⟨[v.m1, th2In v.gY (C.hash v.m1), thIn v.th2 v.p2 v.credR], [(st.prk4e3m, kdfIn 6 ctx 32)]⟩

/-- the same inputs of an initiator that checks the responder's signature -/
def IView.checked (cfg : ECfg) (C : ECrypto) (crBuf : Bytes) (v : IView) : R Inputs := do
  let ctx ← macContext cfg v.cR (crBuf.drop v.cR.length) v.th2 v.sp.idCred v.credR v.sp.ead
  pure ⟨[v.m1, th2In v.gY (C.hash v.m1)], [(hkdfExtract C.toCrypto v.th2 v.gxy, kdfIn 2 ctx 32), (v.th2, v.gxy)]⟩

/-- the same inputs of a responder that checks the initiator's signature -/
def respChecked (cfg : ECfg) (C : ECrypto) (c : RCtx) (m1 : Bytes) (w : RView) (rs : RState) (sp : Split) (credI : Bytes) : R Inputs := do
  let ctx ← macContext cfg [] [] rs.th3 sp.idCred credI sp.ead
  pure ⟨[m1, th2In c.gY (C.hash m1), thIn w.th2 w.p2 c.credR], [(rs.prk3e2m, kdfIn 6 ctx 32)]⟩

/-- the string for which the initiator verifies the responder's signature (signature_or_mac_msg.c:200-220) -/
def IView.verified (cfg : ECfg) (C : ECrypto) (crBuf : Bytes) (v : IView) : R Bytes := do
  let mac2 ← mac cfg C (hkdfExtract C.toCrypto v.th2 v.gxy) v.cR (crBuf.drop v.cR.length) v.th2 v.sp.idCred v.credR v.sp.ead 2 false v.suite
  sigStruct cfg v.th2 v.sp.idCred v.credR v.sp.ead mac2

/-- the string for which the responder verifies the initiator's signature -/
def respVerified (cfg : ECfg) (C : ECrypto) (w : RView) (rs : RState) (sp : Split) (credI : Bytes) : R Bytes := do
  let mac3 ← mac cfg C rs.prk3e2m [] [] rs.th3 sp.idCred credI sp.ead 6 false w.suite
  sigStruct cfg rs.th3 sp.idCred credI sp.ead mac3

/-- a session of `S` and the run with the inputs `u` found a collision -/
def Clashes (C : ECrypto) (u : Inputs) (S : Session → Prop) : Prop := ∃ s w, S s ∧ s.inputs C = .ok w ∧ Clash C u w

/-! ### what the signed string and the MAC bind -/

theorem signed_resp {cfg : ECfg} {C : ECrypto} {c : RCtx} {cICap : Nat} {m1 msg : Bytes}
    (h : Session.signed C (.resp cfg c cICap m1) = .ok msg) : ∃ p suite th2 gxy mac2,
      msg1Parse cfg m1 cICap (List.replicate cfg.eadSize 0) = .ok p ∧
      getSuite (p.suites.getLastD 0).toNat = .ok suite ∧ (authType p.method (false, false)).2 = false ∧
      th2Calc C (C.hash m1) c.gY = .ok th2 ∧ sharedSecret C suite.ecdh c.y p.gX = .ok gxy ∧
      mac cfg C (hkdfExtract C.toCrypto th2 gxy) c.cR c.cRMem th2 c.idCredR c.credR c.ead2 2 false suite = .ok mac2 ∧
      sigStruct cfg th2 c.idCredR c.credR c.ead2 mac2 = .ok msg := by
  unfold Session.signed at h
  dsimp only at h
  obtain ⟨p, h1, h⟩ := R.bind_eq_ok.1 h
  split at h
  · cases h
  obtain ⟨suite, h2, h⟩ := R.bind_eq_ok.1 h
  split at h
  · cases h
  rename_i h3
  obtain ⟨th2, h4, h⟩ := R.bind_eq_ok.1 h
  obtain ⟨gxy, h5, h⟩ := R.bind_eq_ok.1 h
  obtain ⟨mac2, h6, h⟩ := R.bind_eq_ok.1 h
  exact ⟨p, suite, th2, gxy, mac2, h1, h2, by simpa using h3, h4, h5, h6, h⟩

theorem signed_init {cfg : ECfg} {C : ECrypto} {c : ICtx} {creds : List Cred} {crBuf m2 msg : Bytes}
    (h : Session.signed C (.init cfg c creds crBuf m2) = .ok msg) : ∃ m1 suite h1 st mac3,
      msg1Gen cfg C c = .ok (m1, suite, h1) ∧
      msg2Process cfg C c creds suite h1 m2 (authType c.method (false, false)).1
        (authType c.method (false, false)).2 crBuf (List.replicate cfg.eadSize 0) = .ok st ∧
      (authType c.method (false, false)).1 = false ∧
      mac cfg C st.prk4e3m [] [] st.th3 c.idCredI c.credI c.ead3 6 false suite = .ok mac3 ∧
      sigStruct cfg st.th3 c.idCredI c.credI c.ead3 mac3 = .ok msg := by
  unfold Session.signed at h
  dsimp only at h
  obtain ⟨⟨m1, suite, h1⟩, h2, h⟩ := R.bind_eq_ok.1 h
  simp only at h
  obtain ⟨st, h3, h⟩ := R.bind_eq_ok.1 h
  split at h
  · cases h
  rename_i h4
  obtain ⟨mac3, h6, h⟩ := R.bind_eq_ok.1 h
  exact ⟨m1, suite, h1, st, mac3, h2, h3, by simpa using h4, h6, h⟩

theorem small_sizes {cfg : ECfg} (h : cfg.Small) : cfg.sigStructSize < 2 ^ 32 ∧ cfg.contextMacSize < 2 ^ 32 := by
  have up : ∀ n, asBstr n ≤ n + 5 := by
    intro n; unfold asBstr bstrOverhead; repeat' split
    all_goals omega
  have h1 := up cfg.idCredMaxSize
  have h2 := up (asBstr 32 + cfg.credMaxSize + cfg.eadSize)
  have h3 := up (asBstr cfg.cRSize + asBstr 32 + cfg.idCredMaxSize + cfg.credMaxSize + cfg.eadSize)
  have h4 := up cfg.cRSize
  have e : asBstr 32 = 34 := by decide
  have e' : asBstr 10 = 12 := by decide
  unfold ECfg.Small at h
  unfold ECfg.sigStructSize ECfg.contextMacSize
  have i1 : cfg.idCredMaxSize < 2 ^ 30 := by unfold ECfg.idCredMaxSize; omega
  have i2 : cfg.credMaxSize < 2 ^ 30 := by unfold ECfg.credMaxSize; omega
  constructor <;> omega

theorem sig1_len : "Signature1".toUTF8.toList.length < 2 ^ 64 := by decide +kernel

theorem sigStruct_binds {cfg cfg' : ECfg} {th id cred ead m th' id' cred' ead' m' s : Bytes} (hs : cfg.Small)
    (hs' : cfg'.Small) (h : sigStruct cfg th id cred ead m = .ok s) (h' : sigStruct cfg' th' id' cred' ead' m' = .ok s) :
    id = id' ∧ th = th' ∧ cred ++ ead = cred' ++ ead' ∧ m = m' := by
  have lens : ∀ {cfg : ECfg} {th id cred ead m s : Bytes}, cfg.Small → sigStruct cfg th id cred ead m = .ok s →
      id.length < 2 ^ 64 ∧ m.length < 2 ^ 64 ∧ (enc (.bstr th) ++ cred ++ ead).length < 2 ^ 64 ∧ th.length < 2 ^ 64 := by
    intro cfg th id cred ead m s hs h
    unfold sigStruct at h
    obtain ⟨_, h0, h⟩ := R.bind_eq_ok.1 h
    obtain ⟨thE, h1, h⟩ := R.bind_eq_ok.1 h
    obtain ⟨rfl, h1⟩ := encodeBstr_ok.1 h1
    have h0 := checkBufferSize_ok.1 h0
    unfold sigStructCap at h0
    have a1 := le_asBstr id.length
    have a2 := le_asBstr m.length
    have a3 := le_asBstr (asBstr th.length + cred.length + ead.length)
    have a4 := le_asBstr th.length
    have e : asBstr 32 = 34 := by decide
    rw [e] at h1
    have := (small_sizes hs).1
    simp only [List.length_append]
    omega
  obtain ⟨l1, l2, l3, l4⟩ := lens hs h
  obtain ⟨l1', l2', l3', l4'⟩ := lens hs' h'
  have e := (sigStruct_ok h).symm.trans (sigStruct_ok h')
  unfold EdhocSpec.sigStructure at e
  have := enc_inj (by simp only [Item.Ok, OkList, List.length_cons, List.length_nil, and_true]; exact ⟨by decide, sig1_len, l1, l3, l2⟩)
    (by simp only [Item.Ok, OkList, List.length_cons, List.length_nil, and_true]; exact ⟨by decide, sig1_len, l1', l3', l2'⟩) e
  simp only [Item.arr.injEq, List.cons.injEq, Item.bstr.injEq, true_and, and_true] at this
  obtain ⟨r1, r2, r3⟩ := this
  rw [List.append_assoc, List.append_assoc] at r2
  obtain ⟨r4, r5⟩ := enc_prefix_free _ _ _ _ (by simpa [Item.Ok] using l4) (by simpa [Item.Ok] using l4') r2
  exact ⟨r1, by simpa using r4, r5, r3⟩

theorem macContext_length {cfg : ECfg} {cR mem th id cred ead ctx : Bytes} (hs : cfg.Small)
    (h : macContext cfg cR mem th id cred ead = .ok ctx) : ctx.length < 2 ^ 32 ∧ cR.length < 2 ^ 32 := by
  obtain ⟨c0, h0, he⟩ := macContext_ok h
  unfold macContext at h
  obtain ⟨_, _, h⟩ := R.bind_eq_ok.1 h
  obtain ⟨thE, h1, h⟩ := R.bind_eq_ok.1 h
  obtain ⟨rfl, _⟩ := encodeBstr_ok.1 h1
  simp only at h
  obtain ⟨_, h2, h⟩ := R.bind_eq_ok.1 h
  have h2 := checkBufferSize_ok.1 h2
  have hc : c0.length ≤ asBstr cR.length := by
    unfold macCr at h0
    split at h0
    · simp only [R.pure_eq, R.ok.injEq] at h0
      rw [← h0]; exact Nat.zero_le _
    · obtain ⟨_, _, h0⟩ := R.bind_eq_ok.1 h0
      split at h0
      · split at h0
        · unfold encodeInt at h0
          rw [cborInt_eq, cborOut_ok] at h0
          obtain ⟨e, l⟩ := h0
          rw [e]; exact l
        · cases h0
      · obtain ⟨e, l⟩ := encodeBstr_ok.1 h0
        rw [e]; exact l
  have := (small_sizes hs).2
  have := le_asBstr cR.length
  rw [he]
  simp only [List.length_append]
  omega

/-- equal MACs of a signing party: equal key, label and context -/
theorem mac_binds {cfg cfg' : ECfg} {C : ECrypto} (hC : C.Lawful) (hs : cfg.Small) (hs' : cfg'.Small)
    {prk cR mem th id cred ead prk' cR' mem' th' id' cred' ead' m : Bytes} {label label' : Nat} {suite suite' : Suite}
    (h : mac cfg C prk cR mem th id cred ead label false suite = .ok m)
    (h' : mac cfg' C prk' cR' mem' th' id' cred' ead' label' false suite' = .ok m)
    (hl : label < 24) (hl' : label' < 24) :
    ∃ ctx ctx', macContext cfg cR mem th id cred ead = .ok ctx ∧ macContext cfg' cR' mem' th' id' cred' ead' = .ok ctx' ∧
    (HmacClash C (prk, kdfIn label ctx 32) (prk', kdfIn label' ctx' 32) ∨ (prk = prk' ∧ label = label' ∧ ∃ c0 c0', macCr cfg cR mem = .ok c0 ∧
      macCr cfg' cR' mem' = .ok c0' ∧ cR.length < 2 ^ 32 ∧ cR'.length < 2 ^ 32 ∧
      c0 ++ id ++ enc (.bstr th) ++ cred ++ ead = c0' ++ id' ++ enc (.bstr th') ++ cred' ++ ead')) := by
  unfold mac at h h'
  obtain ⟨ctx, h1, h⟩ := R.bind_eq_ok.1 h
  obtain ⟨ctx', h1', h'⟩ := R.bind_eq_ok.1 h'
  obtain ⟨l1, l2⟩ := macContext_length hs h1
  obtain ⟨l1', l2'⟩ := macContext_length hs' h1'
  refine ⟨ctx, ctx', h1, h1', ?_⟩
  rcases kdf_binds hC (L := 32) h h' (by decide) (by decide) hl hl' l1 l1' with e | ⟨e1, e2, e3⟩
  · exact .inl e
  · obtain ⟨c0, g1, rfl⟩ := macContext_ok h1
    obtain ⟨c0', g1', rfl⟩ := macContext_ok h1'
    exact .inr ⟨e1, e2, c0, c0', g1, g1', l2, l2', e3⟩

/-- the field of C_R in the MAC context determines C_R, whatever the bytes behind it are -/
theorem macCr_inj {cfg cfg' : ECfg} {cR mem cR' mem' c : Bytes} (hl : cR.length < 2 ^ 32) (hl' : cR'.length < 2 ^ 32)
    (h : macCr cfg cR mem = .ok c) (h' : macCr cfg' cR' mem' = .ok c) : cR = cR' := by
  have raw : ∀ (b : UInt8) (t : Bytes), isRawInt (b :: t) = true → b :: t = [b] := by
    intro b t hr
    cases t with
    | nil => rfl
    | cons x y => simp [isRawInt] at hr
  have shape : ∀ {cfg : ECfg} {cR mem c : Bytes}, macCr cfg cR mem = .ok c →
      (cR = [] ∧ c = []) ∨ (∃ b0 b1 b2 b3, cR = [b0] ∧ c = enc (.int (leInt32 b0 b1 b2 b3))) ∨
      (cR ≠ [] ∧ c = enc (.bstr cR)) := by
    intro cfg cR mem c h
    unfold macCr at h
    split at h
    · rename_i h0
      simp only [R.pure_eq, R.ok.injEq] at h
      exact .inl ⟨by simpa using h0, h.symm⟩
    · rename_i h0
      obtain ⟨_, _, h⟩ := R.bind_eq_ok.1 h
      split at h
      · rename_i hr
        split at h
        · unfold encodeInt at h
          rw [cborInt_eq, cborOut_ok] at h
          exact .inr (.inl ⟨_, _, _, _, raw _ _ hr, h.1⟩)
        · cases h
      · exact .inr (.inr ⟨by simpa using h0, (encodeBstr_ok.1 h).1⟩)
  have okInt : ∀ b0 b1 b2 b3, (Item.int (leInt32 b0 b1 b2 b3)).Ok := by
    intro b0 b1 b2 b3
    have := b0.toNat_lt; have := b1.toNat_lt; have := b2.toNat_lt; have := b3.toNat_lt
    have hb : -(2 ^ 31 : Int) ≤ leInt32 b0 b1 b2 b3 ∧ leInt32 b0 b1 b2 b3 < 2 ^ 31 := by
      unfold leInt32
      simp only
      split <;> constructor <;> simp only [Int.ofNat_eq_natCast] <;> omega
    generalize leInt32 b0 b1 b2 b3 = v at hb
    unfold Item.int
    split <;> simp only [Item.Ok] <;> omega
  have nb : ∀ b0 b1 b2 b3 (l : Bytes), Item.int (leInt32 b0 b1 b2 b3) ≠ .bstr l := by
    intro b0 b1 b2 b3 l
    unfold Item.int
    split <;> simp
  rcases shape h with ⟨h1, h2⟩ | ⟨b0, b1, b2, b3, h1, h2⟩ | ⟨h1, h2⟩ <;>
    rcases shape h' with ⟨g1, g2⟩ | ⟨d0, d1, d2, d3, g1, g2⟩ | ⟨g1, g2⟩
  · rw [h1, g1]
  · rw [h2] at g2; exact absurd g2.symm (enc_ne_nil _)
  · rw [h2] at g2; exact absurd g2.symm (enc_ne_nil _)
  · rw [g2] at h2; exact absurd h2.symm (enc_ne_nil _)
  · have e := enc_inj (okInt _ _ _ _) (okInt _ _ _ _) (h2.symm.trans g2)
    have e' : leInt32 b0 b1 b2 b3 = leInt32 d0 d1 d2 d3 := by
      generalize leInt32 b0 b1 b2 b3 = x at e
      generalize leInt32 d0 d1 d2 d3 = y at e
      unfold Item.int at e
      split at e <;> split at e <;> simp at e <;> omega
    have hb : b0 = d0 := by
      have := b0.toNat_lt; have := b1.toNat_lt; have := b2.toNat_lt; have := b3.toNat_lt
      have := d0.toNat_lt; have := d1.toNat_lt; have := d2.toNat_lt; have := d3.toNat_lt
      unfold leInt32 at e'
      simp only [Int.ofNat_eq_natCast] at e'
      apply UInt8.toNat_inj.1
      split at e' <;> split at e' <;> omega
    rw [h1, g1, hb]
  · exact absurd (enc_inj (okInt _ _ _ _) (by simp only [Item.Ok]; omega) (h2.symm.trans g2)) (nb _ _ _ _ _)
  · rw [g2] at h2; exact absurd h2.symm (enc_ne_nil _)
  · exact absurd (enc_inj (okInt _ _ _ _) (by simp only [Item.Ok]; omega) (g2.symm.trans h2)) (nb _ _ _ _ _)
  · have := enc_inj (i := .bstr cR) (j := .bstr cR') (by simp only [Item.Ok]; omega) (by simp only [Item.Ok]; omega) (h2.symm.trans g2)
    simpa using this

/-- a verified signature: what was checked -/
theorem verify_sig_full {cfg : ECfg} {C : ECrypto} {suite : Suite} {pk prk cR mem th id cred ead rcv : Bytes} {label : Nat}
    (h : sigOrMacVerify cfg C false suite pk prk cR mem th id cred ead label rcv = .ok ()) :
    ∃ m s, mac cfg C prk cR mem th id cred ead label false suite = .ok m ∧ sigStruct cfg th id cred ead m = .ok s ∧
      C.verify suite.sign pk s rcv = some true := by
  obtain ⟨m, h1, h2⟩ := C42_verify h
  unfold sigOrMacVerify at h
  obtain ⟨m', h1', h⟩ := R.bind_eq_ok.1 h
  rw [h1'] at h1
  cases h1
  simp only [Bool.false_eq_true, ↓reduceIte] at h
  obtain ⟨s, h3, h⟩ := R.bind_eq_ok.1 h
  rw [← sigStruct_ok h3] at h2
  exact ⟨_, s, h1', h3, h2⟩

/-- equal signed strings over MACs: everything under the signature is equal -/
theorem signed_binds {cfg cfg' : ECfg} {C : ECrypto} (hC : C.Lawful) (hs : cfg.Small) (hs' : cfg'.Small)
    {prk cR mem th id cred ead prk' cR' mem' th' id' cred' ead' m m' s : Bytes} {label label' : Nat} {suite suite' : Suite}
    (h : mac cfg C prk cR mem th id cred ead label false suite = .ok m)
    (h' : mac cfg' C prk' cR' mem' th' id' cred' ead' label' false suite' = .ok m')
    (g : sigStruct cfg th id cred ead m = .ok s) (g' : sigStruct cfg' th' id' cred' ead' m' = .ok s)
    (hl : label < 24) (hl' : label' < 24) :
    ∃ ctx ctx', macContext cfg cR mem th id cred ead = .ok ctx ∧ macContext cfg' cR' mem' th' id' cred' ead' = .ok ctx' ∧
    (HmacClash C (prk, kdfIn label ctx 32) (prk', kdfIn label' ctx' 32) ∨
      (prk = prk' ∧ label = label' ∧ th = th' ∧ id = id' ∧ cred ++ ead = cred' ++ ead' ∧ cR = cR')) := by
  obtain ⟨e1, e2, e3, rfl⟩ := sigStruct_binds hs hs' g g'
  obtain ⟨ctx, ctx', x1, x2, hx⟩ := mac_binds hC hs hs' h h' hl hl'
  refine ⟨ctx, ctx', x1, x2, ?_⟩
  rcases hx with e | ⟨e4, e5, c0, c0', g1, g1', l, l', e6⟩
  · exact .inl e
  · refine .inr ⟨e4, e5, e2, e1, e3, ?_⟩
    rw [e1, e2] at e6
    simp only [List.append_assoc, e3] at e6
    have := List.append_cancel_right e6
    rw [this] at g1
    exact macCr_inj l l' g1 g1'

/-- what the initiator's checks of message_2 establish when the responder signs -/
theorem msg2Process_signed {cfg : ECfg} {C : ECrypto} {c : ICtx} {creds : List Cred} {suite : Suite}
    {h1 m2 crBuf ead : Bytes} {sI : Bool} {st : IState}
    (h : msg2Process cfg C c creds suite h1 m2 sI false crBuf ead = .ok st) :
    ∃ gY c2 gxy th2 ptxt sp cred pk g mac2 s,
      msg2Parse cfg m2 (ctxt2Len m2.length) = .ok (gY, c2) ∧ sharedSecret C suite.ecdh c.x gY = .ok gxy ∧
      th2Calc C h1 gY = .ok th2 ∧ ctxtDecrypt cfg C .c2 suite (hkdfExtract C.toCrypto th2 gxy) th2 c2 = .ok ptxt ∧
      plaintext2Split cfg ptxt crBuf.length cfg.idCredRSize ead.length = .ok (st.cR, sp) ∧
      retrieveCred cfg C false creds sp.idCred cfg.credRSize = .ok (cred, pk, g) ∧
      mac cfg C (hkdfExtract C.toCrypto th2 gxy) st.cR (crBuf.drop st.cR.length) th2 sp.idCred cred sp.ead 2 false suite
        = .ok mac2 ∧
      sigStruct cfg th2 sp.idCred cred sp.ead mac2 = .ok s ∧ C.verify suite.sign pk s sp.sigOrMac = some true ∧
      st.ead = sp.ead := by
  unfold msg2Process at h
  obtain ⟨_, _, h⟩ := R.bind_eq_ok.1 h
  obtain ⟨⟨gY, c2⟩, f1, h⟩ := R.bind_eq_ok.1 h
  simp only at h
  obtain ⟨gxy, f2, h⟩ := R.bind_eq_ok.1 h
  obtain ⟨th2, f3, h⟩ := R.bind_eq_ok.1 h
  obtain ⟨ptxt, f4, h⟩ := R.bind_eq_ok.1 h
  obtain ⟨⟨cR, sp⟩, f5, h⟩ := R.bind_eq_ok.1 h
  simp only at h
  unfold msg2Auth at h
  obtain ⟨⟨cred, pk, g⟩, f6, h⟩ := R.bind_eq_ok.1 h
  simp only at h
  obtain ⟨prk3, f7, h⟩ := R.bind_eq_ok.1 h
  obtain ⟨_, f8, h⟩ := R.bind_eq_ok.1 h
  obtain ⟨th3, f9, h⟩ := R.bind_eq_ok.1 h
  obtain ⟨prk4, f10, h⟩ := R.bind_eq_ok.1 h
  simp only [R.pure_eq, R.ok.injEq] at h
  subst h
  have : prk3 = hkdfExtract C.toCrypto th2 gxy := by
    unfold prkDerive at f7
    simp only [Bool.false_eq_true, ↓reduceIte, R.pure_eq, R.ok.injEq] at f7
    exact f7.symm
  subst this
  obtain ⟨m, s, k1, k2, k3⟩ := verify_sig_full f8
  exact ⟨gY, c2, gxy, th2, ptxt, sp, cred, pk, g, m, s, f1, f2, f3, f4, f5, f6, k1, k2, k3, rfl⟩

/-- the transcript behind TH_3 on the initiator's side -/
theorem msg2Process_th3 {cfg : ECfg} {C : ECrypto} (hC : C.Lawful) {c : ICtx} {creds : List Cred} {suite : Suite}
    {h1 m2 crBuf ead : Bytes} {sI sR : Bool} {st : IState}
    (h : msg2Process cfg C c creds suite h1 m2 sI sR crBuf ead = .ok st) :
    ∃ gY c2 gxy th2 ptxt sp cred pk g, msg2Parse cfg m2 (ctxt2Len m2.length) = .ok (gY, c2) ∧
      sharedSecret C suite.ecdh c.x gY = .ok gxy ∧ th2Calc C h1 gY = .ok th2 ∧
      ctxtDecrypt cfg C .c2 suite (hkdfExtract C.toCrypto th2 gxy) th2 c2 = .ok ptxt ∧
      plaintext2Split cfg ptxt crBuf.length cfg.idCredRSize ead.length = .ok (st.cR, sp) ∧
      retrieveCred cfg C sR creds sp.idCred cfg.credRSize = .ok (cred, pk, g) ∧
      th34Calc cfg C th2 ptxt cred = .ok st.th3 ∧ st.prk3e2m.length = 32 ∧ (sI = false → st.prk4e3m = st.prk3e2m) := by
  unfold msg2Process at h
  obtain ⟨_, _, h⟩ := R.bind_eq_ok.1 h
  obtain ⟨⟨gY, c2⟩, f1, h⟩ := R.bind_eq_ok.1 h
  simp only at h
  obtain ⟨gxy, f2, h⟩ := R.bind_eq_ok.1 h
  obtain ⟨th2, f3, h⟩ := R.bind_eq_ok.1 h
  obtain ⟨ptxt, f4, h⟩ := R.bind_eq_ok.1 h
  obtain ⟨⟨cR, sp⟩, f5, h⟩ := R.bind_eq_ok.1 h
  simp only at h
  unfold msg2Auth at h
  obtain ⟨⟨cred, pk, g⟩, f6, h⟩ := R.bind_eq_ok.1 h
  simp only at h
  obtain ⟨prk3, f7, h⟩ := R.bind_eq_ok.1 h
  obtain ⟨_, f8, h⟩ := R.bind_eq_ok.1 h
  obtain ⟨th3, f9, h⟩ := R.bind_eq_ok.1 h
  obtain ⟨prk4, f10, h⟩ := R.bind_eq_ok.1 h
  simp only [R.pure_eq, R.ok.injEq] at h
  subst h
  refine ⟨gY, c2, gxy, th2, ptxt, sp, cred, pk, g, f1, f2, f3, f4, f5, f6, f9, prkDerive_length hC (hC.base.hmac_len _ _) f7, ?_⟩
  intro hsI
  subst hsI
  unfold prkDerive at f10
  simp only [Bool.false_eq_true, ↓reduceIte, R.pure_eq, R.ok.injEq] at f10
  exact f10.symm

theorem msg1Gen_hash {cfg : ECfg} {C : ECrypto} {c : ICtx} {m1 h1 : Bytes} {suite : Suite}
    (h : msg1Gen cfg C c = .ok (m1, suite, h1)) : h1 = C.hash m1 := by
  unfold msg1Gen at h
  obtain ⟨_, _, h⟩ := R.bind_eq_ok.1 h
  obtain ⟨_, _, h⟩ := R.bind_eq_ok.1 h
  obtain ⟨_, _, h⟩ := R.bind_eq_ok.1 h
  obtain ⟨_, _, h⟩ := R.bind_eq_ok.1 h
  simp only [R.pure_eq, R.ok.injEq, Prod.mk.injEq] at h
  rw [← h.2.2, h.1]; rfl

/-- equal TH_2: equal message_1 and G_Y -/
theorem th2_same {C : ECrypto} (hC : C.Lawful) {m m' gY gY' t : Bytes} (h : th2Calc C (C.hash m) gY = .ok t)
    (h' : th2Calc C (C.hash m') gY' = .ok t) :
    (HashClash C m m' ∨ HashClash C (th2In gY (C.hash m)) (th2In gY' (C.hash m'))) ∨ (m = m' ∧ gY = gY') := by
  have l := th2_gY_len h
  have l' := th2_gY_len h'
  rcases C47_th2_binds h h' (by omega) (by omega)
    (by rw [hC.base.hash_len]; omega) (by rw [hC.base.hash_len]; omega) with ⟨eg, eh⟩ | h
  · by_cases hm : m = m'
    · exact .inr ⟨hm, eg⟩
    · exact .inl (.inl ⟨hm, eh⟩)
  · exact .inl (.inr h)

/-- the inputs of an initiator's session -/
theorem initView_of {cfg : ECfg} {C : ECrypto} (hC : C.Lawful) {c : ICtx} {creds : List Cred} {suite : Suite} {m1 hm1 m2 crBuf : Bytes}
    {st : IState} (h1 : msg1Gen cfg C c = .ok (m1, suite, hm1))
    (h2 : msg2Process cfg C c creds suite hm1 m2 (authType c.method (false, false)).1 (authType c.method (false, false)).2 crBuf
      (List.replicate cfg.eadSize 0) = .ok st) :
    ∃ v c2, initView cfg C c creds crBuf m2 = .ok v ∧ v.m1 = m1 ∧ v.suite = suite ∧ v.cR = st.cR ∧
      msg2Parse cfg m2 (ctxt2Len m2.length) = .ok (v.gY, c2) ∧ th2Calc C (C.hash m1) v.gY = .ok v.th2 ∧
      plaintext2Split cfg v.p2 crBuf.length cfg.idCredRSize cfg.eadSize = .ok (v.cR, v.sp) ∧
      th34Calc cfg C v.th2 v.p2 v.credR = .ok st.th3 ∧ st.prk3e2m.length = 32 ∧
      ((authType c.method (false, false)).1 = false → st.prk4e3m = st.prk3e2m) := by
  obtain ⟨gY, c2, gxy, th2, ptxt, sp, cred, pk, g, f1, f2, f3, f4, f5, f6, f7, f8, f9⟩ := msg2Process_th3 hC h2
  rw [List.length_replicate] at f5
  rw [msg1Gen_hash h1] at f3
  exact ⟨_, c2, initView_eq h1 f1 f2 f3 f4 f5 f6, rfl, rfl, rfl, f1, f3, f5, f7, f8, f9⟩

/-! ### C75 -/

/-- the core of C75 for an initiator: all it needs is that message_2 was accepted -/
theorem init_partner {cfg : ECfg} {C : ECrypto} (hC : C.Lawful) (hs : cfg.Small) {c : ICtx} {creds : List Cred}
    {crBuf m1 h1 m2 : Bytes} {suite : Suite} {st : IState} (e1 : msg1Gen cfg C c = .ok (m1, suite, h1))
    (e2 : msg2Process cfg C c creds suite h1 m2 (authType c.method (false, false)).1 (authType c.method (false, false)).2 crBuf
      (List.replicate cfg.eadSize 0) = .ok st) (hm : c.method = 0 ∨ c.method = 2) :
    ∃ v u msg, initView cfg C c creds crBuf m2 = .ok v ∧ v.m1 = m1 ∧ v.cR = st.cR ∧ v.sp.ead = st.ead ∧
      v.checked cfg C crBuf = .ok u ∧
      v.verified cfg C crBuf = .ok msg ∧ C.verify v.suite.sign v.pkR msg v.sp.sigOrMac = some true ∧
      ∀ S : Session → Prop, NotForged C v.suite.sign v.pkR msg v.sp.sigOrMac S → (∀ s, S s → s.cfg.Small) →
        Clashes C u S ∨
        ∃ cfgR cr cICap p suiteR, S (.resp cfgR cr cICap v.m1) ∧ cr.gY = v.gY ∧ cr.cR = v.cR ∧ cr.idCredR = v.sp.idCred ∧
          cr.credR ++ cr.ead2 = v.credR ++ v.sp.ead ∧
          msg1Parse cfgR v.m1 cICap (List.replicate cfgR.eadSize 0) = .ok p ∧
          getSuite (p.suites.getLastD 0).toNat = .ok suiteR ∧ sharedSecret C suiteR.ecdh cr.y p.gX = .ok v.gxy := by
  have hsr : (authType c.method (false, false)).2 = false := by
    rcases hm with hm | hm <;> rw [hm] <;> rfl
  rw [hsr] at e2
  obtain ⟨gY, c2, gxy, th2, ptxt, sp, cred, pk, g, mac2, s, f1, f2, f3, f4, f5, f6, k1, k2, k3, ke⟩ := msg2Process_signed e2
  rw [List.length_replicate] at f5
  have k1' := k1
  unfold mac at k1'
  obtain ⟨ctx, kc, -⟩ := R.bind_eq_ok.1 k1'
  rw [msg1Gen_hash e1] at f3
  refine ⟨⟨m1, suite, gY, gxy, th2, ptxt, st.cR, sp, cred, pk⟩,
    ⟨[m1, th2In gY (C.hash m1)], [(hkdfExtract C.toCrypto th2 gxy, kdfIn 2 ctx 32), (th2, gxy)]⟩, s,
    initView_eq e1 f1 f2 f3 f4 f5 (by rw [hsr]; exact f6), rfl, rfl, ke.symm, ?_, ?_, k3, ?_⟩
  · unfold IView.checked
    dsimp only
    rw [kc, R.ok_bind]
    rfl
  · unfold IView.verified
    dsimp only
    rw [k1, R.ok_bind, k2]
  intro S hS hsm
  obtain ⟨w, hw, hsig⟩ := hS k3
  have hws := hsm w hw
  cases w with
  | resp cfgR cr cICap m1r =>
    obtain ⟨p, suiteR, th2', gxy', mac2', d1, d2, d3, d4, d5, d6, d7⟩ := signed_resp hsig
    obtain ⟨ctx0, ctx', x1, x2, hx⟩ := signed_binds (cfg' := cfgR) hC hs hws k1 d6 k2 d7 (by decide) (by decide)
    rw [kc] at x1
    cases x1
    have inp : Session.inputs C (.resp cfgR cr cICap m1r) = .ok ⟨[m1r, th2In cr.gY (C.hash m1r)],
        [(hkdfExtract C.toCrypto th2' gxy', kdfIn 2 ctx' 32), (th2', gxy')]⟩ := by
      unfold Session.inputs
      dsimp only
      rw [d1, R.ok_bind, d2, R.ok_bind, d4, R.ok_bind, d5, R.ok_bind, x2, R.ok_bind]
      rfl
    rcases hx with e | ⟨a1, -, a3, a4, a5, a6⟩
    · exact .inl ⟨_, _, hw, inp, .inr ⟨_, List.mem_cons_self, e⟩⟩
    have l2 := th2_length hC f3
    subst a3
    by_cases hg : gxy = gxy'
    case neg =>
      unfold hkdfExtract at a1
      rw [if_neg (by omega)] at a1
      exact .inl ⟨_, _, hw, inp, .inr ⟨((th2, gxy), (th2, gxy')), List.mem_cons_of_mem _ List.mem_cons_self,
        fun e => hg (Prod.mk.inj e).2, a1⟩⟩
    subst hg
    rcases th2_same hC f3 d4 with (e | e) | ⟨rfl, rfl⟩
    · exact .inl ⟨_, _, hw, inp, .inl ⟨(m1, m1r), List.mem_cons_self, e⟩⟩
    · exact .inl ⟨_, _, hw, inp, .inl ⟨(_, _), List.mem_cons_of_mem _ List.mem_cons_self, e⟩⟩
    exact .inr ⟨cfgR, cr, cICap, p, suiteR, hw, rfl, a6.symm, a4.symm, a5.symm, d1, d2, d5⟩
  | init cfgI ci credsI crB m2' =>
    obtain ⟨m1', suite', h1', st', mac3, d1, d2, d3, d4, d5⟩ := signed_init hsig
    obtain ⟨v, c2', v1, v2, -, -, -, -, -, -, -, -⟩ := initView_of hC d1 d2
    obtain ⟨ctx0, ctx', x1, x2, hx⟩ := signed_binds (cfg' := cfgI) hC hs hws k1 d4 k2 d5 (by decide) (by decide)
    rw [kc] at x1
    cases x1
    rcases hx with e | ⟨-, a2, -⟩
    · refine .inl ⟨_, ⟨[v.m1, th2In v.gY (C.hash v.m1), thIn v.th2 v.p2 v.credR], [(st'.prk4e3m, kdfIn 6 ctx' 32)]⟩, hw, ?_,
        .inr ⟨_, List.mem_cons_self, e⟩⟩
      unfold Session.inputs
      dsimp only
      rw [v1, R.ok_bind, initResult_eq d1 d2, R.ok_bind]
      dsimp only
      rw [x2, R.ok_bind]
      rfl
    · exact absurd a2 (by decide)

/-- C75, initiator: if `edhoc_initiator_run` returns ok and the responder authenticates by a signature
(methods 0 and 2), and the received signature is not a forgery under the key of the credential found for the received
ID_CRED_R (it was made in a session of the API), then one of these sessions is a responder that received exactly the message_1 this initiator sent, used the G_Y, C_R and
ID_CRED_R this initiator received and CRED_R, EAD_2 as this initiator has them, and computed the same G_XY; unless a
collision was found between the inputs of the hash or of the HMAC of this run and those of the session. -/
theorem C75_initiator {cfg : ECfg} {C : ECrypto} (hC : C.Lawful) (hs : cfg.Small) {c : ICtx} {creds : List Cred}
    {crBuf : Bytes} {L : Nat} {n n' : Net} {o : IOut} (h : initiatorRun cfg C c creds crBuf L n = (.ok o, n'))
    (hm : c.method = 0 ∨ c.method = 2) :
    ∃ m2 v u msg, n.rxq.head? = some (.inr m2) ∧ initView cfg C c creds crBuf m2 = .ok v ∧
      (∃ later, n'.sent = n.sent ++ v.m1 :: later) ∧ o.cR = v.cR ∧ v.checked cfg C crBuf = .ok u ∧
      v.verified cfg C crBuf = .ok msg ∧
      ∀ S : Session → Prop, NotForged C v.suite.sign v.pkR msg v.sp.sigOrMac S → (∀ s, S s → s.cfg.Small) →
        Clashes C u S ∨
        ∃ cfgR cr cICap p suiteR, S (.resp cfgR cr cICap v.m1) ∧ cr.gY = v.gY ∧ cr.cR = o.cR ∧ cr.idCredR = v.sp.idCred ∧
          cr.credR ++ cr.ead2 = v.credR ++ v.sp.ead ∧
          msg1Parse cfgR v.m1 cICap (List.replicate cfgR.eadSize 0) = .ok p ∧
          getSuite (p.suites.getLastD 0).toNat = .ok suiteR ∧ sharedSecret C suiteR.ecdh cr.y p.gX = .ok v.gxy := by
  obtain ⟨m1', suite', h1', e1', hse⟩ := initiator_first h
  obtain ⟨m1, suite, h1, m2, q, st, m3, e1, hq, e2, e3, rfl, hle⟩ := initiatorRun_ok h
  rw [e1] at e1'
  simp only [R.ok.injEq, Prod.mk.injEq] at e1'
  obtain ⟨rfl, rfl, rfl⟩ := e1'
  obtain ⟨v, u, msg, x1, x2, x3, -, x4, x5, -, x6⟩ := init_partner hC hs e1 e2 hm
  refine ⟨m2, v, u, msg, by rw [hq]; rfl, x1, by rw [x2]; exact hse, x3.symm, x4, x5, ?_⟩
  simp only [x3] at x6
  exact x6

/-- what a responder that processed message_1 and message_3 computed, when the initiator signs -/
theorem resp_signed {cfg : ECfg} {C : ECrypto} (hC : C.Lawful) {c : RCtx} {creds : List Cred} {cICap L : Nat}
    {m1 m2 m3 : Bytes} {rs : RState} {r3 : R3Out} (e1 : msg2Gen cfg C c m1 cICap (List.replicate cfg.eadSize 0) = .ok (m2, rs))
    (e2 : msg3Process cfg C c creds rs m3 L = .ok r3) :
    ∃ p suite gxy th2 c2 p2 th3 prk3e2m ct ptxt,
      respView cfg C c cICap m1 = .ok ⟨p, suite, th2, gxy, p2⟩ ∧ rs.th3 = th3 ∧ rs.prk3e2m = prk3e2m ∧ rs.suite = suite ∧
      rs.staticDhI = (authType p.method (false, false)).1 ∧ decodeBstr cfg m3 m3.length = .ok ct ∧
      ctxtDecrypt cfg C .c3 rs.suite rs.prk3e2m rs.th3 ct = .ok ptxt ∧
      msg1Parse cfg m1 cICap (List.replicate cfg.eadSize 0) = .ok p ∧ getSuite (p.suites.getLastD 0).toNat = .ok suite ∧
      th2Calc C (C.hash m1) c.gY = .ok th2 ∧
      (∃ sm prk cap buf, ciphertextGen cfg C .c2 suite c.cR c.idCredR sm c.ead2 prk th2 buf cap = .ok (c2, p2)) ∧
      th34Calc cfg C th2 p2 c.credR = .ok th3 ∧ prk3e2m.length = 32 ∧
      ((authType p.method (false, false)).1 = false → ∃ sp cred g mac3 s,
        plaintext3Split cfg ptxt cfg.idCredISize p.ead.length = .ok sp ∧
        retrieveCred cfg C false creds sp.idCred cfg.credISize = .ok (cred, r3.pk, g) ∧ r3.ead = sp.ead ∧
        mac cfg C prk3e2m [] [] th3 sp.idCred cred sp.ead 6 false suite = .ok mac3 ∧
        sigStruct cfg th3 sp.idCred cred sp.ead mac3 = .ok s ∧ C.verify suite.sign r3.pk s sp.sigOrMac = some true) := by
  unfold msg2Gen at e1
  obtain ⟨p, f1, e1⟩ := R.bind_eq_ok.1 e1
  split at e1
  · cases e1
  unfold msg2Build at e1
  obtain ⟨suite, f2, e1⟩ := R.bind_eq_ok.1 e1
  simp only at e1
  obtain ⟨th2, f3, e1⟩ := R.bind_eq_ok.1 e1
  obtain ⟨gxy, f4, e1⟩ := R.bind_eq_ok.1 e1
  obtain ⟨prk3, f5, e1⟩ := R.bind_eq_ok.1 e1
  obtain ⟨⟨c2, p2⟩, f6, e1⟩ := R.bind_eq_ok.1 e1
  simp only at e1
  obtain ⟨msg2, f7, e1⟩ := R.bind_eq_ok.1 e1
  obtain ⟨th3, f8, e1⟩ := R.bind_eq_ok.1 e1
  simp only [R.pure_eq, R.ok.injEq, Prod.mk.injEq] at e1
  obtain ⟨-, rfl⟩ := e1
  have l3 := prkDerive_length hC (hC.base.hmac_len _ _) f5
  have f6' := f6
  unfold ctxt2Gen at f6
  obtain ⟨sm, _, f6⟩ := R.bind_eq_ok.1 f6
  obtain ⟨_, _, f6⟩ := R.bind_eq_ok.1 f6
  unfold msg3Process at e2
  obtain ⟨_, _, e2⟩ := R.bind_eq_ok.1 e2
  obtain ⟨c3, g1, e2⟩ := R.bind_eq_ok.1 e2
  obtain ⟨_, _, e2⟩ := R.bind_eq_ok.1 e2
  obtain ⟨p3, g2, e2⟩ := R.bind_eq_ok.1 e2
  obtain ⟨sp, g3, e2⟩ := R.bind_eq_ok.1 e2
  refine ⟨p, suite, gxy, th2, c2, p2, th3, prk3, c3, p3, respView_eq f1 f2 f3 f4 f5 f6', rfl, rfl, rfl, rfl, g1, g2, f1, f2, f3, ⟨_, _, _, _, f6⟩, f8, l3, ?_⟩
  intro hsI
  unfold msg3Auth at e2
  rw [show (RState.mk suite (authType p.method (false, false)).1 p.ead prk3 th3 p.cI).staticDhI = false from hsI] at e2
  obtain ⟨⟨credI, pk, gI⟩, g4, e2⟩ := R.bind_eq_ok.1 e2
  simp only at e2
  obtain ⟨prk4, g5, e2⟩ := R.bind_eq_ok.1 e2
  obtain ⟨_, g6, e2⟩ := R.bind_eq_ok.1 e2
  obtain ⟨th4, g7, e2⟩ := R.bind_eq_ok.1 e2
  obtain ⟨prk, g8, hr⟩ := R.bind_eq_ok.1 e2
  simp only [R.pure_eq, R.ok.injEq] at hr
  have : prk4 = prk3 := by
    unfold prkDerive at g5
    simp only [Bool.false_eq_true, ↓reduceIte, R.pure_eq, R.ok.injEq] at g5
    exact g5.symm
  subst this
  obtain ⟨m, s, k1, k2, k3⟩ := verify_sig_full g6
  rw [← hr]
  exact ⟨sp, credI, gI, m, s, g3, g4, rfl, k1, k2, k3⟩

/-- the core of C75 for a responder: all it needs is that message_1 and message_3 were accepted -/
theorem resp_partner {cfg : ECfg} {C : ECrypto} (hC : C.Lawful) (hs : cfg.Small) {c : RCtx} {creds : List Cred} {cICap L : Nat}
    {m1 m2 m3 : Bytes} {rs : RState} {r3 : R3Out} (e1 : msg2Gen cfg C c m1 cICap (List.replicate cfg.eadSize 0) = .ok (m2, rs))
    (e2 : msg3Process cfg C c creds rs m3 L = .ok r3) :
    ∃ w ct ptxt, respView cfg C c cICap m1 = .ok w ∧ rs.staticDhI = (authType w.p.method (false, false)).1 ∧
      decodeBstr cfg m3 m3.length = .ok ct ∧
      ctxtDecrypt cfg C .c3 rs.suite rs.prk3e2m rs.th3 ct = .ok ptxt ∧
      ((authType w.p.method (false, false)).1 = false → ∃ sp cred g u msg,
        plaintext3Split cfg ptxt cfg.idCredISize w.p.ead.length = .ok sp ∧
        retrieveCred cfg C false creds sp.idCred cfg.credISize = .ok (cred, r3.pk, g) ∧ sp.ead = r3.ead ∧
        respChecked cfg C c m1 w rs sp cred = .ok u ∧ respVerified cfg C w rs sp cred = .ok msg ∧
        C.verify w.suite.sign r3.pk msg sp.sigOrMac = some true ∧
        ∀ S : Session → Prop, NotForged C w.suite.sign r3.pk msg sp.sigOrMac S → (∀ s, S s → s.cfg.Small) →
          Clashes C u S ∨
          ∃ cfgI ci credsI crBuf m2 suiteI h1 st c2, S (.init cfgI ci credsI crBuf m2) ∧
            msg1Gen cfgI C ci = .ok (m1, suiteI, h1) ∧
            msg2Process cfgI C ci credsI suiteI h1 m2 (authType ci.method (false, false)).1
              (authType ci.method (false, false)).2 crBuf (List.replicate cfgI.eadSize 0) = .ok st ∧
            msg2Parse cfgI m2 (ctxt2Len m2.length) = .ok (c.gY, c2) ∧
            ci.idCredI = sp.idCred ∧ ci.credI ++ ci.ead3 = cred ++ sp.ead ∧
            (∀ wR, IdWire c.idCredR wR → c.cR.length ≤ crBuf.length → c.cR.length < 2 ^ 32 → st.cR = c.cR)) := by
  obtain ⟨p, suite, gxy, th2, c2, p2, th3, prk3, ct, ptxt, hv, rt, rp, rs', g1, g2, g3, f1, f2, f3, f4, f5, l3, hx⟩ :=
    resp_signed hC e1 e2
  refine ⟨_, ct, ptxt, hv, g1, g2, g3, fun hsI => ?_⟩
  obtain ⟨sp, cred, g, mac3, s, k0, k1, ke, k2, k3, k4⟩ := hx hsI
  have k2' := k2
  unfold mac at k2'
  obtain ⟨ctx, kc, -⟩ := R.bind_eq_ok.1 k2'
  refine ⟨sp, cred, g, ⟨[m1, th2In c.gY (C.hash m1), thIn th2 p2 c.credR], [(prk3, kdfIn 6 ctx 32)]⟩, s, k0, k1, ke.symm, ?_, ?_, k4, fun S hS hsm => ?_⟩
  · unfold respChecked
    rw [rt, rp, kc, R.ok_bind]
    rfl
  · unfold respVerified
    rw [rt, rp, k2, R.ok_bind, k3]
  obtain ⟨w, hw, hsig⟩ := hS k4
  have hws := hsm w hw
  cases w with
  | resp cfgR cr cICap' m1r =>
    obtain ⟨p', suiteR, th2', gxy', mac2', d1, d2, d3, d4, d5, d6, d7⟩ := signed_resp hsig
    obtain ⟨ctx0, ctx', x1, x2, hx⟩ := signed_binds (cfg' := cfgR) hC hs hws k2 d6 k3 d7 (by decide) (by decide)
    rw [kc] at x1
    cases x1
    rcases hx with e | ⟨-, a2, -⟩
    · refine .inl ⟨_, ⟨[m1r, th2In cr.gY (C.hash m1r)], [(hkdfExtract C.toCrypto th2' gxy', kdfIn 2 ctx' 32), (th2', gxy')]⟩, hw, ?_,
        .inr ⟨_, List.mem_cons_self, e⟩⟩
      unfold Session.inputs
      dsimp only
      rw [d1, R.ok_bind, d2, R.ok_bind, d4, R.ok_bind, d5, R.ok_bind, x2, R.ok_bind]
      rfl
    · exact absurd a2 (by decide)
  | init cfgI ci credsI crB m2' =>
    obtain ⟨m1', suite', h1', st', mac3', d1, d2, d3, d4, d5⟩ := signed_init hsig
    obtain ⟨v, c2', v1, rfl, -, vc, b1, b2, b3, b5, bl, bp⟩ := initView_of hC d1 d2
    obtain ⟨ctx0, ctx', x1, x2, hx⟩ := signed_binds (cfg' := cfgI) hC hs hws k2 d4 k3 d5 (by decide) (by decide)
    rw [kc] at x1
    cases x1
    have inp : Session.inputs C (.init cfgI ci credsI crB m2') = .ok ⟨[v.m1, th2In v.gY (C.hash v.m1), thIn v.th2 v.p2 v.credR],
        [(st'.prk4e3m, kdfIn 6 ctx' 32)]⟩ := by
      unfold Session.inputs
      dsimp only
      rw [v1, R.ok_bind, initResult_eq d1 d2, R.ok_bind]
      dsimp only
      rw [x2, R.ok_bind]
      rfl
    rcases hx with e | ⟨a1, -, a3, a4, a5, -⟩
    · exact .inl ⟨_, _, hw, inp, .inr ⟨_, List.mem_cons_self, e⟩⟩
    rw [← a3] at b5
    rcases C47_th34_binds f5 b5 (by rw [th2_length hC f3]; omega) (by rw [th2_length hC b2]; omega) with ⟨t2, e2, -⟩ | e
    case inr => exact .inl ⟨_, _, hw, inp, .inl ⟨(_, _), List.mem_cons_of_mem _ (List.mem_cons_of_mem _ List.mem_cons_self), e⟩⟩
    rw [← t2] at b2
    rcases th2_same hC f3 b2 with (e | e) | ⟨rfl, hgy⟩
    · exact .inl ⟨_, _, hw, inp, .inl ⟨(m1, v.m1), List.mem_cons_self, e⟩⟩
    · exact .inl ⟨_, _, hw, inp, .inl ⟨(_, _), List.mem_cons_of_mem _ List.mem_cons_self, e⟩⟩
    refine .inr ⟨cfgI, ci, credsI, crB, m2', suite', h1', st', c2', hw, d1, d2, by rw [hgy]; exact b1, a4.symm, a5.symm, ?_⟩
    rw [← vc]
    intro wR hwr hcap hc32
    obtain ⟨sm2, prk2, cap2, buf2, g2⟩ := f4
    have q2 := ptxt2Gen_ok hwr (ctxt_ptxt g2)
    unfold plaintext2Split decPtxt2 at b3
    cases hz : zIntOrBstr cfgI.strictCbor v.p2 with
    | none => rw [hz] at b3; cases b3
    | some t =>
      obtain ⟨cf, r1⟩ := t
      rw [hz] at b3
      simp only at b3
      cases hz' : decPtxt3 cfgI.strictCbor r1 with
      | none => rw [hz'] at b3; cases b3
      | some t =>
        rw [hz'] at b3
        simp only at b3
        obtain ⟨cR0, v0, b3⟩ := R.bind_eq_ok.1 b3
        obtain ⟨sp0, _, b3⟩ := R.bind_eq_ok.1 b3
        simp only [R.pure_eq, R.ok.injEq, Prod.mk.injEq] at b3
        rw [b3.1] at v0
        have hz0 := zIntOrBstr_mono v.credR hz
        rw [← e2, q2] at hz0
        unfold ptxt2Of at hz0
        obtain ⟨fc, v1, v2⟩ := zIntOrBstr_connId cfgI.strictCbor hc32 (wR ++ enc (.bstr sm2) ++ c.ead2 ++ c.credR)
        simp only [List.append_assoc] at hz0 v1
        rw [hz0] at v1
        simp only [Option.some.injEq, Prod.mk.injEq] at v1
        have := v2 crB.length hcap
        rw [← v1.1, v0] at this
        simpa using this

/-- C75, responder: if `edhoc_responder_run` returns ok, the initiator authenticates by a signature (methods 0 and 1 of
the received message_1), and the received signature is not a forgery under the key handed to the caller (it was made in a
session of the API), then one of these sessions is an initiator that sent exactly the message_1 this responder received, received this responder's G_Y, used the
ID_CRED_I this responder received and CRED_I, EAD_3 as this responder has them, and ended message_2 with the same
PRK_3e2m and TH_3, hence with the same plaintext_2 followed by CRED_R; unless a collision was found between
the inputs of the hash or of the HMAC of this run and those of the session. -/
theorem C75_responder {cfg : ECfg} {C : ECrypto} (hC : C.Lawful) (hs : cfg.Small) {c : RCtx} {creds : List Cred}
    {cICap L : Nat} {n n' : Net} {o : ROut} (h : responderRun cfg C c creds cICap L n = (.ok o, n')) :
    ∃ m1 m3 q w m2 rs ct ptxt, n.rxq = .inr m1 :: .inr m3 :: q ∧ respView cfg C c cICap m1 = .ok w ∧
      msg2Gen cfg C c m1 cICap (List.replicate cfg.eadSize 0) = .ok (m2, rs) ∧ decodeBstr cfg m3 m3.length = .ok ct ∧
      ctxtDecrypt cfg C .c3 rs.suite rs.prk3e2m rs.th3 ct = .ok ptxt ∧
      ((authType w.p.method (false, false)).1 = false → ∃ sp cred g u msg,
        plaintext3Split cfg ptxt cfg.idCredISize w.p.ead.length = .ok sp ∧
        retrieveCred cfg C false creds sp.idCred cfg.credISize = .ok (cred, o.pk, g) ∧
        respChecked cfg C c m1 w rs sp cred = .ok u ∧ respVerified cfg C w rs sp cred = .ok msg ∧
        ∀ S : Session → Prop, NotForged C w.suite.sign o.pk msg sp.sigOrMac S → (∀ s, S s → s.cfg.Small) →
          Clashes C u S ∨
          ∃ cfgI ci credsI crBuf m2 suiteI h1 st c2, S (.init cfgI ci credsI crBuf m2) ∧
            msg1Gen cfgI C ci = .ok (m1, suiteI, h1) ∧
            msg2Process cfgI C ci credsI suiteI h1 m2 (authType ci.method (false, false)).1
              (authType ci.method (false, false)).2 crBuf (List.replicate cfgI.eadSize 0) = .ok st ∧
            msg2Parse cfgI m2 (ctxt2Len m2.length) = .ok (c.gY, c2) ∧
            ci.idCredI = sp.idCred ∧ ci.credI ++ ci.ead3 = cred ++ sp.ead ∧
            (∀ wR, IdWire c.idCredR wR → c.cR.length ≤ crBuf.length → c.cR.length < 2 ^ 32 → st.cR = c.cR)) := by
  obtain ⟨m1, m2, rs, m3, q, r3, hq, e1, e2, rfl⟩ := responderRun_ok h
  obtain ⟨w, ct, ptxt, x1, x2, x3, x4, x5⟩ := resp_partner hC hs e1 e2
  refine ⟨m1, m3, q, w, m2, rs, ct, ptxt, hq, x1, e1, x3, x4, fun hI => ?_⟩
  obtain ⟨sp, cred, g, u, msg, y1, y2, -, y3, y4, -, y5⟩ := x5 hI
  exact ⟨sp, cred, g, u, msg, y1, y2, y3, y4, y5⟩

/-! ### what the API signs -/

theorem gen_congr {cfg : ECfg} {C : ECrypto} {f : SignAlg → Bytes → Bytes → Bytes → Option Bytes} {sd : Bool} {suite : Suite}
    {sk pk prk cR mem th id cred ead : Bytes} {label : Nat}
    (h : sd = false → ∀ m s, mac cfg C prk cR mem th id cred ead label false suite = .ok m →
      sigStruct cfg th id cred ead m = .ok s → f suite.sign sk pk s = C.sign suite.sign sk pk s) :
    sigOrMacGen cfg { C with sign := f } sd suite sk pk prk cR mem th id cred ead label =
      sigOrMacGen cfg C sd suite sk pk prk cR mem th id cred ead label := by
  have hm : ∀ sd, mac cfg { C with sign := f } prk cR mem th id cred ead label sd suite =
      mac cfg C prk cR mem th id cred ead label sd suite := fun _ => rfl
  unfold sigOrMacGen
  rw [hm]
  cases sd with
  | true => rfl
  | false =>
    cases h1 : mac cfg C prk cR mem th id cred ead label false suite with
    | err e => rfl
    | ub => rfl
    | ok m =>
      simp only [R.ok_bind, Bool.false_eq_true, ↓reduceIte]
      cases h2 : sigStruct cfg th id cred ead m with
      | err e => rfl
      | ub => rfl
      | ok s =>
        simp only [R.ok_bind]
        unfold signMsg
        simp only [h rfl m s h1 h2]

/-- a responder's message_2 depends on the signing function only at `Session.signed`: nothing else is signed -/
theorem C75_responder_signs {cfg : ECfg} {C : ECrypto} {c : RCtx} {cICap : Nat} {m1 : Bytes}
    {f : SignAlg → Bytes → Bytes → Bytes → Option Bytes}
    (h : ∀ msg, Session.signed C (.resp cfg c cICap m1) = .ok msg → ∀ alg sk pk, f alg sk pk msg = C.sign alg sk pk msg) :
    msg2Gen cfg { C with sign := f } c m1 cICap (List.replicate cfg.eadSize 0) =
      msg2Gen cfg C c m1 cICap (List.replicate cfg.eadSize 0) := by
  unfold msg2Gen
  cases h1 : msg1Parse cfg m1 cICap (List.replicate cfg.eadSize 0) with
  | err e => rfl
  | ub => rfl
  | ok p =>
    simp only [R.ok_bind]
    split
    · rfl
    rename_i hsup
    unfold msg2Build
    cases h2 : getSuite (p.suites.getLastD 0).toNat with
    | err e => rfl
    | ub => rfl
    | ok suite =>
      simp only [R.ok_bind]
      have e1 : th2Calc { C with sign := f } (hash { C with sign := f } m1) c.gY = th2Calc C (C.hash m1) c.gY := rfl
      have e1' : th2Calc C (hash C m1) c.gY = th2Calc C (C.hash m1) c.gY := rfl
      rw [e1, e1']
      cases h3 : th2Calc C (C.hash m1) c.gY with
      | err e => rfl
      | ub => rfl
      | ok th2 =>
        simp only [R.ok_bind]
        have e2 : sharedSecret { C with sign := f } suite.ecdh c.y p.gX = sharedSecret C suite.ecdh c.y p.gX := rfl
        rw [e2]
        cases h4 : sharedSecret C suite.ecdh c.y p.gX with
        | err e => rfl
        | ub => rfl
        | ok gxy =>
          simp only [R.ok_bind]
          have e3 : ∀ sR prk, prkDerive cfg { C with sign := f } sR suite 1 th2 prk p.gX c.r =
            prkDerive cfg C sR suite 1 th2 prk p.gX c.r := fun _ _ => rfl
          rw [e3]
          cases h5 : prkDerive cfg C (authType p.method (false, false)).2 suite 1 th2 (hkdfExtract C.toCrypto th2 gxy) p.gX c.r with
          | err e => rfl
          | ub => rfl
          | ok prk3 =>
            simp only [R.ok_bind]
            have e4 : ctxt2Gen cfg { C with sign := f } c suite (authType p.method (false, false)).2
                (hkdfExtract C.toCrypto th2 gxy) prk3 th2 =
              ctxt2Gen cfg C c suite (authType p.method (false, false)).2 (hkdfExtract C.toCrypto th2 gxy) prk3 th2 := by
              unfold ctxt2Gen
              rw [gen_congr]
              · rfl
              · intro hsd m s g1 g2
                apply h
                have : prk3 = hkdfExtract C.toCrypto th2 gxy := by
                  unfold prkDerive at h5
                  rw [hsd] at h5
                  simp only [Bool.false_eq_true, ↓reduceIte, R.pure_eq, R.ok.injEq] at h5
                  exact h5.symm
                subst this
                unfold Session.signed
                dsimp only
                rw [h1, R.ok_bind, if_neg hsup, h2, R.ok_bind, hsd, if_neg (by simp), h3, R.ok_bind, h4, R.ok_bind, g1,
                  R.ok_bind, g2]
            rw [e4]
            rfl

/-- an initiator's message_3 and outputs depend on the signing function only at `Session.signed` -/
theorem C75_initiator_signs {cfg : ECfg} {C : ECrypto} {c : ICtx} {creds : List Cred} {crBuf m1 m2 h1 : Bytes} {L : Nat}
    {suite : Suite} {f : SignAlg → Bytes → Bytes → Bytes → Option Bytes} (hg : msg1Gen cfg C c = .ok (m1, suite, h1))
    (h : ∀ msg, Session.signed C (.init cfg c creds crBuf m2) = .ok msg → ∀ alg sk pk, f alg sk pk msg = C.sign alg sk pk msg) :
    msg3Gen cfg { C with sign := f } c creds suite h1 m2 crBuf (List.replicate cfg.eadSize 0) L =
      msg3Gen cfg C c creds suite h1 m2 crBuf (List.replicate cfg.eadSize 0) L := by
  have e1 : ∀ sI sR, msg2Process cfg { C with sign := f } c creds suite h1 m2 sI sR crBuf (List.replicate cfg.eadSize 0) =
      msg2Process cfg C c creds suite h1 m2 sI sR crBuf (List.replicate cfg.eadSize 0) := by
    intro sI sR
    have r1 : ∀ id cap, retrieveCred cfg { C with sign := f } sR creds id cap = retrieveCred cfg C sR creds id cap := by
      have cs : ∀ m l, caSearch { C with sign := f } m l = caSearch C m l := by
        intro m l
        induction l with
        | nil => rfl
        | cons d ds ih => unfold caSearch; rw [ih]
      have cg : ∀ m, caPkGet { C with sign := f } creds m = caPkGet C creds m := by
        intro m; unfold caPkGet; simp only [cs]
      have cv : ∀ x cert cap, verifyCert2cred cfg { C with sign := f } sR creds x cert cap =
          verifyCert2cred cfg C sR creds x cert cap := by
        intro x cert cap
        unfold verifyCert2cred certX509Verify certC509Verify
        simp only [cg]
        rfl
      intro id cap
      unfold retrieveCred
      simp only [cv]
    unfold msg2Process msg2Auth
    simp only [r1]
    rfl
  unfold msg3Gen
  simp only [e1]
  cases h2 : msg2Process cfg C c creds suite h1 m2 (authType c.method (false, false)).1
    (authType c.method (false, false)).2 crBuf (List.replicate cfg.eadSize 0) with
  | err e => rfl
  | ub => rfl
  | ok st =>
    simp only [R.ok_bind]
    have e2 : msg3Build cfg { C with sign := f } c suite (authType c.method (false, false)).1 st m2.length =
        msg3Build cfg C c suite (authType c.method (false, false)).1 st m2.length := by
      unfold msg3Build
      rw [gen_congr]
      · rfl
      · intro hsd m s g1 g2
        apply h
        unfold Session.signed
        dsimp only
        rw [hg, R.ok_bind]
        dsimp only
        rw [h2, R.ok_bind, hsd, if_neg (by simp), g1, R.ok_bind, g2]
    have e3 : msg3OnlyGen cfg { C with sign := f } c suite (authType c.method (false, false)).1 st m2 L =
        msg3OnlyGen cfg C c suite (authType c.method (false, false)).1 st m2 L := by
      unfold msg3OnlyGen
      rw [e2]
      rfl
    rw [e3]

/-! ### the hypotheses can be met -/

/-- message_1 and message_2 of the example parties, method 0 -/
def exP1 : Bytes := match msg1Gen {} toyE (toyI 0) with | .ok (m, _) => m | _ => []
def exP2 : Bytes := match msg2Gen {} toyE toyR exP1 10 [] with | .ok (m, _) => m | _ => []
def exP3 : Bytes :=
  match initiatorRun {} toyE (toyI 0) toyCredsR (List.replicate 10 0) 32 (netOf [exP2]) with | (_, n) => n.sent.getLastD []

/-- the two sessions of the example -/
def exSR : Session := .resp {} toyR 10 exP1
def exSI : Session := .init {} (toyI 0) toyCredsR (List.replicate 10 0) exP2

/-- the toy primitives with signatures that nobody can forge: under the responder's (initiator's) key just the string
verifies which its session signed -/
def idealE : ECrypto :=
  { toyE with
    verify := fun _ pk m s =>
      some (decide (s = toyBytes 64 (toyH (pk ++ [4] ++ m))) &&
        (decide (pk = toyR.pkR ∧ exSR.signed toyE = .ok m) || decide (pk = (toyI 0).pkI ∧ exSI.signed toyE = .ok m))) }

theorem idealE_lawful : idealE.Lawful := ⟨toyE_lawful.base, toyE_lawful.dh_len, toyE_lawful.sign_len⟩

theorem idealE_sessions : exSR.signed idealE = exSR.signed toyE ∧ exSI.signed idealE = exSI.signed toyE := by
  constructor
  · rfl
  · decide +kernel

theorem idealE_notForged (alg : SignAlg) (m s : Bytes) :
    NotForged idealE alg toyR.pkR m s (· = exSR) ∧ NotForged idealE alg (toyI 0).pkI m s (· = exSI) := by
  have ne : toyR.pkR ≠ (toyI 0).pkI := by decide
  constructor
  · intro h
    simp only [idealE, Option.some.injEq, Bool.and_eq_true, Bool.or_eq_true, decide_eq_true_eq] at h
    rcases h.2 with ⟨-, h2⟩ | ⟨h1, -⟩
    · exact ⟨_, rfl, idealE_sessions.1.trans h2⟩
    · exact absurd h1 ne
  · intro h
    simp only [idealE, Option.some.injEq, Bool.and_eq_true, Bool.or_eq_true, decide_eq_true_eq] at h
    rcases h.2 with ⟨h1, -⟩ | ⟨-, h2⟩
    · exact absurd h1.symm ne
    · exact ⟨_, rfl, idealE_sessions.2.trans h2⟩

/-- both runs succeed, method 0, and their partners are the two sessions -/
example : (∃ o n, initiatorRun {} idealE (toyI 0) toyCredsR (List.replicate 10 0) 32 (netOf [exP2]) = (.ok o, n)) ∧
    (∃ o n, responderRun {} idealE toyR toyCredsI 10 32 (netOf [exP1, exP3]) = (.ok o, n)) ∧
    exSR.signed idealE ≠ exSI.signed idealE ∧ (∃ m, exSR.signed idealE = .ok m) ∧ (∃ m, exSI.signed idealE = .ok m) ∧
    ECfg.Small {} := by
  have ok : ∀ {α : Type} (x : R α × Net), (match x.1 with | .ok _ => true | _ => false) = true → ∃ o n, x = (.ok o, n) := by
    rintro α ⟨r, n⟩ h
    cases r with
    | ok o => exact ⟨o, n, rfl⟩
    | err e => cases h
    | ub => cases h
  have ok' : ∀ {α : Type} (x : R α), (match x with | .ok _ => true | _ => false) = true → ∃ o, x = .ok o := by
    rintro α r h
    cases r with
    | ok o => exact ⟨o, rfl⟩
    | err e => cases h
    | ub => cases h
  refine ⟨ok _ (by decide +kernel), ok _ (by decide +kernel), by decide +kernel, ok' _ (by decide +kernel), ok' _ (by decide +kernel),
    by unfold ECfg.Small; decide +kernel⟩

/-- and none of them found a collision -/
example : ∃ v u, initView {} idealE (toyI 0) toyCredsR (List.replicate 10 0) exP2 = .ok v ∧ v.checked {} idealE (List.replicate 10 0) = .ok u ∧
    (∀ msg, NotForged idealE v.suite.sign v.pkR msg v.sp.sigOrMac (· = exSR)) ∧ ¬ Clashes idealE u (· = exSR) := by
  have key : ∀ (x : R IView) (f : IView → R Inputs) (z : R Inputs), (match x with
      | .ok v => match f v, z with | .ok u, .ok w => !clashB idealE u w && decide (v.pkR = toyR.pkR) | _, _ => false
      | _ => false) = true → ∃ v u w, x = .ok v ∧ f v = .ok u ∧ z = .ok w ∧ ¬ Clash idealE u w ∧ v.pkR = toyR.pkR := by
    intro x f z h
    cases x with
    | ok v =>
      dsimp only at h
      cases hf : f v with
      | ok u =>
        rw [hf] at h
        cases z with
        | ok w =>
          dsimp only at h
          simp only [Bool.and_eq_true, Bool.not_eq_true', decide_eq_true_eq] at h
          exact ⟨v, u, w, rfl, hf, rfl, (fun hc => absurd h.1 (by rw [clashB_iff.2 hc]; decide)), h.2⟩
        | err e => cases h
        | ub => cases h
      | err e => rw [hf] at h; cases h
      | ub => rw [hf] at h; cases h
    | err e => cases h
    | ub => cases h
  obtain ⟨v, u, w, h1, h2, h3, h4, h5⟩ := key (initView {} idealE (toyI 0) toyCredsR (List.replicate 10 0) exP2)
    (IView.checked {} idealE (List.replicate 10 0)) (exSR.inputs idealE) (by decide +kernel)
  refine ⟨v, u, h1, h2, by rw [h5]; exact fun msg => (idealE_notForged _ msg _).1, ?_⟩
  rintro ⟨s, w', rfl, e, hc⟩
  rw [h3] at e
  cases e
  exact h4 hc

end Verif.Edhoc
