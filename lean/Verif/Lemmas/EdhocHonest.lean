import Verif.Props.EdhocAbort
/-
Forward computation of an honest run.
-/
namespace Verif.Edhoc
open Verif Cbor

/-- the two sides' keys of one party's authentication match: with signatures, what `sk`/`pk` sign verifies with
`pk'` -/
def SigOk (C : ECrypto) (sd : Bool) (suite : Suite) (sk pk pk' : Bytes) : Prop :=
  sd = false → (32 ≤ sk.length ∧ 32 ≤ pk.length ∧ 32 ≤ pk'.length) ∧ ∀ m, ∃ s,
     C.sign suite.sign sk pk m = some s ∧ C.verify suite.sign pk' m s = some true

/-- length of Signature_or_MAC -/
def smLen (sd : Bool) (suite : Suite) : Nat := if sd then suite.macLen else 64
/-- its length as a byte string -/
def smWire (sd : Bool) (suite : Suite) : Nat := if sd then suite.macLen + 1 else 66

theorem smLen_le {sd : Bool} {suite : Suite} (h : suite.macLen ≤ 16) : smLen sd suite ≤ 64 := by
  unfold smLen; split <;> omega

theorem smWire_eq {sd : Bool} {suite : Suite} {sm : Bytes} (h : suite.macLen ≤ 16) (hl : sm.length = smLen sd suite) :
    (enc (.bstr sm)).length = smWire sd suite := by
  rw [enc, List.length_append, head_length, hl]
  unfold smLen smWire
  cases sd
  · simp
  · simp only [↓reduceIte]; rw [if_pos (by omega)]; omega

theorem smWire_le {sd : Bool} {suite : Suite} (h : suite.macLen ≤ 16) : smWire sd suite ≤ asBstr (smLen sd suite) := by
  unfold smLen smWire
  cases sd
  · show 66 ≤ asBstr 64; decide
  · simp only [↓reduceIte]; have := le_asBstr suite.macLen; omega

theorem sigOrMac_pair {cfg cfg' : ECfg} {C : ECrypto} (hC : C.Lawful) {sd : Bool} {suite : Suite}
    {sk pk pk' prk cR mem mem' th idCred cred : Bytes} {label : Nat} (hs : SigOk C sd suite sk pk pk')
    (hf : Fits cfg idCred cred []) (hf' : Fits cfg' idCred cred [])
    (h1 : cR.length ≤ cfg.cRSize) (h1' : cR.length ≤ cfg'.cRSize)
    (hm : CrMemOk cR mem) (hm' : CrMemOk cR mem')
    (hth : th.length = 32) (hsu : suite.macLen ≤ 16) (hl : label < 24) :
    ∃ sm, sigOrMacGen cfg C sd suite sk pk prk cR mem th idCred cred [] label = .ok sm ∧
      sm.length = smLen sd suite ∧
      sigOrMacVerify cfg' C sd suite pk' prk cR mem' th idCred cred [] label sm = .ok () := by
  have e1 := mac_total hC (prk := prk) (label := label) (sd := sd) hf h1 hm hth hsu hl
  have e2 := mac_total hC (prk := prk) (label := label) (sd := sd) hf' h1' hm' hth hsu hl
  have el := macVal_length hC (prk := prk) (cR := cR) (idCred := idCred) (th := th) (cred := cred) (ead := []) (label := label)
    (sd := sd) (suite := suite)
  unfold sigOrMacGen sigOrMacVerify
  simp only [e1, e2, R.ok_bind]
  generalize macVal C prk label cR idCred th cred [] sd suite = mv at *
  cases sd with
  | true =>
    refine ⟨mv, rfl, by rw [el]; rfl, ?_⟩
    simp only [↓reduceIte]
    unfold macCompare
    rw [if_pos (Nat.le_refl _), List.take_length, if_pos rfl]
    rfl
  | false =>
    obtain ⟨hp, hs⟩ := hs rfl
    have hmv : mv.length = 32 := el
    obtain ⟨s, g1, g2⟩ := hs (EdhocSpec.sigStructure idCred th cred [] mv)
    have hsl := hC.sign_len _ _ _ _ _ g1
    refine ⟨s, ?_, hsl, ?_⟩
    · simp only [Bool.false_eq_true, ↓reduceIte]
      rw [sigStruct_total hf hth hmv, R.ok_bind]
      unfold signMsg
      rw [if_neg (by omega), g1]
    · simp only [Bool.false_eq_true, ↓reduceIte]
      rw [sigStruct_total hf' hth hmv, R.ok_bind]
      unfold verifySig
      rw [if_neg (by omega), g2]
      rfl

theorem keyGen2_total {cfg : ECfg} {C : ECrypto} (hC : C.Lawful) (prk : Bytes) {th : Bytes} {len : Nat} (hth : th.length = 32)
    (h1 : len ≤ cfg.plaintext2Size) (h2 : len ≤ 255 * 32) :
    keyGen cfg C .c2 prk th len = .ok (EdhocSpec.kdf C.hmac prk 0 th len, []) := by
  unfold keyGen
  rw [if_pos rfl, checkOk h1, R.ok_bind, kdf_total hC prk (by decide) h2 (infoRoom cfg (by rw [hth, asBstr_32]; omega)) (by omega),
    R.ok_bind]
  rfl

theorem keyGen34_total {cfg : ECfg} {C : ECrypto} (hC : C.Lawful) {ct : Ctxt} (hct : ct ≠ .c2) (prk : Bytes) {th : Bytes}
    {len : Nat} (hth : th.length = 32) :
    keyGen cfg C ct prk th len = .ok (EdhocSpec.kdf C.hmac prk (keyLabel ct) th 16, EdhocSpec.kdf C.hmac prk (ivLabel ct) th 13) := by
  unfold keyGen
  have hr : asBstr th.length + 4 ≤ cfg.infoMaxSize := infoRoom cfg (by rw [hth, asBstr_32]; omega)
  rw [if_neg hct, kdf_total hC prk (by cases ct <;> decide) (by omega) hr (by omega),
    R.ok_bind, kdf_total hC prk (by cases ct <;> decide) (by omega) hr (by omega), R.ok_bind]
  rfl

/-- encryption with this suite never fails, for keys and nonces of the right size and plaintexts of less than
64 KiB (as with AES-CCM: `realE_aeadOk`) -/
def AeadOk (C : ECrypto) (suite : Suite) : Prop :=
  ∀ k iv a p, k.length = 16 → iv.length = 13 → a.length < 0xff00 → p.length < 65536 → ∃ c, C.aeadEnc k iv a suite.aead.tagLen p = some c

theorem encStructure_small {th : Bytes} (h : th.length = 32) : (EdhocSpec.encStructure th).length < 0xff00 := by
  have e : "Encrypt0".toUTF8.toList.length = 8 := by decide +kernel
  simp only [EdhocSpec.encStructure, enc, encList, List.length_append, head_length, h, e, List.length_cons, List.length_nil]
  decide

theorem ctxt34_total {cfg : ECfg} {C : ECrypto} (hC : C.Lawful) {ct : Ctxt} (hct : ct ≠ .c2) {suite : Suite} (ha : AeadOk C suite)
    {cR id sm ead prk th p : Bytes} {buf cap : Nat} (hth : th.length = 32)
    (hp : plaintextGen cfg ct cR id sm ead cap = .ok p) (hb : p.length + suite.aead.tagLen ≤ buf)
    (hps : p.length < 65536) :
    ∃ c, ciphertextGen cfg C ct suite cR id sm ead prk th buf cap = .ok (c, p) := by
  obtain ⟨c, hc⟩ := ha (EdhocSpec.kdf C.hmac prk (keyLabel ct) th 16) (EdhocSpec.kdf C.hmac prk (ivLabel ct) th 13)
    (EdhocSpec.encStructure th) p (C37_length hC.base _ _ _) (C37_length hC.base _ _ _) (encStructure_small hth) hps
  refine ⟨c, ?_⟩
  unfold ciphertextGen
  rw [hp, R.ok_bind, keyGen34_total hC hct prk hth, R.ok_bind]
  simp only
  unfold ctxtEncrypt
  rw [if_neg hct, assocData_total hth, R.ok_bind, if_neg (by omega), hc]
  rfl

theorem ctxt34_dec {cfg cfg' : ECfg} {C : ECrypto} (hC : C.Lawful) {ct : Ctxt} (hct : ct ≠ .c2) {suite : Suite}
    {cR id sm ead prk th c p : Bytes} {buf cap : Nat} (hth : th.length = 32)
    (h : ciphertextGen cfg C ct suite cR id sm ead prk th buf cap = .ok (c, p)) :
    c.length = p.length + suite.aead.tagLen ∧ ctxtDecrypt cfg' C ct suite prk th c = .ok p :=
  have := C40_ciphertext_34 hC (cfg' := cfg') hct hth
    ((keyGen34_total hC hct prk hth).trans (keyGen34_total hC hct prk hth).symm) h
  ⟨this.1, this.2.1⟩

theorem ctxt2_total {cfg : ECfg} {C : ECrypto} (hC : C.Lawful) {suite : Suite}
    {cR id sm ead prk th p : Bytes} {buf cap : Nat} (hth : th.length = 32)
    (hp : plaintextGen cfg .c2 cR id sm ead cap = .ok p) (hb : p.length ≤ buf) (h1 : p.length ≤ cfg.plaintext2Size)
    (h2 : p.length ≤ 255 * 32) :
    ciphertextGen cfg C .c2 suite cR id sm ead prk th buf cap =
      .ok (xorBytes p (EdhocSpec.kdf C.hmac prk 0 th p.length), p) := by
  unfold ciphertextGen
  rw [hp, R.ok_bind, keyGen2_total hC prk hth h1 h2, R.ok_bind]
  simp only
  unfold ctxtEncrypt
  rw [if_pos rfl, if_neg (by omega)]
  rfl

theorem ctxt2_dec {cfg : ECfg} {C : ECrypto} (hC : C.Lawful) {suite : Suite} {prk th p : Bytes} (hth : th.length = 32)
    (h1 : p.length ≤ cfg.plaintext2Size) (h2 : p.length ≤ 255 * 32) :
    ctxtDecrypt cfg C .c2 suite prk th (xorBytes p (EdhocSpec.kdf C.hmac prk 0 th p.length)) = .ok p := by
  have hk : (EdhocSpec.kdf C.hmac prk 0 th p.length).length = p.length := C37_length hC.base _ _ _
  unfold ctxtDecrypt
  rw [xor_length hk, keyGen2_total hC prk hth h1 h2, R.ok_bind]
  simp only
  rw [assocData_total hth, R.ok_bind, if_pos trivial, xor_self hk]
  rfl

end Verif.Edhoc
