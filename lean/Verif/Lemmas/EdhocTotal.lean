import Verif.Props.EdhocCred
/-
Forward lemmas: the EDHOC functions succeed with explicit values when everything fits the buffers.
-/
namespace Verif.Edhoc
open Verif Verif.Cbor

/-- the configured buffer sizes are far below 2^32 -/
def ECfg.Small (c : ECfg) : Prop :=
  c.cISize + c.cRSize + c.idCredISize + c.idCredRSize + c.credISize + c.credRSize + c.eadSize < 2 ^ 30

theorem sub32_zero {a : Nat} (h : 0 < a) (h' : a < 2 ^ 32) : sub32 0 a = 2 ^ 32 - a := by
  unfold sub32; omega
theorem sub32_le {a b : Nat} (h : b ≤ a) (h' : a < 2 ^ 32) : sub32 a b = a - b := by
  unfold sub32; omega
theorem sub32_wrap {a b : Nat} (h : a < b) (h' : b < 2 ^ 32) : sub32 a b = a + 2 ^ 32 - b := by
  unfold sub32; omega

theorem append_total {d s : Bytes} {cap : Nat} (h : d.length + s.length ≤ cap) (hc : cap < 2 ^ 32) :
    byteArrayAppend d s cap = .ok (d ++ s) := by
  unfold byteArrayAppend
  rw [if_neg (by rw [Nat.mod_eq_of_lt (by omega)]; omega),
    memcpyS_ok.2 ⟨rfl, by omega⟩]
  rfl

theorem asBstr_mono {a b : Nat} (h : a ≤ b) : asBstr a ≤ asBstr b := by
  unfold asBstr bstrOverhead; repeat' split
  all_goals omega

theorem asBstr_32 : asBstr 32 = 34 := rfl

theorem bstr_32_length {b : Bytes} (h : b.length = 32) : (enc (.bstr b)).length = 34 := by
  rw [enc, List.length_append, head_length, h]; rfl

theorem checkOk {a b : Nat} (h : b ≤ a) : checkBufferSize a b = .ok () := checkBufferSize_ok (u := ()).2 h

theorem hash_length {C : ECrypto} (hC : C.Lawful) (m : Bytes) : (C.hash m).length = 32 := hC.base.hash_len m

theorem th2_total {C : ECrypto} {h1 gY : Bytes} (a : h1.length = 32) (b : gY.length = 32) :
    th2Calc C h1 gY = .ok (C.hash (encList [.bstr gY, .bstr h1])) := by
  unfold th2Calc
  rw [b, checkOk (Nat.le_refl _), R.ok_bind, cborBstr_eq, cborBstr_eq,
    cborOut_ok.2 ⟨rfl, by rw [List.length_append, bstr_32_length a, bstr_32_length b]; decide⟩]
  simp [hash, encList]

theorem th34_total {cfg : ECfg} {C : ECrypto} {th pt cred : Bytes} (h1 : th.length = 32) (h2 : pt ≠ [])
    (h3 : cred ≠ []) (h4 : pt.length + cred.length < 2 ^ 31) (h5 : 34 + pt.length + cred.length ≤ cfg.th34InputSize) :
    th34Calc cfg C th pt cred = .ok (EdhocSpec.thNext C.hash th pt cred) := by
  have hp := List.length_pos_iff.2 h2
  have hc := List.length_pos_iff.2 h3
  unfold th34Calc
  rw [asBstr_32, checkOk h5, R.ok_bind]
  have : th34Input th pt cred (34 + pt.length + cred.length) = .ok (enc (.bstr th) ++ pt ++ cred) := by
    unfold th34Input
    rw [encodeBstr_ok.2 ⟨rfl, by rw [bstr_32_length h1]; omega⟩, R.ok_bind, bstr_32_length h1, Nat.sub_self,
      sub32_zero hc (by omega), memcpyS_ok.2 ⟨rfl, by omega⟩, R.ok_bind,
      sub32_wrap (by omega) (by omega), memcpyS_ok.2 ⟨rfl, by omega⟩, R.ok_bind, if_neg (by omega)]
    rfl
  rw [this]
  rfl

/-- the static-DH secret, if one is used -/
def dhOpt (sd : Bool) (s : Bytes) : Option Bytes := if sd then some s else none

theorem extract_eq (C : Crypto) (salt ikm : Bytes) : hkdfExtract C salt ikm = Hkdf.extract C.hmac salt ikm := by
  unfold hkdfExtract Hkdf.extract
  simp [List.length_eq_zero_iff]

theorem infoRoom (cfg : ECfg) {n : Nat}
    (h : n ≤ asBstr cfg.cRSize + asBstr 32 + cfg.idCredMaxSize + cfg.credMaxSize + cfg.eadSize) :
    asBstr n + 4 ≤ cfg.infoMaxSize := by
  unfold ECfg.infoMaxSize ECfg.contextMacSize
  have := asBstr_mono h
  omega

theorem sharedSecret_total {C : ECrypto} {a : EcdhAlg} {sk pk s : Bytes} (h : C.dh a sk pk = some s)
    (h1 : 32 ≤ sk.length) (h2 : 32 ≤ pk.length) : sharedSecret C a sk pk = .ok s := by
  unfold sharedSecret
  rw [if_neg (by omega), h]

theorem prkDerive_total {cfg : ECfg} {C : ECrypto} (hC : C.Lawful) {sd : Bool} {suite : Suite} {label : Nat}
    {th prk pk sk s : Bytes} (hl : label < 24) (hth : th.length = 32)
    (hdh : sd = true → C.dh suite.ecdh sk pk = some s ∧ 32 ≤ sk.length ∧ 32 ≤ pk.length) :
    prkDerive cfg C sd suite label th prk pk sk = .ok (EdhocSpec.prkNext C.hmac prk label th (dhOpt sd s)) := by
  unfold prkDerive dhOpt
  cases sd with
  | false => rfl
  | true =>
    obtain ⟨h1, h2, h3⟩ := hdh rfl
    simp only [↓reduceIte]
    rw [sharedSecret_total h1 h2 h3, R.ok_bind, kdf_total hC prk hl (by omega) (infoRoom cfg (by
      rw [hth, asBstr_32]; omega)) (by omega), R.ok_bind, extract_eq]
    rfl

/-- C_R in the MAC context: what the code puts there -/
def crMac (cR : Bytes) : Bytes :=
  if cR = [] then [] else if isRawInt cR then cR else enc (.bstr cR)

/-- the memory behind a one-byte C_R up to 0x17 is zero -/
def CrMemOk (cR mem : Bytes) : Prop := isRawInt cR = true → ∃ t, mem = 0 :: 0 :: 0 :: t

theorem crMac_length {cR : Bytes} (h : cR.length < 2 ^ 32) : (crMac cR).length ≤ asBstr cR.length := by
  unfold crMac
  split
  · simp
  · split
    · have := le_asBstr cR.length; omega
    · exact bstr_length_le h

theorem macCr_total {cfg : ECfg} {cR mem : Bytes} (h1 : cR.length ≤ cfg.cRSize) (h2 : cR.length < 2 ^ 32)
    (hm : CrMemOk cR mem) : macCr cfg cR mem = .ok (crMac cR) := by
  unfold macCr crMac
  by_cases h0 : cR = []
  · simp [h0]
  · have hl : cR.length ≠ 0 := fun h => h0 (List.length_eq_zero_iff.1 h)
    rw [if_neg hl, if_neg h0, checkOk (asBstr_mono h1), R.ok_bind]
    by_cases hr : isRawInt cR = true
    · obtain ⟨t, rfl⟩ := hm hr
      rw [if_pos hr, if_pos hr]
      unfold isRawInt at hr
      split at hr
      · rename_i b
        simp only [decide_eq_true_eq] at hr
        simp only [leInt32]
        have e1 : b.toNat + 256 * (0 : UInt8).toNat + 65536 * (0 : UInt8).toNat + 16777216 * (0 : UInt8).toNat = b.toNat := by
          have : (0 : UInt8).toNat = 0 := rfl
          omega
        rw [e1, if_pos (by omega)]
        unfold encodeInt
        rw [cborInt_eq]
        have e2 : enc (.int (Int.ofNat b.toNat)) = [b] := by
          unfold Item.int
          rw [if_pos (by simp), enc]
          simp only [Int.ofNat_eq_natCast, Int.toNat_natCast]
          unfold head
          rw [if_pos (by omega)]
          simp [byte_of_toNat]
        rw [e2]
        exact cborOut_ok.2 ⟨rfl, by show 1 ≤ asBstr 1; decide⟩
      · cases hr
    · rw [if_neg hr, if_neg hr]
      exact encodeBstr_asBstr h2

/-- the MAC context of the code -/
def macCtx (cR idCred th cred ead : Bytes) : Bytes := crMac cR ++ idCred ++ enc (.bstr th) ++ cred ++ ead

/-- credentials and EAD fit the buffers of MAC and Sig_structure -/
structure Fits (cfg : ECfg) (idCred cred ead : Bytes) : Prop where
  small : cfg.Small
  id : idCred.length ≤ cfg.idCredMaxSize
  cred : cred.length ≤ cfg.credMaxSize
  ead : ead.length ≤ cfg.eadSize

theorem Fits.bounds {cfg : ECfg} {idCred cred ead : Bytes} (h : Fits cfg idCred cred ead) :
    idCred.length < 2 ^ 30 ∧ cred.length < 2 ^ 30 ∧ ead.length < 2 ^ 30 := by
  have h1 := h.small
  have h2 := h.id
  have h3 := h.cred
  have h4 := h.ead
  unfold ECfg.Small at h1
  unfold ECfg.idCredMaxSize at h2
  unfold ECfg.credMaxSize at h3
  omega

theorem macContext_total {cfg : ECfg} {cR mem th idCred cred ead : Bytes} (hf : Fits cfg idCred cred ead)
    (h1 : cR.length ≤ cfg.cRSize) (hm : CrMemOk cR mem) (hth : th.length = 32) :
    macContext cfg cR mem th idCred cred ead = .ok (macCtx cR idCred th cred ead) ∧
    (macCtx cR idCred th cred ead).length ≤
      asBstr cfg.cRSize + asBstr 32 + cfg.idCredMaxSize + cfg.credMaxSize + cfg.eadSize := by
  obtain ⟨b1, b2, b3⟩ := hf.bounds
  have hcR : cR.length < 2 ^ 30 := by have := hf.small; unfold ECfg.Small at this; omega
  have l0 := crMac_length (cR := cR) (by omega)
  have hlE := bstr_32_length hth
  have a0 := asBstr_mono h1
  have a1 := asBstr_le cR.length
  have hid := hf.id
  have hcr := hf.cred
  have hea := hf.ead
  have hS := hf.small
  unfold ECfg.Small at hS
  have hcap : asBstr cR.length + idCred.length + cred.length + ead.length + 34 ≤ cfg.contextMacSize := by
    unfold ECfg.contextMacSize
    have := le_asBstr (asBstr cfg.cRSize + asBstr 32 + cfg.idCredMaxSize + cfg.credMaxSize + cfg.eadSize)
    rw [asBstr_32] at *
    omega
  constructor
  · unfold macContext
    rw [hth, checkOk (Nat.le_refl _), R.ok_bind]
    have e1 : encodeBstr th (asBstr 32) = .ok (enc (.bstr th)) := by
      rw [← hth]; exact encodeBstr_asBstr (by omega)
    rw [e1, R.ok_bind]
    simp only
    rw [hlE, checkOk hcap, R.ok_bind, macCr_total h1 (by omega) hm, R.ok_bind,
      append_total (by simp only [List.length_nil]; omega) (by omega), R.ok_bind,
      append_total (by simp only [List.nil_append]; omega) (by omega), R.ok_bind,
      append_total (by simp only [List.nil_append, List.length_append]; omega) (by omega), R.ok_bind,
      append_total (by simp only [List.nil_append, List.length_append]; omega) (by omega), R.ok_bind,
      append_total (by simp only [List.nil_append, List.length_append]; omega) (by omega)]
    rfl
  · unfold macCtx
    simp only [List.length_append]
    rw [hlE, asBstr_32]; omega

/-- the MAC -/
def macVal (C : ECrypto) (prk : Bytes) (label : Nat) (cR idCred th cred ead : Bytes) (sd : Bool) (suite : Suite) : Bytes :=
  EdhocSpec.kdf C.hmac prk label (macCtx cR idCred th cred ead) (EdhocSpec.macLength sd suite.macLen)

theorem macVal_length {C : ECrypto} (hC : C.Lawful) {prk cR idCred th cred ead : Bytes} {label : Nat} {sd : Bool}
    {suite : Suite} :
    (macVal C prk label cR idCred th cred ead sd suite).length = EdhocSpec.macLength sd suite.macLen :=
  C37_length hC.base _ _ _

theorem mac_total {cfg : ECfg} {C : ECrypto} (hC : C.Lawful) {prk cR mem th idCred cred ead : Bytes} {label : Nat}
    {sd : Bool} {suite : Suite} (hf : Fits cfg idCred cred ead) (h1 : cR.length ≤ cfg.cRSize) (hm : CrMemOk cR mem)
    (hth : th.length = 32) (hs : suite.macLen ≤ 16) (hl : label < 24) :
    mac cfg C prk cR mem th idCred cred ead label sd suite = .ok (macVal C prk label cR idCred th cred ead sd suite) := by
  obtain ⟨e1, e2⟩ := macContext_total hf h1 hm hth
  unfold mac
  rw [e1, R.ok_bind, macLen_eq]
  have hb := hf.small
  unfold ECfg.Small at hb
  refine kdf_total hC prk hl ?_ (infoRoom cfg e2) ?_
  · unfold EdhocSpec.macLength; split <;> omega
  · have i1 : cfg.idCredMaxSize < 2 ^ 30 := by unfold ECfg.idCredMaxSize; omega
    have i2 : cfg.credMaxSize < 2 ^ 30 := by unfold ECfg.credMaxSize; omega
    have i3 := asBstr_le cfg.cRSize
    rw [asBstr_32] at e2
    omega

theorem sigStruct_total {cfg : ECfg} {th idCred cred ead m : Bytes} (hf : Fits cfg idCred cred ead)
    (hth : th.length = 32) (hm : m.length = 32) :
    sigStruct cfg th idCred cred ead m = .ok (EdhocSpec.sigStructure idCred th cred ead m) := by
  obtain ⟨b1, b2, b3⟩ := hf.bounds
  have hid := hf.id
  have hcr := hf.cred
  have hea := hf.ead
  have hlE := bstr_32_length hth
  have hcap : sigStructCap th idCred cred ead m ≤ cfg.sigStructSize := by
    unfold sigStructCap ECfg.sigStructSize
    have a1 := asBstr_mono hid
    have a2 : asBstr (asBstr th.length + cred.length + ead.length) ≤
        asBstr (asBstr 32 + cfg.credMaxSize + cfg.eadSize) := by
      apply asBstr_mono; rw [hth]; omega
    rw [hm]; omega
  have hlen : (EdhocSpec.sigStructure idCred th cred ead m).length ≤ sigStructCap th idCred cred ead m := by
    unfold EdhocSpec.sigStructure sigStructCap
    have key : ∀ a b c d : Item, (enc (.arr [a, b, c, d])).length =
        (head 4 4).length + ((enc a).length + ((enc b).length + ((enc c).length + (enc d).length))) := by
      intro a b c d
      rw [enc]
      simp only [encList, List.length_append, List.length_cons, List.length_nil, List.append_nil]
    rw [key]
    have s1 : (enc (.tstr "Signature1".toUTF8.toList)).length = 11 := by decide +kernel
    have s2 := bstr_length_le (b := idCred) (by omega)
    have s3 := bstr_length_le (b := enc (.bstr th) ++ cred ++ ead) (by
      simp only [List.length_append]; rw [hlE]; omega)
    have s4 := bstr_length_le (b := m) (by omega)
    have s5 : (head 4 4).length = 1 := by rw [head_length]; rfl
    have s6 : asBstr 10 = 12 := rfl
    have s7 : asBstr (enc (.bstr th) ++ cred ++ ead).length = asBstr (asBstr th.length + cred.length + ead.length) := by
      simp only [List.length_append]; rw [hlE, hth]; rfl
    rw [s1, s5, s6]
    rw [s7] at s3
    omega
  have hval : cborArr 4 ++ cborTstr strSignature1 ++ cborBstr idCred ++
      cborBstr (enc (.bstr th) ++ cred ++ ead) ++ cborBstr m = EdhocSpec.sigStructure idCred th cred ead m := by
    unfold EdhocSpec.sigStructure
    rw [← cborArr_eq]
    simp only [cborTstr_eq, cborBstr_eq, encList, List.append_nil, List.append_assoc, List.length_cons,
      List.length_nil]
    rfl
  unfold sigStruct
  rw [checkOk hcap, R.ok_bind]
  have e1 : encodeBstr th (asBstr 32) = .ok (enc (.bstr th)) := by
    rw [← hth]; exact encodeBstr_asBstr (by omega)
  rw [e1, R.ok_bind, hlE, checkOk (by rw [asBstr_32]; omega), R.ok_bind, hval]
  exact cborOut_ok.2 ⟨rfl, hlen⟩

end Verif.Edhoc
