import Verif.Lemmas.EdhocHonest
/-
C39: an honest run ends with the same key on both sides.
-/
namespace Verif.Edhoc
open Verif Cbor

/-- what the two parties of a run have configured: contexts, credential lists, C_R buffer of the initiator, size of
the responder's C_I buffer -/
structure Setup where
  cfgI : ECfg
  cfgR : ECfg
  C : ECrypto
  i : ICtx
  r : RCtx
  /-- the initiator's list of credentials -/
  credsR : List Cred
  /-- the responder's list of credentials -/
  credsI : List Cred
  crBuf : Bytes
  cICap : Nat
  /-- length of both PRK_out buffers -/
  L : Nat

/-- the shared values of the run: method (static DH of initiator, of responder), suite, public keys found in the
credential lists, the three DH secrets, and the forms of ID_CRED_I, ID_CRED_R in the plaintexts -/
structure Agreed where
  sI : Bool
  sR : Bool
  suite : Suite
  pkI : Bytes
  gI : Bytes
  pkR : Bytes
  gR : Bytes
  gxy : Bytes
  grx : Bytes
  giy : Bytes
  wI : Bytes
  wR : Bytes

/-- length of ciphertext_3 -/
def Agreed.len3 (A : Agreed) : Nat := A.wI.length + smWire A.sI A.suite + A.suite.aead.tagLen

namespace Setup
variable (S : Setup) (A : Agreed)

/-- message_1 -/
def m1 : Bytes := EdhocSpec.message1 S.i.method S.i.suitesI S.i.gX S.i.cI S.i.ead1
/-- length of plaintext_2 -/
def len2 : Nat := (enc (EdhocSpec.connId S.r.cR)).length + A.wR.length + smWire A.sR A.suite

/-- Both parties are configured consistently, apart from the keys: method and suite are defined and supported, each has the
other's credential (`cred`), and everything fits the buffers of both builds (`fit`).  EAD_2 and EAD_3 are absent and
message_3 is not longer than message_2: without these the run fails (`C39_false_ead`, `C39_false_method_1`). -/
structure Conf : Prop where
  method : (S.i.method = 0 ∧ A.sI = false ∧ A.sR = false) ∨ (S.i.method = 1 ∧ A.sI = false ∧ A.sR = true) ∨
    (S.i.method = 2 ∧ A.sI = true ∧ A.sR = false) ∨ (S.i.method = 3 ∧ A.sI = true ∧ A.sR = true)
  suite_ne : S.i.suitesI ≠ []
  suite_len : S.i.suitesI.length ≤ 10
  suite_fit : S.i.suitesI.length ≤ S.cfgR.suitesISize
  suite : getSuite (S.i.suitesI.getLastD 0).toNat = .ok A.suite
  suite_supp : S.i.suitesI.getLastD 0 ∈ S.r.suitesR
  gX : S.i.gX.length = 32
  gY : S.r.gY.length = 32
  x : 32 ≤ S.i.x.length
  y : 32 ≤ S.r.y.length
  cred_r : retrieveCred S.cfgI S.C A.sR S.credsR S.r.idCredR S.cfgI.credRSize = .ok (S.r.credR, A.pkR, A.gR)
  cred_i : retrieveCred S.cfgR S.C A.sI S.credsI S.i.idCredI S.cfgR.credISize = .ok (S.i.credI, A.pkI, A.gI)
  cred_r_ne : S.r.credR ≠ []
  cred_i_ne : S.i.credI ≠ []
  wire_r : IdWire S.r.idCredR A.wR
  wire_i : IdWire S.i.idCredI A.wI
  ead_2 : S.r.ead2 = []
  ead_3 : S.i.ead3 = []
  /-- the bytes behind a one-byte C_R up to 0x17 are zero at both sides -/
  mem_r : CrMemOk S.r.cR S.r.cRMem
  mem_i : CrMemOk S.r.cR (S.crBuf.drop S.r.cR.length)
  fit_ri : Fits S.cfgI S.r.idCredR S.r.credR []
  fit_rr : Fits S.cfgR S.r.idCredR S.r.credR []
  fit_ii : Fits S.cfgI S.i.idCredI S.i.credI []
  fit_ir : Fits S.cfgR S.i.idCredI S.i.credI []
  fit_id_r : S.r.idCredR.length ≤ S.cfgI.idCredRSize
  fit_id_i : S.i.idCredI.length ≤ S.cfgR.idCredISize
  fit_cr_i : S.r.cR.length ≤ S.cfgI.cRSize
  fit_cr_r : S.r.cR.length ≤ S.cfgR.cRSize
  fit_cr_r' : S.r.cR.length ≤ S.cfgR.cISize
  fit_cr_buf : S.r.cR.length ≤ S.crBuf.length
  fit_ci : S.i.cI.length ≤ S.cICap
  fit_ci' : S.i.cI.length < 2 ^ 32
  fit_ead1 : S.i.ead1.length ≤ S.cfgR.eadSize
  fit_m1 : S.m1.length ≤ S.cfgI.msgMaxSize ∧ S.m1.length ≤ S.cfgR.msgMaxSize
  fit_p2 : asBstr S.r.cR.length + S.r.idCredR.length + asBstr (smLen A.sR A.suite) ≤ S.cfgR.plaintext2Size
  fit_p2_i : S.len2 A + 2 ≤ S.cfgI.plaintext2Size
  fit_p2_kdf : S.len2 A ≤ 255 * 32
  fit_m2 : S.len2 A + 35 ≤ S.cfgI.msgMaxSize ∧ S.len2 A + 35 ≤ S.cfgR.msgMaxSize
  fit_p3 : S.i.idCredI.length + asBstr 64 ≤ S.cfgI.plaintext3Size
  fit_c3 : asBstr (S.i.idCredI.length + asBstr 64) + A.suite.aead.tagLen ≤ S.cfgI.ciphertext3Size
  fit_p3_r : A.len3 ≤ S.cfgR.plaintext3Size + A.suite.aead.tagLen
  fit_m3_r : A.len3 + 3 ≤ S.cfgR.ciphertext3Size
  fit_m3 : A.len3 ≤ 32 + S.len2 A
  fit_L : S.L ≤ 255 * 32

/-- An honest run: consistent configuration, and the keys belong together (`dh`, `sig`): the computations of the crypto
library that the two sides make with them agree. -/
structure Honest : Prop extends S.Conf A where
  lawful : S.C.Lawful
  dh_xy : S.C.dh A.suite.ecdh S.i.x S.r.gY = some A.gxy ∧ S.C.dh A.suite.ecdh S.r.y S.i.gX = some A.gxy
  dh_r : A.sR = true → S.C.dh A.suite.ecdh S.i.x A.gR = some A.grx ∧ S.C.dh A.suite.ecdh S.r.r S.i.gX = some A.grx ∧
    32 ≤ A.gR.length ∧ 32 ≤ S.r.r.length
  dh_i : A.sI = true → S.C.dh A.suite.ecdh S.i.i S.r.gY = some A.giy ∧ S.C.dh A.suite.ecdh S.r.y A.gI = some A.giy ∧
    32 ≤ A.gI.length ∧ 32 ≤ S.i.i.length
  sig_r : SigOk S.C A.sR A.suite S.r.skR S.r.pkR A.pkR
  sig_i : SigOk S.C A.sI A.suite S.i.skI S.i.pkI A.pkI
  aead : AeadOk S.C A.suite

/-! The values of the run (RFC 9528). -/
def th2 : Bytes := EdhocSpec.th2 S.C.hash S.r.gY S.m1
def prk2e : Bytes := Hkdf.extract S.C.hmac S.th2 A.gxy
def prk3e2m : Bytes := EdhocSpec.prkNext S.C.hmac (S.prk2e A) 1 S.th2 (dhOpt A.sR A.grx)
def p2 (sm2 : Bytes) : Bytes := ptxt2Of S.r.cR A.wR sm2 []
def c2 (sm2 : Bytes) : Bytes := xorBytes (S.p2 A sm2) (EdhocSpec.kdf S.C.hmac (S.prk2e A) 0 S.th2 (S.p2 A sm2).length)
def m2 (sm2 : Bytes) : Bytes := enc (.bstr (S.r.gY ++ S.c2 A sm2))
def th3 (sm2 : Bytes) : Bytes := EdhocSpec.thNext S.C.hash S.th2 (S.p2 A sm2) S.r.credR
def prk4e3m (sm2 : Bytes) : Bytes := EdhocSpec.prkNext S.C.hmac (S.prk3e2m A) 5 (S.th3 A sm2) (dhOpt A.sI A.giy)

variable {S A}

theorem Honest.auth (H : S.Honest A) (b : Bool × Bool) : authType S.i.method b = (A.sI, A.sR) := by
  rcases H.method with ⟨h, h1, h2⟩ | ⟨h, h1, h2⟩ | ⟨h, h1, h2⟩ | ⟨h, h1, h2⟩ <;> rw [h, h1, h2] <;> rfl

theorem Honest.method_range (H : S.Honest A) : 0 ≤ S.i.method ∧ S.i.method ≤ 3 := by
  rcases H.method with ⟨h, _⟩ | ⟨h, _⟩ | ⟨h, _⟩ | ⟨h, _⟩ <;> rw [h] <;> decide

theorem Honest.macLen (H : S.Honest A) : A.suite.macLen ≤ 16 := (getSuite_macLen H.suite).2

theorem suitesItem_total {l : Bytes} (h1 : l ≠ []) (h2 : l.length ≤ 10) : ∃ o, suitesItem l = .ok o := by
  match l, h1, h2 with
  | [s], _, _ => exact ⟨_, rfl⟩
  | a :: b :: l, _, h2 =>
    simp only [suitesItem]
    rw [if_neg (by omega)]
    exact ⟨_, rfl⟩

theorem Honest.msg1 (H : S.Honest A) : msg1Gen S.cfgI S.C S.i = .ok (S.m1, A.suite, S.C.hash S.m1) := by
  obtain ⟨o, ho⟩ := suitesItem_total H.suite_ne H.suite_len
  have e : cborInt S.i.method ++ o ++ cborBstr S.i.gX ++ enc (EdhocSpec.connId S.i.cI) ++
      (if S.i.ead1.length ≠ 0 then cborBstr S.i.ead1 else []) = S.m1 := by
    rw [(suitesItem_ok ho).1, cborInt_eq, cborBstr_eq]
    unfold Setup.m1 EdhocSpec.message1 EdhocSpec.optEad
    by_cases he : S.i.ead1 = []
    · simp [he, encList]
    · rw [if_pos (by simpa using he), if_neg he, cborBstr_eq]
      simp [encList]
  unfold msg1Gen
  rw [ho, R.ok_bind, cIItem_total, R.ok_bind, e, cborOut_ok.2 ⟨rfl, H.fit_m1.1⟩, R.ok_bind, H.suite, R.ok_bind]
  rfl

theorem Honest.th2_len (H : S.Honest A) : S.th2.length = 32 := H.lawful.base.hash_len _

theorem Honest.p2_len (H : S.Honest A) {sm2 : Bytes} (h : sm2.length = smLen A.sR A.suite) : (S.p2 A sm2).length = S.len2 A := by
  unfold p2 ptxt2Of len2
  simp only [List.length_append, List.length_nil, smWire_eq H.macLen h]
  omega

theorem Honest.c2_len (H : S.Honest A) {sm2 : Bytes} : (S.c2 A sm2).length = (S.p2 A sm2).length :=
  xor_length (C37_length H.lawful.base _ _ _)

theorem Honest.m2_len (H : S.Honest A) {sm2 : Bytes} (h : sm2.length = smLen A.sR A.suite) :
    (S.m2 A sm2).length ≤ S.len2 A + 35 ∧ S.len2 A + 34 ≤ (S.m2 A sm2).length := by
  unfold m2
  rw [enc, List.length_append, List.length_append, head_length, H.gY, H.c2_len, H.p2_len h]
  have := H.fit_p2_kdf
  rw [if_neg (by omega)]
  split <;> (try split) <;> omega

/-- the EAD array of the responder after message_1 -/
def eadR (S : Setup) : Bytes := if S.i.ead1 = [] then List.replicate S.cfgR.eadSize 0 else S.i.ead1

/-- Step 1: the responder's message_2, and that the initiator will accept its Signature_or_MAC_2 -/
theorem Honest.msg2 (H : S.Honest A) : ∃ sm2, sm2.length = smLen A.sR A.suite ∧
    sigOrMacVerify S.cfgI S.C A.sR A.suite A.pkR (S.prk3e2m A) S.r.cR (S.crBuf.drop S.r.cR.length) S.th2 S.r.idCredR S.r.credR [] 2 sm2
      = .ok () ∧
    msg2Gen S.cfgR S.C S.r S.m1 S.cICap (List.replicate S.cfgR.eadSize 0) =
      .ok (S.m2 A sm2, ⟨A.suite, A.sI, S.eadR, S.prk3e2m A, S.th3 A sm2, cIStored S.i.cI⟩) := by
  obtain ⟨sm2, g1, g2, g3⟩ := sigOrMac_pair H.lawful H.sig_r H.fit_rr H.fit_ri H.fit_cr_r H.fit_cr_i H.mem_r H.mem_i
    (prk := S.prk3e2m A) H.th2_len H.macLen (label := 2) (by omega)
  refine ⟨sm2, g2, g3, ?_⟩
  have hp1 := C40_message_1 (cfg' := S.cfgR) (cICap := S.cICap) (ead := List.replicate S.cfgR.eadSize 0) H.msg1 H.method_range
    (by rw [H.gX]; omega) H.suite_fit H.fit_ci H.fit_ci'
    (by rw [List.length_replicate]; exact H.fit_ead1)
    (by have h1 := H.fit_ead1; have h2 := H.fit_rr.small; unfold ECfg.Small at h2; omega)
  unfold msg2Gen
  rw [hp1, R.ok_bind]
  have hsu : suiteSupported (S.i.suitesI.getLastD 0) S.r.suitesR = true := by
    have := H.suite_supp
    cases hr : S.r.suitesR with
    | nil => rw [hr] at this; cases this
    | cons a l => rfl
  simp only [hsu]
  rw [if_neg (by simp)]
  have hlen := H.p2_len g2
  have hsm := smLen_le (sd := A.sR) H.macLen
  have hle := le_asBstr S.r.cR.length
  have hp2l := H.fit_p2
  have hsmall := H.fit_rr.small
  have hid := H.fit_rr.bounds.1
  have hcrl := H.fit_cr_r
  have hlen2 : S.len2 A ≤ asBstr S.r.cR.length + S.r.idCredR.length + asBstr (smLen A.sR A.suite) := by
    unfold len2
    have b1 := connId_length (c := S.r.cR) (by unfold ECfg.Small at hsmall; omega)
    have b2 := H.wire_r.le
    have b3 := smWire_le (sd := A.sR) H.macLen
    omega
  have hc2 : ctxt2Gen S.cfgR S.C S.r A.suite A.sR (S.prk2e A) (S.prk3e2m A) S.th2 = .ok (S.c2 A sm2, S.p2 A sm2) := by
    unfold ctxt2Gen
    rw [H.ead_2, g1, R.ok_bind]
    simp only
    rw [g2, List.length_nil, Nat.add_zero, checkOk hp2l, R.ok_bind]
    have hg : plaintextGen S.cfgR .c2 S.r.cR S.r.idCredR sm2 []
        (asBstr S.r.cR.length + S.r.idCredR.length + asBstr (smLen A.sR A.suite)) = .ok (S.p2 A sm2) := by
      refine ptxt2Gen_total H.wire_r (by omega) (asBstr_mono H.fit_cr_r') ?_ ?_
      · have b1 := asBstr_le S.r.cR.length
        have b2 := asBstr_le (smLen A.sR A.suite)
        unfold ECfg.Small at hsmall
        omega
      · rw [g2]; simp
    refine ctxt2_total H.lawful H.th2_len hg ?_ ?_ ?_
    · omega
    · omega
    · have := H.fit_p2_kdf; omega
  have hm2 : msg2Encode S.cfgR S.r.gY (S.c2 A sm2) = .ok (S.m2 A sm2) := by
    unfold msg2Encode
    rw [H.gY, H.c2_len, hlen, checkOk (by unfold ECfg.gYCiphertext2; omega), R.ok_bind]
    have := (H.m2_len g2).1
    have := H.fit_m2.2
    exact encodeBstr_ok.2 ⟨rfl, by unfold m2 at *; omega⟩
  have hth3 : th34Calc S.cfgR S.C S.th2 (S.p2 A sm2) S.r.credR = .ok (S.th3 A sm2) := by
    have := H.fit_rr.cred
    have hcb := H.fit_rr.bounds.2.1
    have hk := H.fit_p2_kdf
    refine th34_total H.th2_len ?_ H.cred_r_ne ?_ ?_
    · intro h0
      rw [h0] at hlen
      have hw := H.wire_r.ne
      unfold len2 at hlen
      simp only [List.length_nil] at hlen
      omega
    · omega
    · unfold ECfg.th34InputSize; rw [asBstr_32]; omega
  have hth2 : th2Calc S.C (Edhoc.hash S.C S.m1) S.r.gY = .ok S.th2 :=
    th2_total (H.lawful.base.hash_len _) H.gY
  have hsh := sharedSecret_total H.dh_xy.2 H.y (by rw [H.gX]; omega)
  have hprk : prkDerive S.cfgR S.C A.sR A.suite 1 S.th2 (S.prk2e A) S.i.gX S.r.r = .ok (S.prk3e2m A) :=
    prkDerive_total H.lawful (by omega) H.th2_len
      (fun h => ⟨(H.dh_r h).2.1, (H.dh_r h).2.2.2, by rw [H.gX]; omega⟩)
  unfold msg2Build
  simp only
  rw [H.suite, R.ok_bind, H.auth]
  simp only
  rw [hth2, R.ok_bind, hsh, R.ok_bind, extract_eq]
  show (prkDerive S.cfgR S.C A.sR A.suite 1 S.th2 (S.prk2e A) S.i.gX S.r.r >>= _) = _
  rw [hprk, R.ok_bind]
  show (ctxt2Gen S.cfgR S.C S.r A.suite A.sR (S.prk2e A) (S.prk3e2m A) S.th2 >>= _) = _
  rw [hc2, R.ok_bind]
  simp only
  rw [hm2, R.ok_bind, hth3, R.ok_bind]
  rfl

theorem Honest.th3_len (H : S.Honest A) {sm2 : Bytes} : (S.th3 A sm2).length = 32 := H.lawful.base.hash_len _

/-- Step 2: the initiator accepts message_2 -/
theorem Honest.process2 (H : S.Honest A) {sm2 : Bytes} (g2 : sm2.length = smLen A.sR A.suite)
    (hv : sigOrMacVerify S.cfgI S.C A.sR A.suite A.pkR (S.prk3e2m A) S.r.cR (S.crBuf.drop S.r.cR.length) S.th2 S.r.idCredR S.r.credR [] 2
      sm2 = .ok ()) :
    msg2Process S.cfgI S.C S.i S.credsR A.suite (S.C.hash S.m1) (S.m2 A sm2) A.sI A.sR S.crBuf (List.replicate S.cfgI.eadSize 0) =
      .ok ⟨S.r.cR, [], S.th3 A sm2, S.prk3e2m A, S.prk4e3m A sm2⟩ := by
  have hlen := H.p2_len g2
  have hk := H.fit_p2_kdf
  have hpi := H.fit_p2_i
  have hsm := smLen_le (sd := A.sR) H.macLen
  have hb := ctxt2Len_bounds (b := S.r.gY ++ S.c2 A sm2) (n := S.len2 A) (by simp [H.gY, H.c2_len, hlen]) (by omega)
  have hparse : msg2Parse S.cfgI (S.m2 A sm2) (ctxt2Len (S.m2 A sm2).length) = .ok (S.r.gY, S.c2 A sm2) := by
    refine C40_message_2_outer (cfg := S.cfgI) H.gY (by rw [H.c2_len]; omega) ?_ ?_
    · rw [H.c2_len, hlen]; unfold ECfg.gYCiphertext2; omega
    · unfold msg2Encode
      rw [H.gY, H.c2_len, hlen, checkOk (by unfold ECfg.gYCiphertext2; omega), R.ok_bind]
      have := (H.m2_len g2).1
      have := H.fit_m2.1
      exact encodeBstr_ok.2 ⟨rfl, by unfold m2 at *; omega⟩
  have hth2 : th2Calc S.C (S.C.hash S.m1) S.r.gY = .ok S.th2 := th2_total (H.lawful.base.hash_len _) H.gY
  have hsh := sharedSecret_total H.dh_xy.1 H.x (by rw [H.gY]; omega)
  have hdec : ctxtDecrypt S.cfgI S.C .c2 A.suite (S.prk2e A) S.th2 (S.c2 A sm2) = .ok (S.p2 A sm2) :=
    ctxt2_dec H.lawful H.th2_len (by omega) (by omega)
  have hsplit : plaintext2Split S.cfgI (S.p2 A sm2) S.crBuf.length S.cfgI.idCredRSize (List.replicate S.cfgI.eadSize (0 : UInt8)).length =
      .ok (S.r.cR, ⟨S.r.idCredR, sm2, []⟩) := by
    have hsmall := H.fit_ri.small
    have hcr := H.fit_cr_i
    have := split2_of (cfg := S.cfgI) (cR := S.r.cR) (e := []) (crCap := S.crBuf.length) (idCap := S.cfgI.idCredRSize)
      (eadCap := (List.replicate S.cfgI.eadSize (0 : UInt8)).length) H.wire_r (sm := sm2) (by omega) (by simp)
      (by unfold ECfg.Small at hsmall; omega) H.fit_id_r (by simp) H.fit_cr_buf
    rw [eadWire_nil] at this
    exact this
  have hprk : prkDerive S.cfgI S.C A.sR A.suite 1 S.th2 (S.prk2e A) A.gR S.i.x = .ok (S.prk3e2m A) :=
    prkDerive_total H.lawful (by omega) H.th2_len (fun h => ⟨(H.dh_r h).1, H.x, (H.dh_r h).2.2.1⟩)
  have hth3 : th34Calc S.cfgI S.C S.th2 (S.p2 A sm2) S.r.credR = .ok (S.th3 A sm2) := by
    have := H.fit_ri.cred
    have hcb := H.fit_ri.bounds.2.1
    refine th34_total H.th2_len ?_ H.cred_r_ne ?_ ?_
    · intro h0
      rw [h0] at hlen
      have hw := H.wire_r.ne
      unfold len2 at hlen
      simp only [List.length_nil] at hlen
      omega
    · omega
    · unfold ECfg.th34InputSize; rw [asBstr_32]; omega
  have hprk4 : prkDerive S.cfgI S.C A.sI A.suite 5 (S.th3 A sm2) (S.prk3e2m A) S.r.gY S.i.i = .ok (S.prk4e3m A sm2) :=
    prkDerive_total H.lawful (by omega) H.th3_len (fun h => ⟨(H.dh_i h).1, (H.dh_i h).2.2.2, by rw [H.gY]; omega⟩)
  unfold msg2Process
  rw [checkOk (by unfold m2; omega), R.ok_bind, hparse, R.ok_bind]
  simp only
  rw [hsh, R.ok_bind, hth2, R.ok_bind, extract_eq]
  show (ctxtDecrypt S.cfgI S.C .c2 A.suite (S.prk2e A) S.th2 (S.c2 A sm2) >>= _) = _
  rw [hdec, R.ok_bind, hsplit, R.ok_bind]
  simp only
  unfold msg2Auth
  simp only
  rw [H.cred_r, R.ok_bind]
  simp only
  show (prkDerive S.cfgI S.C A.sR A.suite 1 S.th2 (S.prk2e A) A.gR S.i.x >>= _) = _
  rw [hprk, R.ok_bind, hv, R.ok_bind, hth3, R.ok_bind, hprk4, R.ok_bind]
  rfl

/-- TH_4, PRK_out -/
def th4 (S : Setup) (A : Agreed) (sm2 sm3 : Bytes) : Bytes := EdhocSpec.thNext S.C.hash (S.th3 A sm2) (ptxt3Of A.wI sm3 []) S.i.credI
def prkOut (S : Setup) (A : Agreed) (sm2 sm3 : Bytes) : Bytes := EdhocSpec.kdf S.C.hmac (S.prk4e3m A sm2) 7 (S.th4 A sm2 sm3) S.L

/-- Step 3: the initiator's message_3, and the responder accepts it -/
theorem Honest.msg3 (H : S.Honest A) {sm2 : Bytes} (g2 : sm2.length = smLen A.sR A.suite) : ∃ sm3 m3,
    msg3OnlyGen S.cfgI S.C S.i A.suite A.sI ⟨S.r.cR, [], S.th3 A sm2, S.prk3e2m A, S.prk4e3m A sm2⟩ (S.m2 A sm2) S.L =
      .ok ⟨m3, S.th4 A sm2 sm3, some (S.prkOut A sm2 sm3)⟩ ∧
    m3.length ≤ (S.m2 A sm2).length ∧ A.len3 < m3.length ∧
    msg3Process S.cfgR S.C S.r S.credsI ⟨A.suite, A.sI, S.eadR, S.prk3e2m A, S.th3 A sm2, cIStored S.i.cI⟩ m3 S.L =
      .ok ⟨[], S.prk4e3m A sm2, S.th4 A sm2 sm3, S.prkOut A sm2 sm3, A.pkI⟩ := by
  have nilMem : CrMemOk [] [] := by intro h; cases h
  obtain ⟨sm3, g3, g4, g5⟩ := sigOrMac_pair H.lawful H.sig_i H.fit_ii H.fit_ir (cR := []) (Nat.zero_le _) (Nat.zero_le _) nilMem nilMem
    (prk := S.prk4e3m A sm2) (H.th3_len (sm2 := sm2)) H.macLen (label := 6) (by omega)
  have hsm := smLen_le (sd := A.sI) H.macLen
  have hk := H.fit_p2_kdf
  have hsmall := H.fit_ii.small
  have hp3len : (ptxt3Of A.wI sm3 []).length + A.suite.aead.tagLen = A.len3 := by
    unfold ptxt3Of Agreed.len3
    simp only [List.length_append, List.length_nil, smWire_eq H.macLen g4]
    omega
  have hasm : asBstr sm3.length ≤ asBstr 64 := asBstr_mono (by omega)
  have hp3 : plaintextGen S.cfgI .c3 [] S.i.idCredI sm3 [] (S.i.idCredI.length + asBstr 64) = .ok (ptxt3Of A.wI sm3 []) := by
    have hid := H.fit_ii.bounds.1
    have h64 : asBstr 64 = 66 := rfl
    exact ptxt3Gen_total H.wire_i (by omega) (by omega) (by simp only [List.length_nil]; omega)
  have hw := H.wire_i.le
  have hfc3 := H.fit_c3
  have hasp := le_asBstr (S.i.idCredI.length + asBstr 64)
  have hpl : (ptxt3Of A.wI sm3 []).length ≤ S.i.idCredI.length + asBstr 64 := by
    unfold ptxt3Of
    have := smWire_le (sd := A.sI) H.macLen
    simp only [List.length_append, List.length_nil, smWire_eq H.macLen g4]
    rw [← g4] at this
    omega
  have hp3s : (ptxt3Of A.wI sm3 []).length < 65536 := by
    have h1 := H.fit_m3
    have h2 := H.fit_p2_kdf
    unfold Agreed.len3 at h1
    unfold ptxt3Of
    simp only [List.length_append, List.length_nil, smWire_eq H.macLen g4]
    omega
  obtain ⟨c3, hc3⟩ := ctxt34_total H.lawful (ct := .c3) (by simp) H.aead (prk := S.prk3e2m A) (buf := S.cfgI.ciphertext3Size) H.th3_len hp3 (by omega) hp3s
  obtain ⟨hc3l, hdec⟩ := ctxt34_dec (cfg' := S.cfgR) H.lawful (by simp) (H.th3_len (sm2 := sm2)) hc3
  have hm2l := (H.m2_len g2).2
  have hf3 := H.fit_m3
  have hc3len : c3.length = A.len3 := by omega
  have hm3l : (enc (.bstr c3)).length ≤ (S.m2 A sm2).length ∧ (enc (.bstr c3)).length ≤ A.len3 + 3 ∧ c3.length < (enc (.bstr c3)).length := by
    unfold m2
    rw [enc, List.length_append, head_length, enc, List.length_append, List.length_append, head_length, H.gY, H.c2_len, H.p2_len g2, hc3len]
    repeat' split
    all_goals omega
  have hp3ne : ptxt3Of A.wI sm3 [] ≠ [] := by
    intro h0
    have hn := H.wire_i.ne
    have := congrArg List.length h0
    unfold ptxt3Of at this
    simp only [List.length_append, List.length_nil] at this
    omega
  have hth4 : ∀ cfg : ECfg, S.i.credI.length ≤ cfg.credMaxSize → (ptxt3Of A.wI sm3 []).length ≤ cfg.plaintext3Size →
      th34Calc cfg S.C (S.th3 A sm2) (ptxt3Of A.wI sm3 []) S.i.credI = .ok (S.th4 A sm2 sm3) := by
    intro cfg b1 b2
    have hcb := H.fit_ii.bounds.2.1
    have hid := H.fit_ii.bounds.1
    have h64 : asBstr 64 = 66 := rfl
    refine th34_total H.th3_len hp3ne H.cred_i_ne (by omega) ?_
    unfold ECfg.th34InputSize; rw [asBstr_32]; omega
  have hth4l : (S.th4 A sm2 sm3).length = 32 := H.lawful.base.hash_len _
  have hout : ∀ cfg : ECfg, edhocKdf cfg S.C (S.prk4e3m A sm2) 7 (S.th4 A sm2 sm3) S.L = .ok (S.prkOut A sm2 sm3) := by
    intro cfg
    exact kdf_total H.lawful _ (by omega) H.fit_L (infoRoom cfg (by rw [hth4l, asBstr_32]; omega)) (by omega)
  refine ⟨sm3, enc (.bstr c3), ?_, hm3l.1, by omega, ?_⟩
  · have hb : msg3Build S.cfgI S.C S.i A.suite A.sI ⟨S.r.cR, [], S.th3 A sm2, S.prk3e2m A, S.prk4e3m A sm2⟩ (S.m2 A sm2).length =
        .ok (enc (.bstr c3), ptxt3Of A.wI sm3 []) := by
      unfold msg3Build
      have e64 : asBstr sigOrMacSize = asBstr 64 := rfl
      simp only [H.ead_3, e64, List.length_nil, Nat.add_zero]
      rw [checkOk H.fit_p3, R.ok_bind, checkOk H.fit_c3, R.ok_bind, g3, R.ok_bind, hc3, R.ok_bind]
      simp only
      rw [encodeBstr_ok.2 ⟨rfl, hm3l.1⟩]
      rfl
    have hfp3 := H.fit_p3
    unfold msg3OnlyGen th4Of
    rw [hb]
    simp only
    rw [hth4 S.cfgI H.fit_ii.cred (by omega)]
    simp only
    rw [show labelPrkOut = 7 from rfl, hout S.cfgI]
  · have hfr := H.fit_m3_r
    have hfp := H.fit_p3_r
    have hdb : decodeBstr S.cfgR (enc (.bstr c3)) (enc (.bstr c3)).length = .ok c3 := by
      have := decodeBstr_bstr S.cfgR (b := c3) [] (cap := (enc (.bstr c3)).length) (by omega) (Nat.le_of_lt hm3l.2.2)
      rwa [List.append_nil] at this
    have hsplit : plaintext3Split S.cfgR (ptxt3Of A.wI sm3 []) S.cfgR.idCredISize S.eadR.length = .ok ⟨S.i.idCredI, sm3, []⟩ := by
      have := split3_of (cfg := S.cfgR) (e := []) (idCap := S.cfgR.idCredISize) (eadCap := S.eadR.length) H.wire_i (sm := sm3)
        (by omega) (by simp) H.fit_id_i (by simp)
      rw [eadWire_nil] at this
      exact this
    have hprk4 : prkDerive S.cfgR S.C A.sI A.suite 5 (S.th3 A sm2) (S.prk3e2m A) A.gI S.r.y = .ok (S.prk4e3m A sm2) :=
      prkDerive_total H.lawful (by omega) H.th3_len (fun h => ⟨(H.dh_i h).2.1, H.y, (H.dh_i h).2.2.1⟩)
    unfold msg3Process
    rw [checkOk (by omega), R.ok_bind, hdb, R.ok_bind]
    simp only
    rw [checkOk (by omega), R.ok_bind, hdec, R.ok_bind, hsplit, R.ok_bind]
    unfold msg3Auth
    simp only
    rw [H.cred_i, R.ok_bind]
    simp only
    rw [hprk4, R.ok_bind, g5, R.ok_bind, hth4 S.cfgR H.fit_ir.cred (by omega), R.ok_bind,
      show labelPrkOut = 7 from rfl, hout S.cfgR, R.ok_bind]
    rfl

theorem tagLen_le (a : AeadAlg) : a.tagLen ≤ 16 := by cases a <;> decide

/-- message_4 with the encoded EAD_4 `e`: it can be created, and the initiator decrypts it to the encoding of `e` -/
theorem Honest.msg4 (H : S.Honest A) {sm2 sm3 e : Bytes}
    (hr : (eadWire e).length + A.suite.aead.tagLen ≤ S.cfgR.eadSize + 8) (hi : (eadWire e).length + A.suite.aead.tagLen ≤ S.cfgI.eadSize + 8)
    {cap : Nat} (h6 : (eadWire e).length < 65536)
    (hc : (head 2 ((eadWire e).length + A.suite.aead.tagLen)).length + ((eadWire e).length + A.suite.aead.tagLen) ≤ cap) :
    ∃ m4, msg4Gen S.cfgR S.C (eadWire e) A.suite (S.prk4e3m A sm2) (S.th4 A sm2 sm3) cap = .ok m4 ∧
      (∀ eadCap, msg4Process S.cfgI S.C A.suite (S.prk4e3m A sm2) (S.th4 A sm2 sm3) m4 eadCap = ead4Of S.cfgI (eadWire e) eadCap) ∧
      m4.length ≤ cap := by
  have hth4l : (S.th4 A sm2 sm3).length = 32 := H.lawful.base.hash_len _
  have hp : plaintextGen S.cfgR .c4 [] [] [] (eadWire e) S.cfgR.plaintext4Size = .ok (eadWire e) := by
    have := H.fit_rr.small
    unfold ECfg.Small at this
    unfold plaintextGen
    rw [checkOk (a := asBstr sigOrMacSize) (b := asBstr ([] : Bytes).length) (by decide), R.ok_bind, encodeBstr_asBstr (by simp), R.ok_bind]
    simp only
    rw [append_total (by simp only [List.length_nil]; unfold ECfg.plaintext4Size; omega) (by unfold ECfg.plaintext4Size; omega)]
    rfl
  obtain ⟨c4, hc4⟩ := ctxt34_total H.lawful (ct := .c4) (by simp) H.aead (prk := S.prk4e3m A sm2) (buf := S.cfgR.plaintext4Size) hth4l hp
    (by unfold ECfg.plaintext4Size; omega) h6
  obtain ⟨hl, hdec⟩ := ctxt34_dec (cfg' := S.cfgI) H.lawful (by simp) hth4l hc4
  refine ⟨enc (.bstr c4), ?_, fun eadCap => ?_, ?_⟩
  · unfold msg4Gen
    rw [hc4, R.ok_bind]
    exact encodeBstr_ok.2 ⟨rfl, by rw [enc, List.length_append, hl]; omega⟩
  · have hd := decodeBstr_bstr S.cfgI (b := c4) [] (cap := S.cfgI.plaintext4Size) (by have := H.fit_ri.small; unfold ECfg.Small at this; omega)
      (by unfold ECfg.plaintext4Size; omega)
    rw [List.append_nil] at hd
    unfold msg4Process
    rw [hd, R.ok_bind, checkOk (by unfold ECfg.plaintext4Size; omega), R.ok_bind, hdec, R.ok_bind]
  · rw [enc, List.length_append, hl]; omega

theorem ead4_fails {cfg : ECfg} {e : Bytes} (hne : e ≠ []) (he : e.length < 2 ^ 32) : ead4Of cfg (eadWire e) 0 = .err .buffer_to_small := by
  have e1 : eadWire e = enc (.bstr e) := by simp [eadWire, EdhocSpec.optEad, hne, encList]
  have hp := List.length_pos_iff.2 hne
  unfold ead4Of
  rw [e1, if_pos (by rw [enc, List.length_append]; omega)]
  unfold decodeBstr
  have := zBstr_bstr cfg.strictCbor [] (b := e) (by omega)
  rw [List.append_nil] at this
  rw [this]
  simp only
  unfold memcpyS
  rw [if_neg (by omega)]
  unfold checkBufferSize
  rw [if_pos (by omega)]
  rfl


end Setup

theorem netTx_ok (m : Bytes) {n : Net} (h : n.txq = []) : netTx m n = (.ok (), { n with sent := n.sent ++ [m] }) := by
  obtain ⟨a, b, c, d, e⟩ := n
  simp only at h; subst h; rfl
theorem netEad_ok (m : Bytes) {n : Net} (h : n.eadq = []) : netEad m n = (.ok (), { n with eads := n.eads ++ [m] }) := by
  obtain ⟨a, b, c, d, e⟩ := n
  simp only at h; subst h; rfl
theorem netRx_ok {m : Bytes} {n : Net} {q : List (Err ⊕ Bytes)} {cap : Nat} (h : n.rxq = .inr m :: q) (hc : m.length ≤ cap) :
    netRx cap n = (.ok m, { n with rxq := q }) := by
  unfold netRx; rw [h]; simp [hc]

/-- C39, for the runs without EAD_2 and EAD_3 and with message_3 not longer than message_2 (what else `Honest` says
is consistent configuration and sufficient buffers): if the network delivers the messages unchanged - the initiator
receives the m2 that the responder sends, the responder the m1 and m3 that the initiator sends - then both return ok
with the same PRK_out, TH_4 and PRK_4e3m, the initiator has the responder's C_R, and the responder the initiator's
C_I as in C45.
Missing: EAD_2, EAD_3 and long message_3, for which the claim is false of the code (below).  message_4: `C39_message_4_partial`. -/
theorem C39_partial {S : Setup} {A : Agreed} (H : S.Honest A) (hm : S.cfgI.message4 = false ∧ S.cfgR.message4 = false) : ∃ m1 m2 m3 oI oR nI nR,
    initiatorRun S.cfgI S.C S.i S.credsR S.crBuf S.L (netOf [m2]) = (.ok oI, nI) ∧ nI.sent = [m1, m3] ∧
    responderRun S.cfgR S.C S.r S.credsI S.cICap S.L (netOf [m1, m3]) = (.ok oR, nR) ∧ nR.sent = [m2] ∧
    oI.prkOut = some oR.prkOut ∧ oR.prkOut.length = S.L ∧ oI.th4 = oR.th4 ∧ oI.prk4e3m = oR.prk4e3m ∧
    oI.cR = S.r.cR ∧ oR.cI = cIStored S.i.cI ∧ oR.pk = A.pkI := by
  obtain ⟨sm2, g2, hv, hr⟩ := H.msg2
  obtain ⟨sm3, m3, h3, hm3, _, hp3⟩ := H.msg3 g2
  have hm2 := (H.m2_len g2).1
  have hfm2 := H.fit_m2
  have hI := C44_initiator_partial S.cfgI S.C S.i S.credsR S.crBuf S.L (netOf [S.m2 A sm2])
  have hR := C44_responder S.cfgR S.C S.r S.credsI S.cICap S.L (netOf [S.m1, m3])
  rw [H.auth] at hI
  have i1 := (hI.2 _ _ _ H.msg1).2 _ (netTx_ok _ rfl)
  have i2 := (i1.2 _ _ (netRx_ok rfl (by omega))).2 _ _ (H.process2 g2 hv) h3
  have i3 := ((i2.2 _ (netEad_ok _ rfl)).2 _ (netTx_ok _ rfl)).1 hm.1
  have r1 := (hR.2 _ _ (netRx_ok rfl H.fit_m1.2)).2 _ _ hr
  have r2 := ((r1.2 _ (netEad_ok _ rfl)).2 _ (netTx_ok _ rfl)).2 _ _ (netRx_ok rfl (by omega))
  have r3 := ((r2.2 _ hp3).2 _ (netEad_ok _ rfl)).1 hm.2
  refine ⟨S.m1, S.m2 A sm2, m3, _, _, _, _, i3, rfl, r3, rfl, rfl, ?_, rfl, rfl, rfl, rfl, rfl⟩
  exact C37_length H.lawful.base _ _ _
/-- C39 with message_4 (built with `MESSAGE_4`), under the conditions of `C39_partial`, without EAD_4, and when the
tag fits the buffer of ciphertext_4 (EAD_SIZE + 8 bytes at both sides): the run with the four messages ends in the
same way.  Missing: EAD_4, for which the run always fails (`C39_false_ead_4`). -/
theorem C39_message_4_partial {S : Setup} {A : Agreed} (H : S.Honest A) (hm : S.cfgI.message4 = true ∧ S.cfgR.message4 = true)
    (he : S.r.ead4 = []) (ht : A.suite.aead.tagLen ≤ S.cfgI.eadSize + 8 ∧ A.suite.aead.tagLen ≤ S.cfgR.eadSize + 8) :
    ∃ m1 m2 m3 m4 oI oR nI nR,
    initiatorRun S.cfgI S.C S.i S.credsR S.crBuf S.L (netOf [m2, m4]) = (.ok oI, nI) ∧ nI.sent = [m1, m3] ∧
    responderRun S.cfgR S.C S.r S.credsI S.cICap S.L (netOf [m1, m3]) = (.ok oR, nR) ∧ nR.sent = [m2, m4] ∧
    oI.prkOut = some oR.prkOut ∧ oR.prkOut.length = S.L ∧ oI.th4 = oR.th4 ∧ oI.prk4e3m = oR.prk4e3m ∧
    oI.cR = S.r.cR ∧ oR.cI = cIStored S.i.cI ∧ oR.pk = A.pkI := by
  obtain ⟨sm2, g2, hv, hr⟩ := H.msg2
  obtain ⟨sm3, m3, h3, hm3, hm3', hp3⟩ := H.msg3 g2
  obtain ⟨m4, hg4, hp4, hl4⟩ := H.msg4 (sm2 := sm2) (sm3 := sm3) (e := []) (by simpa [eadWire_nil] using ht.2) (by simpa [eadWire_nil] using ht.1) (by simp [eadWire_nil])
    (cap := m3.length) (by
      simp only [eadWire_nil, List.length_nil, Nat.zero_add]
      have := Setup.tagLen_le A.suite.aead
      unfold Agreed.len3 at hm3'
      rw [head_length]; split <;> omega)
  rw [eadWire_nil] at hg4
  have hm2 := (H.m2_len g2).1
  have hfm2 := H.fit_m2
  have hI := C44_initiator_partial S.cfgI S.C S.i S.credsR S.crBuf S.L (netOf [S.m2 A sm2, m4])
  have hR := C44_responder S.cfgR S.C S.r S.credsI S.cICap S.L (netOf [S.m1, m3])
  rw [H.auth] at hI
  have i1 := (hI.2 _ _ _ H.msg1).2 _ (netTx_ok _ rfl)
  have i2 := (i1.2 _ _ (netRx_ok rfl (by omega))).2 _ _ (H.process2 g2 hv) h3
  have i3 := (((i2.2 _ (netEad_ok _ rfl)).2 _ (netTx_ok _ rfl)).2 hm.1).2 _ _ (netRx_ok rfl (by omega))
  have i4 := (i3.2 [] ((hp4 0).trans (by rw [eadWire_nil]; rfl))).2 _ (netEad_ok _ rfl)
  have r1 := (hR.2 _ _ (netRx_ok rfl H.fit_m1.2)).2 _ _ hr
  have r2 := ((r1.2 _ (netEad_ok _ rfl)).2 _ (netTx_ok _ rfl)).2 _ _ (netRx_ok rfl (by omega))
  have r3 := (((r2.2 _ hp3).2 _ (netEad_ok _ rfl)).2 hm.2).2 _ (by simp only [he]; exact hg4)
  have r4 := r3.2 _ (netTx_ok _ rfl)
  refine ⟨S.m1, S.m2 A sm2, m3, m4, _, _, _, _, i4, rfl, r4, rfl, rfl, ?_, rfl, rfl, rfl, rfl, rfl⟩
  exact C37_length H.lawful.base _ _ _

/-- C39/C40 are false of the code with EAD_4: whatever non-empty EAD_4 the responder of an otherwise honest run adds
to message_4 (encoded as a byte string, fitting all buffers), the responder ends with ok and the initiator with an error: the buffer for
the received EAD was given length 0 when message_2 arrived without EAD_2. -/
theorem C39_false_ead_4 {S : Setup} {A : Agreed} (H : S.Honest A) (hm : S.cfgI.message4 = true ∧ S.cfgR.message4 = true)
    {e : Bytes} (hne : e ≠ []) (he : S.r.ead4 = eadWire e) (hlen : e.length < 2 ^ 32)
    (ht : (eadWire e).length + A.suite.aead.tagLen ≤ S.cfgI.eadSize + 8 ∧
      (eadWire e).length + A.suite.aead.tagLen ≤ S.cfgR.eadSize + 8)
    (ht' : (eadWire e).length + 2 < A.wI.length + smWire A.sI A.suite) :
    ∃ m1 m2 m3 m4 oR nI nR,
    initiatorRun S.cfgI S.C S.i S.credsR S.crBuf S.L (netOf [m2, m4]) = (.err .buffer_to_small, nI) ∧ nI.sent = [m1, m3] ∧
    responderRun S.cfgR S.C S.r S.credsI S.cICap S.L (netOf [m1, m3]) = (.ok oR, nR) ∧ nR.sent = [m2, m4] := by
  obtain ⟨sm2, g2, hv, hr⟩ := H.msg2
  obtain ⟨sm3, m3, h3, hm3, hm3', hp3⟩ := H.msg3 g2
  have h6 : (eadWire e).length < 65536 := by
    have h1 := H.fit_p2_kdf
    have h2 := H.fit_m3
    unfold Agreed.len3 at h2
    omega
  obtain ⟨m4, hg4, hp4, hl4⟩ := H.msg4 (sm2 := sm2) (sm3 := sm3) (e := e) ht.2 ht.1 h6
    (cap := m3.length) (by
      unfold Agreed.len3 at hm3'
      have := H.fit_p2_kdf
      have := H.fit_m3
      unfold Agreed.len3 at this
      have := Setup.tagLen_le A.suite.aead
      rw [head_length]; repeat' split
      all_goals omega)
  have hm2 := (H.m2_len g2).1
  have hfm2 := H.fit_m2
  have hI := C44_initiator_partial S.cfgI S.C S.i S.credsR S.crBuf S.L (netOf [S.m2 A sm2, m4])
  have hR := C44_responder S.cfgR S.C S.r S.credsI S.cICap S.L (netOf [S.m1, m3])
  rw [H.auth] at hI
  have i1 := (hI.2 _ _ _ H.msg1).2 _ (netTx_ok _ rfl)
  have i2 := (i1.2 _ _ (netRx_ok rfl (by omega))).2 _ _ (H.process2 g2 hv) h3
  have i3 := (((i2.2 _ (netEad_ok _ rfl)).2 _ (netTx_ok _ rfl)).2 hm.1).2 _ _ (netRx_ok rfl (by omega))
  have i4 := i3.1 .buffer_to_small ((hp4 0).trans (Setup.ead4_fails hne hlen))
  have r1 := (hR.2 _ _ (netRx_ok rfl H.fit_m1.2)).2 _ _ hr
  have r2 := ((r1.2 _ (netEad_ok _ rfl)).2 _ (netTx_ok _ rfl)).2 _ _ (netRx_ok rfl (by omega))
  have r3 := (((r2.2 _ hp3).2 _ (netEad_ok _ rfl)).2 hm.2).2 _ (by simp only [he]; exact hg4)
  have r4 := r3.2 _ (netTx_ok _ rfl)
  exact ⟨S.m1, S.m2 A sm2, m3, m4, _, _, _, i4, rfl, r4, rfl⟩

/-! ### Concrete runs -/

/-- the example parties with the default configuration -/
def exSetup (method : Int) : Setup :=
  ⟨{}, {}, toyE, toyI method, toyR, toyCredsR, toyCredsI, List.replicate 10 0, 10, 32⟩

/-- the values they agree on -/
def exAgreed (sI sR : Bool) : Agreed where
  sI := sI
  sR := sR
  suite := ⟨0, .ccm64, 8, .x25519, .eddsa, .ccm64⟩
  pkI := if sI then [] else List.replicate 32 3
  gI := if sI then List.replicate 32 2 else []
  pkR := if sR then [] else List.replicate 32 7
  gR := if sR then List.replicate 32 6 else []
  gxy := toyBytes 32 (toyH (xorBytes (List.replicate 32 1) (List.replicate 32 5)))
  grx := toyBytes 32 (toyH (xorBytes (List.replicate 32 1) (List.replicate 32 6)))
  giy := toyBytes 32 (toyH (xorBytes (List.replicate 32 2) (List.replicate 32 5)))
  wI := [0x2b]
  wR := toyR.idCredR

theorem ex_sig {sd : Bool} {suite : Suite} {k : UInt8} :
    SigOk toyE sd suite (List.replicate 32 k) (List.replicate 32 k) (if sd then [] else List.replicate 32 k) := by
  intro h
  subst h
  refine ⟨by simp, fun m => ⟨_, rfl, ?_⟩⟩
  simp [toyE]

theorem ex_aead (suite : Suite) : AeadOk toyE suite := fun _ _ _ _ _ _ _ _ => ⟨_, rfl⟩

theorem ex_wire_i : IdWire [0xa1, 0x04, 0x2b] [0x2b] := by
  have e1 : idKid (-12) = [0xa1, 0x04, 0x2b] := by decide +kernel
  have e2 : enc (.int (-12)) = [0x2b] := by decide +kernel
  rw [← e1, ← e2]
  exact .kid ⟨by omega, by omega⟩

theorem ex_wire_r : IdWire toyR.idCredR toyR.idCredR := by
  have e1 : idX5t (-15) [1, 2] = toyR.idCredR := by decide +kernel
  rw [← e1]
  exact .x5t ⟨by omega, by omega⟩ (by simp)

/-- `Honest` is met by the example parties with method 3 (both static DH) and method 0 (both signatures) -/
theorem ex_honest {method : Int} {sI sR : Bool} (h : (method = 0 ∧ sI = false ∧ sR = false) ∨ (method = 3 ∧ sI = true ∧ sR = true)) :
    (exSetup method).Honest (exAgreed sI sR) where
  lawful := toyE_lawful
  method := by rcases h with ⟨h1, h2, h3⟩ | ⟨h1, h2, h3⟩ <;> subst h1 h2 h3 <;> decide
  suite_ne := by simp [exSetup, toyI]
  suite_len := by simp [exSetup, toyI]
  suite_fit := by simp [exSetup, toyI]
  suite := by rcases h with ⟨h1, h2, h3⟩ | ⟨h1, h2, h3⟩ <;> subst h1 h2 h3 <;> decide +kernel
  suite_supp := by rcases h with ⟨h1, h2, h3⟩ | ⟨h1, h2, h3⟩ <;> subst h1 h2 h3 <;> decide +kernel
  gX := by simp [exSetup, toyI]
  gY := by simp [exSetup, toyR]
  x := by simp [exSetup, toyI]
  y := by simp [exSetup, toyR]
  dh_xy := by rcases h with ⟨h1, h2, h3⟩ | ⟨h1, h2, h3⟩ <;> subst h1 h2 h3 <;> decide +kernel
  dh_r := by rcases h with ⟨h1, h2, h3⟩ | ⟨h1, h2, h3⟩ <;> subst h1 h2 h3 <;> decide +kernel
  dh_i := by rcases h with ⟨h1, h2, h3⟩ | ⟨h1, h2, h3⟩ <;> subst h1 h2 h3 <;> decide +kernel
  sig_r := ex_sig
  sig_i := ex_sig
  cred_r := by rcases h with ⟨h1, h2, h3⟩ | ⟨h1, h2, h3⟩ <;> subst h1 h2 h3 <;> decide +kernel
  cred_i := by rcases h with ⟨h1, h2, h3⟩ | ⟨h1, h2, h3⟩ <;> subst h1 h2 h3 <;> decide +kernel
  cred_r_ne := by simp [exSetup, toyR]
  cred_i_ne := by simp [exSetup, toyI]
  wire_r := ex_wire_r
  wire_i := ex_wire_i
  ead_2 := rfl
  ead_3 := rfl
  aead := ex_aead _
  mem_r := by intro h; cases h
  mem_i := by intro h; cases h
  fit_ri := by rcases h with ⟨h1, h2, h3⟩ | ⟨h1, h2, h3⟩ <;> subst h1 h2 h3 <;> exact ⟨by unfold ECfg.Small; decide +kernel, by decide, by decide, by decide⟩
  fit_rr := by rcases h with ⟨h1, h2, h3⟩ | ⟨h1, h2, h3⟩ <;> subst h1 h2 h3 <;> exact ⟨by unfold ECfg.Small; decide +kernel, by decide, by decide, by decide⟩
  fit_ii := by rcases h with ⟨h1, h2, h3⟩ | ⟨h1, h2, h3⟩ <;> subst h1 h2 h3 <;> exact ⟨by unfold ECfg.Small; decide +kernel, by decide, by decide, by decide⟩
  fit_ir := by rcases h with ⟨h1, h2, h3⟩ | ⟨h1, h2, h3⟩ <;> subst h1 h2 h3 <;> exact ⟨by unfold ECfg.Small; decide +kernel, by decide, by decide, by decide⟩
  fit_id_r := by simp [exSetup, toyR]
  fit_id_i := by simp [exSetup, toyI]
  fit_cr_i := by simp [exSetup, toyR]
  fit_cr_r := by simp [exSetup, toyR]
  fit_cr_r' := by simp [exSetup, toyR]
  fit_cr_buf := by simp [exSetup, toyR]
  fit_ci := by simp [exSetup, toyI]
  fit_ci' := by simp [exSetup, toyI]
  fit_ead1 := by simp [exSetup, toyI]
  fit_m1 := by rcases h with ⟨h1, h2, h3⟩ | ⟨h1, h2, h3⟩ <;> subst h1 h2 h3 <;> decide +kernel
  fit_p2 := by rcases h with ⟨h1, h2, h3⟩ | ⟨h1, h2, h3⟩ <;> subst h1 h2 h3 <;> decide +kernel
  fit_p2_i := by rcases h with ⟨h1, h2, h3⟩ | ⟨h1, h2, h3⟩ <;> subst h1 h2 h3 <;> decide +kernel
  fit_p2_kdf := by rcases h with ⟨h1, h2, h3⟩ | ⟨h1, h2, h3⟩ <;> subst h1 h2 h3 <;> decide +kernel
  fit_m2 := by rcases h with ⟨h1, h2, h3⟩ | ⟨h1, h2, h3⟩ <;> subst h1 h2 h3 <;> decide +kernel
  fit_p3 := by rcases h with ⟨h1, h2, h3⟩ | ⟨h1, h2, h3⟩ <;> subst h1 h2 h3 <;> decide +kernel
  fit_c3 := by rcases h with ⟨h1, h2, h3⟩ | ⟨h1, h2, h3⟩ <;> subst h1 h2 h3 <;> decide +kernel
  fit_p3_r := by rcases h with ⟨h1, h2, h3⟩ | ⟨h1, h2, h3⟩ <;> subst h1 h2 h3 <;> decide +kernel
  fit_m3_r := by rcases h with ⟨h1, h2, h3⟩ | ⟨h1, h2, h3⟩ <;> subst h1 h2 h3 <;> decide +kernel
  fit_m3 := by rcases h with ⟨h1, h2, h3⟩ | ⟨h1, h2, h3⟩ <;> subst h1 h2 h3 <;> decide +kernel
  fit_L := by simp [exSetup]

example : ∃ m1 m2 m3 oI oR nI nR,
    initiatorRun {} toyE (toyI 3) toyCredsR (List.replicate 10 0) 32 (netOf [m2]) = (.ok oI, nI) ∧ nI.sent = [m1, m3] ∧
    responderRun {} toyE toyR toyCredsI 10 32 (netOf [m1, m3]) = (.ok oR, nR) ∧ nR.sent = [m2] ∧
    oI.prkOut = some oR.prkOut :=
  let ⟨m1, m2, m3, oI, oR, nI, nR, a, b, c, d, e, _⟩ := C39_partial (ex_honest (.inr ⟨rfl, rfl, rfl⟩)) ⟨rfl, rfl⟩
  ⟨m1, m2, m3, oI, oR, nI, nR, a, b, c, d, e⟩

/-- the same parties built with MESSAGE_4 and an EAD buffer of 32 bytes -/
def exSetup4 (b : Bool) : Setup :=
  { exSetup 3 with cfgI := { message4 := true, eadSize := 32 }, cfgR := { message4 := true, eadSize := 32 }, r := { toyR with ead4 := if b then eadWire [9, 9] else [] } }

theorem ex_honest4 (b : Bool) : (exSetup4 b).Honest (exAgreed true true) :=
  { ex_honest (method := 3) (sI := true) (sR := true) (.inr ⟨rfl, rfl, rfl⟩) with
    fit_ri := by cases b <;> exact ⟨by unfold ECfg.Small; decide +kernel, by decide, by decide, by decide⟩
    fit_rr := by cases b <;> exact ⟨by unfold ECfg.Small; decide +kernel, by decide, by decide, by decide⟩
    fit_ii := by cases b <;> exact ⟨by unfold ECfg.Small; decide +kernel, by decide, by decide, by decide⟩
    fit_ir := by cases b <;> exact ⟨by unfold ECfg.Small; decide +kernel, by decide, by decide, by decide⟩
    fit_ead1 := by cases b <;> decide +kernel
    fit_m1 := by cases b <;> decide +kernel
    fit_p2 := by cases b <;> decide +kernel
    fit_p2_i := by cases b <;> decide +kernel
    fit_m2 := by cases b <;> decide +kernel
    fit_p3 := by cases b <;> decide +kernel
    fit_c3 := by cases b <;> decide +kernel
    fit_p3_r := by cases b <;> decide +kernel
    fit_m3_r := by cases b <;> decide +kernel }

/-- the hypotheses of `C39_message_4_partial` and of `C39_false_ead_4` (with an EAD_4 of two bytes) are met -/
example : (exSetup4 false).Honest (exAgreed true true) ∧ ((exSetup4 false).cfgI.message4 = true ∧ (exSetup4 false).cfgR.message4 = true) ∧
    (exAgreed true true).suite.aead.tagLen ≤ 32 + 8 := ⟨ex_honest4 false, ⟨rfl, rfl⟩, by decide⟩
example : (exSetup4 true).Honest (exAgreed true true) ∧ (exSetup4 true).r.ead4 = eadWire [9, 9] ∧ (eadWire [9, 9]).length + (exAgreed true true).suite.aead.tagLen ≤ 32 + 8 ∧
    (eadWire [9, 9]).length + 2 < (exAgreed true true).wI.length + smWire true (exAgreed true true).suite :=
  ⟨ex_honest4 true, rfl, by decide +kernel, by decide +kernel⟩

/-- C39 is false of the code: honest parties, method 1, ID_CRED_I = {4: -12}.  message_3 (with a signature) is longer
than message_2 (with a MAC), so the initiator's buffer, whose length was set to that of message_2, is too small.  The
initiator returns ok without PRK_out and the responder, who receives message_2 again, an error. -/
theorem C39_false_method_1 :
    ∃ m1 oI nI, msg1Gen {} toyE (toyI 1) = .ok m1 ∧ responderRun {} toyE toyR toyCredsI 10 32 (netOf [m1.1]) =
        (.err .transport_deinitialized, { netOf [] with sent := [exMsg2 1 toyR], eads := [[]] }) ∧
      initiatorRun {} toyE (toyI 1) toyCredsR (List.replicate 8 0) 32 (netOf [exMsg2 1 toyR]) = (.ok oI, nI) ∧
      oI.prkOut = none ∧ nI.sent = [m1.1, exMsg2 1 toyR] ∧
      (responderRun {} toyE toyR toyCredsI 10 32 (netOf nI.sent)).1.isOk = false := by
  have h : (initiatorRun {} toyE (toyI 1) toyCredsR (List.replicate 8 0) 32 (netOf [exMsg2 1 toyR])).1.isOk = true := by
    decide +kernel
  have h' : (msg1Gen {} toyE (toyI 1)).isOk = true := by decide +kernel
  refine ⟨(msg1Gen {} toyE (toyI 1)).getD ⟨[], ⟨0, .ccm64, 8, .x25519, .eddsa, .ccm64⟩, []⟩,
    ((initiatorRun {} toyE (toyI 1) toyCredsR (List.replicate 8 0) 32 (netOf [exMsg2 1 toyR])).1).getD ⟨[], none, [], []⟩,
    (initiatorRun {} toyE (toyI 1) toyCredsR (List.replicate 8 0) 32 (netOf [exMsg2 1 toyR])).2,
    R.eq_getD _ h', ?_, Prod.ext (R.eq_getD _ h) rfl, ?_, ?_, ?_⟩
  · decide +kernel
  · decide +kernel
  · decide +kernel
  · decide +kernel

/-- the example responder with a non-empty EAD_2, encoded (h'09' as a byte string) or raw -/
def eadR2 (raw : Bool) : RCtx := { toyR with ead2 := if raw then [9, 9] else [0x41, 9] }
/-- its message_2 for method 3 in a build with EAD_SIZE 8 -/
def eadMsg2 (raw : Bool) : Bytes :=
  ((msg2Gen { eadSize := 8 } toyE (eadR2 raw) exMsg1 10 (List.replicate 8 0)).getD
    ⟨[], ⟨⟨0, .ccm64, 8, .x25519, .eddsa, .ccm64⟩, false, [], [], [], []⟩⟩).1

/-- C39 is false of the code with EAD_2: the responder's MAC is over the bytes given by the application, the
initiator's over the content of the byte string it decoded, so an honest run fails, whatever way EAD_2 is given. -/
theorem C39_false_ead (raw : Bool) :
    (msg2Gen { eadSize := 8 } toyE (eadR2 raw) exMsg1 10 (List.replicate 8 0)).isOk = true ∧
    (initiatorRun { eadSize := 8 } toyE (toyI 3) toyCredsR (List.replicate 10 0) 32 (netOf [eadMsg2 raw])).1 =
      .err .mac_authentication_failed := by
  cases raw <;> decide +kernel

end Verif.Edhoc
