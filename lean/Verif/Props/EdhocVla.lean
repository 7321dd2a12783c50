import Verif.Model.EdhocVla
import Verif.Props.Vla
import Verif.Props.EdhocAuthn
import Verif.Lemmas.EdhocToy
/-
C82 for EDHOC: the library built with variable length arrays behaves as the default build.
-/
namespace Verif.Edhoc.VlaBuild
open Verif Verif.Vla

theorem edhocKdf_same (cfg : ECfg) (C : ECrypto) (prk : Bytes) (l : Nat) (x : Bytes) (L : Nat) :
    SameR (Edhoc.edhocKdf cfg C prk l x L) (edhocKdf cfg C prk l x L) :=
  (new_same _ _).bind fun _ _ => .refl _

theorem th2Calc_same (C : ECrypto) (h g : Bytes) : SameR (Edhoc.th2Calc C h g) (th2Calc C h g) :=
  (new_same _ _).bind fun _ _ => .refl _

theorem th34Calc_same (cfg : ECfg) (C : ECrypto) (th pt cred : Bytes) : SameR (Edhoc.th34Calc cfg C th pt cred) (th34Calc cfg C th pt cred) :=
  (new_same _ _).bind fun _ _ => .refl _

theorem prkDerive_same (cfg : ECfg) (C : ECrypto) (sd : Bool) (su : Suite) (l : Nat) (x p pk sk : Bytes) :
    SameR (Edhoc.prkDerive cfg C sd su l x p pk sk) (prkDerive cfg C sd su l x p pk sk) := by
  unfold Edhoc.prkDerive prkDerive
  split
  · exact (SameR.refl _).bind fun _ _ => (edhocKdf_same ..).bind fun _ _ => .refl _
  · exact .refl _

theorem macCr_same (cfg : ECfg) (c m : Bytes) : SameR (Edhoc.macCr cfg c m) (macCr cfg c m) := by
  unfold Edhoc.macCr macCr
  split
  · exact .refl _
  · exact (new_same _ _).bind fun _ _ => .refl _

theorem macContext_same (cfg : ECfg) (c m th id cred ead : Bytes) :
    SameR (Edhoc.macContext cfg c m th id cred ead) (macContext cfg c m th id cred ead) :=
  (new_same _ _).bind fun _ _ => (SameR.refl _).bind fun _ _ => (new_same _ _).bind fun _ _ => (macCr_same ..).bind fun _ _ => .refl _

theorem mac_same (cfg : ECfg) (C : ECrypto) (prk c m th id cred ead : Bytes) (l : Nat) (sd : Bool) (su : Suite) :
    SameR (Edhoc.mac cfg C prk c m th id cred ead l sd su) (mac cfg C prk c m th id cred ead l sd su) :=
  (macContext_same ..).bind fun _ _ => edhocKdf_same ..

theorem sigStruct_same (cfg : ECfg) (th id cred ead m : Bytes) : SameR (Edhoc.sigStruct cfg th id cred ead m) (sigStruct cfg th id cred ead m) :=
  (new_same _ _).bind fun _ _ => (SameR.refl _).bind fun _ _ => (new_same _ _).bind fun _ _ => .refl _

theorem sigOrMacGen_same (cfg : ECfg) (C : ECrypto) (sd : Bool) (su : Suite) (sk pk prk c m th id cred ead : Bytes) (l : Nat) :
    SameR (Edhoc.sigOrMacGen cfg C sd su sk pk prk c m th id cred ead l) (sigOrMacGen cfg C sd su sk pk prk c m th id cred ead l) := by
  refine (mac_same ..).bind fun x _ => ?_
  split
  · exact .refl _
  · exact (sigStruct_same ..).bind fun _ _ => .refl _

theorem sigOrMacVerify_same (cfg : ECfg) (C : ECrypto) (sd : Bool) (su : Suite) (pk prk c m th id cred ead : Bytes) (l : Nat) (r : Bytes) :
    SameR (Edhoc.sigOrMacVerify cfg C sd su pk prk c m th id cred ead l r) (sigOrMacVerify cfg C sd su pk prk c m th id cred ead l r) := by
  refine (mac_same ..).bind fun x _ => ?_
  split
  · exact .refl _
  · exact (sigStruct_same ..).bind fun _ _ => .refl _

theorem keyGen_same (cfg : ECfg) (C : ECrypto) (ct : Ctxt) (prk th : Bytes) (n : Nat) :
    SameR (Edhoc.keyGen cfg C ct prk th n) (keyGen cfg C ct prk th n) := by
  unfold Edhoc.keyGen keyGen
  split
  · exact (new_same _ _).bind fun _ _ => (edhocKdf_same ..).bind fun _ _ => .refl _
  · exact (edhocKdf_same ..).bind fun _ _ => (edhocKdf_same ..).bind fun _ _ => .refl _

theorem crField_same (cfg : ECfg) (c : Bytes) : SameR (Edhoc.crField cfg c) (crField cfg c) := by
  unfold Edhoc.crField crField
  split
  · exact .refl _
  · exact (new_same _ _).bind fun _ _ => .refl _

theorem plaintextGen_same (cfg : ECfg) (ct : Ctxt) (c id sm ead : Bytes) (cap : Nat) :
    SameR (Edhoc.plaintextGen cfg ct c id sm ead cap) (plaintextGen cfg ct c id sm ead cap) := by
  refine (new_same _ _).bind fun _ _ => (SameR.refl _).bind fun _ _ => ?_
  cases ct with
  | c2 => exact (crField_same ..).bind fun _ _ => .refl _
  | c3 => exact .refl _
  | c4 => exact .refl _

theorem append_le {a b r : Bytes} {cap : Nat} (hcap : cap < 2 ^ 32) (ha : a.length ≤ cap) (h : byteArrayAppend a b cap = .ok r) : r.length ≤ cap := by
  unfold byteArrayAppend at h
  split at h
  · cases h
  · obtain ⟨s, hs, hr⟩ := R.bind_eq_ok.1 h
    obtain ⟨he, hl⟩ := Verif.memcpyS_ok.1 hs
    simp only [R.pure_eq, R.ok.injEq] at hr
    rw [← hr, he, List.length_append]
    omega

theorem plaintextGen_le {cfg : ECfg} {ct : Ctxt} {c id sm ead : Bytes} {cap : Nat} {p : Bytes} (hcap : cap < 2 ^ 32)
    (h : Edhoc.plaintextGen cfg ct c id sm ead cap = .ok p) : p.length ≤ cap := by
  obtain ⟨_, _, h⟩ := R.bind_eq_ok.1 h
  obtain ⟨_, _, h⟩ := R.bind_eq_ok.1 h
  have h0 : ([] : Bytes).length ≤ cap := Nat.zero_le _
  cases ct with
  | c2 =>
    obtain ⟨_, _, h⟩ := R.bind_eq_ok.1 h
    obtain ⟨_, h1, h⟩ := R.bind_eq_ok.1 h
    obtain ⟨_, _, h⟩ := R.bind_eq_ok.1 h
    obtain ⟨_, h2, h⟩ := R.bind_eq_ok.1 h
    obtain ⟨_, h3, h⟩ := R.bind_eq_ok.1 h
    exact append_le hcap (append_le hcap (append_le hcap (append_le hcap h0 h1) h2) h3) h
  | c3 =>
    obtain ⟨_, _, h⟩ := R.bind_eq_ok.1 h
    obtain ⟨_, h2, h⟩ := R.bind_eq_ok.1 h
    obtain ⟨_, h3, h⟩ := R.bind_eq_ok.1 h
    exact append_le hcap (append_le hcap (append_le hcap h0 h2) h3) h
  | c4 => exact append_le hcap h0 h

/-- the ciphertext array of SIZE bytes is as good as the one of BUF_SIZE bytes -/
theorem ctxtEncrypt_size (C : ECrypto) (ct : Ctxt) (su : Suite) (key iv th p : Bytes) {b b' : Nat} (h : (if ct = .c2 then p.length else p.length + su.aead.tagLen) ≤ b)
    (h' : (if ct = .c2 then p.length else p.length + su.aead.tagLen) ≤ b') : ctxtEncrypt C ct su key iv th p b' = ctxtEncrypt C ct su key iv th p b := by
  unfold ctxtEncrypt
  split
  · rename_i hc
    rw [if_pos hc] at h h'
    rw [if_neg (by omega), if_neg (by omega)]
  · rename_i hc
    rw [if_neg hc] at h h'
    refine congrArg (assocData th >>= ·) (funext fun aad => ?_)
    rw [if_neg (by omega), if_neg (by omega)]

theorem ciphertextGen_same (cfg : ECfg) (C : ECrypto) (ct : Ctxt) (su : Suite) (c id sm ead prk th : Bytes) {b b' cap : Nat}
    (hcap : cap < 2 ^ 32) (h : (if ct = .c2 then cap else cap + su.aead.tagLen) ≤ b) (h' : (if ct = .c2 then cap else cap + su.aead.tagLen) ≤ b') :
    SameR (Edhoc.ciphertextGen cfg C ct su c id sm ead prk th b cap) (ciphertextGen cfg C ct su c id sm ead prk th b' cap) := by
  refine (plaintextGen_same ..).bind fun p hp => (keyGen_same ..).bind fun k _ => ?_
  have hl := plaintextGen_le hcap hp
  obtain ⟨key, iv⟩ := k
  dsimp only
  rw [ctxtEncrypt_size C ct su key iv th p (b := b) (b' := b') (by split at h <;> split <;> omega) (by split at h' <;> split <;> omega)]
  exact .refl _

/-- message 4 has one array of CIPHERTEXT4_SIZE bytes in both builds -/
theorem ciphertextGen_same_size (cfg : ECfg) (C : ECrypto) (ct : Ctxt) (su : Suite) (c id sm ead prk th : Bytes) (b cap : Nat) :
    SameR (Edhoc.ciphertextGen cfg C ct su c id sm ead prk th b cap) (ciphertextGen cfg C ct su c id sm ead prk th b cap) :=
  (plaintextGen_same ..).bind fun _ _ => (keyGen_same ..).bind fun _ _ => .refl _

/-- the library decrypts to what is left without the tag -/
def DecLen (C : ECrypto) : Prop := ∀ k n a t p c, C.aeadDec k n a t c = some p → c.length = p.length + t

theorem ctxtDecrypt_same (cfg : ECfg) {C : ECrypto} (hC : DecLen C) (ct : Ctxt) (su : Suite) (prk th c : Bytes) {n : Nat} (h : c.length ≤ n) :
    SameR (Edhoc.ctxtDecrypt cfg C ct su prk th c) (ctxtDecrypt cfg C ct su prk th c n) := by
  refine (keyGen_same ..).bind fun k _ => (SameR.refl _).bind fun aad _ => ?_
  split
  · rw [if_neg (by omega)]; exact .refl _
  · split
    · exact .refl _
    · cases hd : C.aeadDec k.1 k.2 aad su.aead.tagLen c with
      | none => exact .refl _
      | some p =>
        have := hC _ _ _ _ _ _ hd
        dsimp only
        rw [if_neg (by omega)]
        exact .refl _

theorem msg2Encode_same (cfg : ECfg) (g c : Bytes) : SameR (Edhoc.msg2Encode cfg g c) (msg2Encode cfg g c) :=
  (new_same _ _).bind fun _ _ => .refl _

theorem check_le {b n : Nat} {x : Unit} (h : checkBufferSize b n = .ok x) : n ≤ b := by
  unfold checkBufferSize at h
  split at h
  · cases h
  · omega

/-- the configured arrays are smaller than 4 GiB -/
def Below (cfg : ECfg) : Prop := cfg.plaintext2Size < 2 ^ 32 ∧ cfg.plaintext3Size < 2 ^ 32

theorem ctxt2Gen_same {cfg : ECfg} (hcfg : Below cfg) (C : ECrypto) (c : RCtx) (su : Suite) (sd : Bool) (p2 p3 th2 : Bytes) :
    SameR (Edhoc.ctxt2Gen cfg C c su sd p2 p3 th2) (ctxt2Gen cfg C c su sd p2 p3 th2) := by
  refine (sigOrMacGen_same ..).bind fun sm _ => (new_same _ _).bind fun _ hb => ?_
  have := check_le hb
  exact ciphertextGen_same cfg C .c2 su _ _ _ _ _ _ (Nat.lt_of_le_of_lt this hcfg.1) (by rw [if_pos rfl]; exact this) (by rw [if_pos rfl]; exact Nat.le_refl _)

theorem msg2Build_same {cfg : ECfg} (hcfg : Below cfg) (C : ECrypto) (c : RCtx) (m1 : Bytes) (p : Parsed1) :
    SameR (Edhoc.msg2Build cfg C c m1 p) (msg2Build cfg C c m1 p) := by
  refine (SameR.refl _).bind fun su _ => ?_
  refine (th2Calc_same ..).bind fun th2 _ => (SameR.refl _).bind fun g _ => (prkDerive_same ..).bind fun k _ => ?_
  refine (ctxt2Gen_same hcfg ..).bind fun x _ => (msg2Encode_same ..).bind fun m _ => (th34Calc_same ..).bind fun _ _ => .refl _

theorem msg2Gen_same {cfg : ECfg} (hcfg : Below cfg) (C : ECrypto) (c : RCtx) (m1 : Bytes) (n : Nat) (e : Bytes) :
    SameR (Edhoc.msg2Gen cfg C c m1 n e) (msg2Gen cfg C c m1 n e) := by
  refine (SameR.refl _).bind fun p _ => ?_
  split
  · exact .refl _
  · exact msg2Build_same hcfg ..

theorem msg2Auth_same (cfg : ECfg) (C : ECrypto) (c : ICtx) (creds : List Cred) (su : Suite) (sI sR : Bool) (gY th2 p2 cR mem : Bytes) (s : Split) (p : Bytes) :
    SameR (Edhoc.msg2Auth cfg C c creds su sI sR gY th2 p2 cR mem s p) (msg2Auth cfg C c creds su sI sR gY th2 p2 cR mem s p) := by
  refine (SameR.refl _).bind fun x _ => (prkDerive_same ..).bind fun _ _ => (sigOrMacVerify_same ..).bind fun _ _ => ?_
  exact (th34Calc_same ..).bind fun _ _ => (prkDerive_same ..).bind fun _ _ => .refl _

theorem msg2Process_same (cfg : ECfg) {C : ECrypto} (hC : DecLen C) (c : ICtx) (creds : List Cred) (su : Suite) (h1 m2 : Bytes) (sI sR : Bool) (cb ead : Bytes) :
    SameR (Edhoc.msg2Process cfg C c creds su h1 m2 sI sR cb ead) (msg2Process cfg C c creds su h1 m2 sI sR cb ead) := by
  refine (new_same _ _).bind fun _ _ => (SameR.refl _).bind fun x hx => (SameR.refl _).bind fun g _ => (th2Calc_same ..).bind fun th2 _ => ?_
  have hl : x.2.length ≤ ctxt2Len m2.length := by
    obtain ⟨b, _, h⟩ := R.bind_eq_ok.1 hx
    split at h
    · cases h
    · obtain ⟨y, hy, h⟩ := R.bind_eq_ok.1 h
      simp only [R.pure_eq, R.ok.injEq] at h
      obtain ⟨h1, h2⟩ := Verif.memcpyS_ok.1 hy
      rw [← h, h1]; exact h2
  refine (ctxtDecrypt_same cfg hC _ _ _ _ _ hl).bind fun p _ => (SameR.refl _).bind fun y _ => ?_
  exact msg2Auth_same ..

theorem asBstr_ge (n : Nat) : n ≤ asBstr n := by unfold asBstr; omega

theorem msg3Build_same {cfg : ECfg} (hcfg : Below cfg) (C : ECrypto) (c : ICtx) (su : Suite) (sI : Bool) (s : IState) (n : Nat) :
    SameR (Edhoc.msg3Build cfg C c su sI s n) (msg3Build cfg C c su sI s n) := by
  refine (new_same _ _).bind fun _ ha => (new_same _ _).bind fun _ hb => (sigOrMacGen_same ..).bind fun sm _ => ?_
  have h1 := check_le hb
  have h2 := asBstr_ge (c.idCredI.length + asBstr sigOrMacSize + c.ead3.length)
  refine (ciphertextGen_same cfg C .c3 su _ _ _ _ _ _ (Nat.lt_of_le_of_lt (check_le ha) hcfg.2) (by rw [if_neg (by decide)]; omega) (by rw [if_neg (by decide)]; omega)).bind fun x _ => .refl _

/-- `msg3_gen` ignores the error of `msg3_only_gen`, so not even the code differs here -/
theorem msg3OnlyGen_same {cfg : ECfg} (hcfg : Below cfg) (C : ECrypto) (c : ICtx) (su : Suite) (sI : Bool) (s : IState) (m2 : Bytes) (L : Nat) :
    msg3OnlyGen cfg C c su sI s m2 L = Edhoc.msg3OnlyGen cfg C c su sI s m2 L := by
  unfold msg3OnlyGen Edhoc.msg3OnlyGen th4Of
  rcases msg3Build_same hcfg C c su sI s m2.length with h | ⟨h1, h2⟩
  · rw [h]
    cases Edhoc.msg3Build cfg C c su sI s m2.length with
    | ub => rfl
    | err e => rfl
    | ok x =>
      dsimp only
      rcases th34Calc_same cfg C s.th3 x.2 c.credI with h | ⟨h1, h2⟩
      · rw [h]
        cases Edhoc.th34Calc cfg C s.th3 x.2 c.credI with
        | ub => rfl
        | err e => rfl
        | ok th4 =>
          dsimp only
          rcases edhocKdf_same cfg C s.prk4e3m labelPrkOut th4 L with h | ⟨h1, h2⟩
          · rw [h]; rfl
          · rw [h1, h2]
      · rw [h1, h2]
  · rw [h1, h2]

theorem msg3Gen_same {cfg : ECfg} (hcfg : Below cfg) {C : ECrypto} (hC : DecLen C) (c : ICtx) (creds : List Cred) (su : Suite) (h1 m2 cb ead : Bytes) (L : Nat) :
    SameR (Edhoc.msg3Gen cfg C c creds su h1 m2 cb ead L) (msg3Gen cfg C c creds su h1 m2 cb ead L) := by
  unfold Edhoc.msg3Gen msg3Gen
  refine (msg2Process_same cfg hC ..).bind fun s _ => ?_
  rw [msg3OnlyGen_same hcfg]
  exact .refl _

theorem msg3Auth_same (cfg : ECfg) (C : ECrypto) (c : RCtx) (creds : List Cred) (rs : RState) (s : Split) (p : Bytes) (L : Nat) :
    SameR (Edhoc.msg3Auth cfg C c creds rs s p L) (msg3Auth cfg C c creds rs s p L) := by
  refine (SameR.refl _).bind fun x _ => (prkDerive_same ..).bind fun _ _ => (sigOrMacVerify_same ..).bind fun _ _ => ?_
  exact (th34Calc_same ..).bind fun _ _ => (edhocKdf_same ..).bind fun _ _ => .refl _

theorem msg3Process_same (cfg : ECfg) {C : ECrypto} (hC : DecLen C) (c : RCtx) (creds : List Cred) (rs : RState) (m3 : Bytes) (L : Nat) :
    SameR (Edhoc.msg3Process cfg C c creds rs m3 L) (msg3Process cfg C c creds rs m3 L) := by
  refine (new_same _ _).bind fun _ _ => (SameR.refl _).bind fun c3 _ => (new_same _ _).bind fun _ _ => ?_
  refine (ctxtDecrypt_same cfg hC _ _ _ _ _ (Nat.le_refl _)).bind fun p _ => (SameR.refl _).bind fun y _ => ?_
  exact msg3Auth_same ..

theorem msg4Gen_same (cfg : ECfg) (C : ECrypto) (e : Bytes) (su : Suite) (k th : Bytes) (n : Nat) :
    SameR (Edhoc.msg4Gen cfg C e su k th n) (msg4Gen cfg C e su k th n) :=
  (ciphertextGen_same_size ..).bind fun _ _ => .refl _

theorem msg4Process_same (cfg : ECfg) {C : ECrypto} (hC : DecLen C) (su : Suite) (k th m4 : Bytes) (n : Nat) :
    SameR (Edhoc.msg4Process cfg C su k th m4 n) (msg4Process cfg C su k th m4 n) := by
  refine (SameR.refl _).bind fun c4 _ => (new_same _ _).bind fun _ _ => ?_
  exact (ctxtDecrypt_same cfg hC _ _ _ _ _ (Nat.le_refl _)).bind fun _ _ => .refl _

/-- **C82 (EDHOC, initiator).**  For every configuration, crypto library, parameters, credentials, network and buffers,
`edhoc_initiator_run_extended` of the VLA build sends the same messages, hands the same data to the callbacks and gives the same
result as the default build; only the refusal of something that is too large for a local buffer has another error code. -/
theorem C82_edhoc_initiator {cfg : ECfg} (hcfg : Below cfg) {C : ECrypto} (hC : DecLen C) (c : ICtx) (creds : List Cred) (crBuf : Bytes) (L : Nat) (net : Net) :
    Same (Edhoc.initiatorRun cfg C c creds crBuf L net) (initiatorRun cfg C c creds crBuf L net) := by
  unfold Edhoc.initiatorRun initiatorRun
  refine (Same.refl _).bind fun x t _ => (Same.refl _).bind fun _ t _ => (Same.refl _).bind fun m2 t _ => ?_
  refine (Same.lift (msg3Gen_same hcfg hC ..) t).bind fun y t _ => (Same.refl _).bind fun _ t _ => (Same.refl _).bind fun _ t _ => ?_
  cases cfg.message4 with
  | true =>
    refine Same.bind ?_ fun _ t _ => .refl _
    exact (Same.refl _).bind fun m4 t _ => (Same.lift (msg4Process_same cfg hC ..) t).bind fun _ t _ => .refl _
  | false => exact .refl _

/-- **C82 (EDHOC, responder).** -/
theorem C82_edhoc_responder {cfg : ECfg} (hcfg : Below cfg) {C : ECrypto} (hC : DecLen C) (c : RCtx) (creds : List Cred) (cICap L : Nat) (net : Net) :
    Same (Edhoc.responderRun cfg C c creds cICap L net) (responderRun cfg C c creds cICap L net) := by
  unfold Edhoc.responderRun responderRun
  refine (Same.refl _).bind fun m1 t _ => (Same.lift (msg2Gen_same hcfg ..) t).bind fun x t _ => (Same.refl _).bind fun _ t _ => ?_
  refine (Same.refl _).bind fun _ t _ => (Same.refl _).bind fun m3 t _ => (Same.lift (msg3Process_same cfg hC ..) t).bind fun o t _ => ?_
  refine (Same.refl _).bind fun _ t _ => ?_
  cases cfg.message4 with
  | true =>
    refine Same.bind ?_ fun _ t _ => .refl _
    exact (Same.lift (msg4Gen_same ..) t).bind fun _ t _ => .refl _
  | false => exact .refl _

/-- **C82 (EDHOC, exporter).**  Exported and updated keys are the same. -/
theorem C82_edhoc_exporter (cfg : ECfg) (C : ECrypto) (k x : Bytes) (label L : Nat) :
    SameR (Edhoc.prkOut2exporter cfg C k L) (prkOut2exporter cfg C k L) ∧ SameR (Edhoc.edhocExporter cfg C label k L) (edhocExporter cfg C label k L) ∧
    SameR (Edhoc.prkOutUpdate cfg C k x L) (prkOutUpdate cfg C k x L) :=
  ⟨edhocKdf_same .., edhocKdf_same .., edhocKdf_same ..⟩

/-! ### the hypotheses are met -/

/-- the sizes of the default configuration, and a lawful crypto library -/
example : Below {} ∧ DecLen toyE := ⟨⟨by decide, by decide⟩, toyE_lawful.base.dec_len⟩

/-- a responder with a credential that does not fit: the one case in which the builds differ, and only in the code -/
example : (th34Calc {} toyE [] [] (List.replicate 2000 1)) = .err .vla_insufficient_size ∧
    (Edhoc.th34Calc {} toyE [] [] (List.replicate 2000 1)) = .err .buffer_to_small ∧
    th34Calc {} toyE (List.replicate 32 1) [1, 2] [3, 4] = Edhoc.th34Calc {} toyE (List.replicate 32 1) [1, 2] [3, 4] := by
  decide +kernel

/-- the initiator of the VLA build sends message 1 and takes the answer apart as the default build does -/
example : (initiatorRun {} toyE (toyI 0) toyCredsR (List.replicate 10 0) 32 (netOf [[0x41, 0]])).2.sent.length = 1 ∧
    (initiatorRun {} toyE (toyI 0) toyCredsR (List.replicate 10 0) 32 (netOf [[0x41, 0]])).1 = .err .vla_insufficient_size ∧
    (Edhoc.initiatorRun {} toyE (toyI 0) toyCredsR (List.replicate 10 0) 32 (netOf [[0x41, 0]])).1 = .err .buffer_to_small := by
  decide +kernel

end Verif.Edhoc.VlaBuild
