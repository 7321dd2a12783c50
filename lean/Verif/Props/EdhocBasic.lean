import Verif.Model.EdhocRun
import Verif.Spec.EdhocSpec
import Verif.Lemmas.EdhocCborLemmas
import Verif.Lemmas.EdhocToy
/-
C35 (cipher suites and methods), C36 (supported suites), C38 (KDF inputs), C46 (CBOR wrappers),
C47 (transcript hashes), C50 (exporter).
-/
namespace Verif.Edhoc
open Verif Verif.Cbor

/-! ### C35 -/

/-- the parameters of a suite as COSE numbers -/
def Suite.params (s : Suite) : Int × Nat × Int × Int × Int :=
  (s.aead.cose, s.macLen, s.ecdh.cose, s.sign.cose, s.appAead.cose)

/-- C35: a label is accepted exactly if RFC 9528 defines it (among 0..3), with the RFC's parameters;
every other label gives `unsupported_cipher_suite`. -/
theorem C35_suites (label : Nat) :
    (∀ p, EdhocSpec.suite label = some p →
      ∃ s, getSuite label = .ok s ∧ s.params = p ∧ s.label = label) ∧
    (EdhocSpec.suite label = none → getSuite label = .err .unsupported_cipher_suite) := by
  rcases label with _ | _ | _ | _ | n
  · exact ⟨fun p h => ⟨_, rfl, by cases h; rfl, rfl⟩, fun h => by cases h⟩
  · exact ⟨fun p h => ⟨_, rfl, by cases h; rfl, rfl⟩, fun h => by cases h⟩
  · exact ⟨fun p h => ⟨_, rfl, by cases h; rfl, rfl⟩, fun h => by cases h⟩
  · exact ⟨fun p h => ⟨_, rfl, by cases h; rfl, rfl⟩, fun h => by cases h⟩
  · refine ⟨fun p h => by simp [EdhocSpec.suite] at h, fun _ => ?_⟩
    unfold getSuite
    rw [if_neg (by omega), if_neg (by omega), if_neg (by omega), if_neg (by omega)]

/-- C35: the static-DH roles of a defined method are the RFC's. -/
theorem C35_methods {m : Int} {roles before : Bool × Bool} (h : EdhocSpec.method m = some roles) :
    authType m before = roles := by
  unfold EdhocSpec.method at h
  split at h <;> cases h <;> rfl

theorem method_none {m : Int} : EdhocSpec.method m = none ↔ (m > 3 ∨ m < 0) := by
  unfold EdhocSpec.method
  split <;> simp
  rename_i h0 h1 h2 h3
  have a0 : m ≠ 0 := fun h => h0 h
  have a1 : m ≠ 1 := fun h => h1 h
  have a2 : m ≠ 2 := fun h => h2 h
  have a3 : m ≠ 3 := fun h => h3 h
  omega

/-- C35: the responder answers a message_1 with an undefined method with an error and sends nothing. -/
theorem C35_responder_method_partial {cfg : ECfg} {C : ECrypto} {c : RCtx} {creds : List Cred} {cICap L : Nat}
    {m1 : Bytes} {m : Msg1} (hm : decMsg1 cfg.strictCbor m1 = some m) (hmeth : EdhocSpec.method m.method = none)
    {n : Net} {q : List (Err ⊕ Bytes)} (hq : n.rxq = .inr m1 :: q) (hl : m1.length ≤ cfg.msgMaxSize) :
    (responderRun cfg C c creds cICap L n).1 = .err .wrong_parameter ∧
    (responderRun cfg C c creds cICap L n).2.sent = n.sent := by
  have h1 : netRx cfg.msgMaxSize n = (.ok m1, { n with rxq := q }) := by
    unfold netRx; rw [hq]; simp only; rw [if_pos hl]
  have h2 : ∀ e, msg2Gen cfg C c m1 cICap e = .err .wrong_parameter := by
    intro e
    unfold msg2Gen msg1Parse
    rw [hm]; simp only
    rw [if_pos (method_none.1 hmeth)]; rfl
  unfold responderRun
  rw [M.bind_ok h1, M.run_bind, M.run_lift, h2]
  exact ⟨rfl, rfl⟩

/-- C35: a suite the table does not define stops the initiator before anything is sent, and the
responder before message_2. -/
theorem C35_initiator_suite {cfg : ECfg} {C : ECrypto} {c : ICtx}
    (h : EdhocSpec.suite (c.suitesI.getLastD 0).toNat = none) : (msg1Gen cfg C c).isOk = false := by
  cases hr : msg1Gen cfg C c with
  | ok v =>
    exfalso
    unfold msg1Gen at hr
    obtain ⟨a1, _, hr⟩ := R.bind_eq_ok.1 hr
    obtain ⟨a2, _, hr⟩ := R.bind_eq_ok.1 hr
    obtain ⟨a3, _, hr⟩ := R.bind_eq_ok.1 hr
    rw [(C35_suites _).2 h] at hr
    cases hr
  | err e => rfl
  | ub => rfl

theorem C35_responder_suite {cfg : ECfg} {C : ECrypto} {c : RCtx} {m1 ead : Bytes} {cICap : Nat} {p : Parsed1}
    (hp : msg1Parse cfg m1 cICap ead = .ok p)
    (h : EdhocSpec.suite (p.suites.getLastD 0).toNat = none) : (msg2Gen cfg C c m1 cICap ead).isOk = false := by
  unfold msg2Gen
  rw [hp]; simp only [R.ok_bind]
  split
  · rfl
  · unfold msg2Build
    rw [(C35_suites _).2 h]; rfl

/-- C35 is false for the initiator's own method: an undefined method is not refused, the run treats it
as method 0. -/
theorem C35_false_initiator_method {cfg : ECfg} {C : ECrypto} {c : ICtx} {creds : List Cred} {suite : Suite}
    {h1 m2 crBuf ead : Bytes} {L : Nat} (h : EdhocSpec.method c.method = none) :
    msg3Gen cfg C c creds suite h1 m2 crBuf ead L =
      msg3Gen cfg C { c with method := 0 } creds suite h1 m2 crBuf ead L := by
  have : authType c.method (false, false) = authType 0 (false, false) := by
    have := method_none.1 h
    unfold authType
    rw [if_neg (by omega), if_neg (by omega), if_neg (by omega), if_neg (by omega), if_pos rfl]
  unfold msg3Gen
  rw [this]
  rfl

/-- the witness: with METHOD 7 message_1 is sent -/
theorem C35_false_witness : ((initiatorRun {} toyE (toyI 7) toyCredsR [] 32 (netOf [])).2.sent).length = 1 := by
  decide +kernel

example : EdhocSpec.suite 2 = some (10, 8, 1, -7, 10) := rfl
example : (getSuite 2).isOk = true := rfl

/-! ### C36 -/

/-- the suite an initiator selects in a message_1: the last one of its list (RFC 9528, 5.2.1) -/
def selectedSuite : List Int ⊕ Int → Int
  | .inr i => i
  | .inl l => l.getLastD 0

/-- C36 is false: whatever a non-empty list of supported suites contains, the check succeeds. -/
theorem C36_false (selected s : UInt8) (suitesR : Bytes) : suiteSupported selected (s :: suitesR) = true := rfl

/-- message_1 of an initiator that offers only suite 2 -/
def suite2Msg1 : Bytes := ((msg1Gen {} toyE { toyI 0 with suitesI := [2] }).getD ([], ⟨0, .ccm64, 8, .p256, .es256, .ccm64⟩, [])).1

/-- the witness: the responder supports suite 0 only, message_1 selects suite 2, message_2 is sent. -/
theorem C36_false_witness :
    (decMsg1 true suite2Msg1).map (fun m => selectedSuite m.suites) = some 2 ∧ toyR.suitesR = [0] ∧
    ((responderRun {} toyE toyR toyCredsI 10 32 (netOf [suite2Msg1])).2.sent).length = 1 := by
  refine ⟨?_, rfl, ?_⟩ <;> decide +kernel

/-- What remains of C36: a responder without any supported suite never sends message_2, and a suite
that is not one of the four defined ones is never used. -/
theorem C36_partial {cfg : ECfg} {C : ECrypto} {c : RCtx} {m1 ead : Bytes} {cICap : Nat} {r : Bytes × RState}
    (h : msg2Gen cfg C c m1 cICap ead = .ok r) :
    c.suitesR ≠ [] ∧ ∃ p, msg1Parse cfg m1 cICap ead = .ok p ∧ (p.suites.getLastD 0).toNat ≤ 3 ∧
      getSuite (p.suites.getLastD 0).toNat = .ok r.2.suite := by
  unfold msg2Gen at h
  obtain ⟨p, hp, h⟩ := R.bind_eq_ok.1 h
  split at h
  · cases h
  · rename_i hs
    refine ⟨?_, p, hp, ?_⟩
    · intro h0; rw [h0] at hs; exact hs rfl
    · unfold msg2Build at h
      obtain ⟨s, hs, h⟩ := R.bind_eq_ok.1 h
      have e : r.2.suite = s := by
        generalize authType p.method (false, false) = a at h
        obtain ⟨sI, sR⟩ := a
        simp only at h
        obtain ⟨_, _, h⟩ := R.bind_eq_ok.1 h
        obtain ⟨_, _, h⟩ := R.bind_eq_ok.1 h
        obtain ⟨_, _, h⟩ := R.bind_eq_ok.1 h
        obtain ⟨⟨_, _⟩, _, h⟩ := R.bind_eq_ok.1 h
        obtain ⟨_, _, h⟩ := R.bind_eq_ok.1 h
        obtain ⟨_, _, h⟩ := R.bind_eq_ok.1 h
        simp only [R.pure_eq, R.ok.injEq] at h
        rw [← h]
      rw [e]
      refine ⟨?_, hs⟩
      unfold getSuite at hs
      repeat' split at hs
      all_goals first | omega | cases hs

example : (msg2Gen {} toyE toyR suite2Msg1 10 []).isOk = true := by decide +kernel
example : (msg2Gen {} toyE { toyR with suitesR := [] } suite2Msg1 10 []).isOk = false := by decide +kernel

/-! ### C46 -/

/-- C46: a byte string that was encoded decodes to itself, whatever follows it, in every buffer that
holds it. -/
theorem C46_bstr {cfg : ECfg} {b e : Bytes} (x : Bytes) {cap cap' : Nat} (he : encodeBstr b cap = .ok e)
    (hb : b.length < 2 ^ 32) (hc : b.length ≤ cap') :
    e = enc (.bstr b) ∧ decodeBstr cfg (e ++ x) cap' = .ok b := by
  obtain ⟨rfl, _⟩ := encodeBstr_ok.1 he
  exact ⟨rfl, decodeBstr_bstr cfg x (by omega) hc⟩

/-- C46: encoding succeeds exactly if the encoded string fits; the room AS_BSTR_SIZE is enough. -/
theorem C46_bstr_total {b : Bytes} {cap : Nat} :
    ((enc (.bstr b)).length ≤ cap → encodeBstr b cap = .ok (enc (.bstr b))) ∧
    (cap < (enc (.bstr b)).length → encodeBstr b cap = .err .unexpected_result_from_ext_lib) ∧
    (b.length < 2 ^ 32 → (encodeBstr b (asBstr b.length)).isOk = true) := by
  refine ⟨fun h => encodeBstr_ok.2 ⟨rfl, h⟩, fun h => ?_, fun h => ?_⟩
  · unfold encodeBstr cborOut; rw [cborBstr_eq, if_neg (by omega)]
  · rw [encodeBstr_asBstr h]; rfl

/-- C46: a decoded byte string is never longer than the buffer, and what was decoded begins the input
(with a head of major type 2). -/
theorem C46_bstr_bounded {cfg : ECfg} {e b : Bytes} {cap : Nat} (h : decodeBstr cfg e cap = .ok b) :
    b.length ≤ cap ∧ ∃ hd x, e = hd ++ b ++ x := by
  unfold decodeBstr at h
  split at h
  · cases h
  · rename_i v x hz
    obtain ⟨rfl, hl⟩ := memcpyS_ok.1 h
    refine ⟨hl, ?_⟩
    unfold zBstr zStr at hz
    split at hz
    · rename_i m v' l hh
      split at hz
      · simp only [Option.some.injEq, Prod.mk.injEq] at hz
        obtain ⟨rfl, rfl⟩ := hz
        have hsuf : ∃ hd, e = hd ++ l := by
          unfold zHead at hh
          split at hh
          · cases hh
          · rename_i b0 l0
            have harg : ∀ k, zArg cfg.strictCbor (b0.toNat / 32) k l0 = some (m, v', l) → ∃ hd, l0 = hd ++ l := by
              intro k hk
              unfold zArg at hk
              split at hk
              · cases hk
              · split at hk
                · cases hk
                · simp only [Option.some.injEq, Prod.mk.injEq] at hk
                  exact ⟨l0.take k, by rw [← hk.2.2, List.take_append_drop]⟩
            have hcons : (∃ hd, l0 = hd ++ l) → ∃ hd, b0 :: l0 = hd ++ l := by
              rintro ⟨hd, h⟩; exact ⟨b0 :: hd, by rw [h]; rfl⟩
            apply hcons
            split at hh
            · simp only [Option.some.injEq, Prod.mk.injEq] at hh
              exact ⟨[], by rw [← hh.2.2]; rfl⟩
            · repeat' split at hh
              all_goals first | exact harg _ hh | cases hh
        obtain ⟨hd, rfl⟩ := hsuf
        exact ⟨hd, l.drop v', by rw [List.append_assoc, List.take_append_drop]⟩
      · cases hz
    · cases hz

/-- C46: an integer whose encoding is one byte (-24 .. 23) decodes to itself; every longer encoding is
refused. -/
theorem C46_int {cfg : ECfg} {i : Int} {e : Bytes} {cap : Nat} (he : encodeInt i cap = .ok e) (hi : Int32 i) :
    e = enc (.int i) ∧
    decodeInt cfg e = if -24 ≤ i ∧ i ≤ 23 then .ok i else .err .cbor_decoding_error := by
  unfold encodeInt at he
  rw [cborInt_eq, cborOut_ok] at he
  obtain ⟨rfl, _⟩ := he
  refine ⟨rfl, ?_⟩
  have := zInt32_int cfg.strictCbor (i := i) [] hi
  rw [List.append_nil] at this
  unfold decodeInt
  rw [this]; simp only [List.length_nil, Nat.sub_zero]
  have hlen : (enc (Item.int i)).length = 1 ↔ (-24 ≤ i ∧ i ≤ 23) := by
    obtain ⟨h1, h2⟩ := hi
    unfold Item.int
    split
    · rw [enc, head_length]; repeat' split
      all_goals omega
    · rw [enc, head_length]; repeat' split
      all_goals omega
  by_cases h : -24 ≤ i ∧ i ≤ 23
  · rw [if_pos h, if_neg (by rw [hlen.2 h]; omega)]
  · rw [if_neg h, if_pos (fun h' => h (hlen.1 h'))]

example : encodeBstr [1, 2, 3] 4 = .ok [0x43, 1, 2, 3] := by decide
example : decodeBstr {} [0x43, 1, 2, 3, 9] 3 = .ok [1, 2, 3] := by decide
example : encodeInt (-24) 5 = .ok [0x37] ∧ decodeInt {} [0x37] = .ok (-24) := by decide
example : encodeInt 24 5 = .ok [0x18, 24] ∧ decodeInt {} [0x18, 24] = .err .cbor_decoding_error := by decide

/-! ### C38 -/

theorem createHkdfInfo_ok {label L cap : Nat} {ctx a : Bytes} : createHkdfInfo label ctx L cap = .ok a ↔
    a = EdhocSpec.info label ctx L ∧ a.length ≤ cap := by
  unfold createHkdfInfo EdhocSpec.info
  rw [cborUint_eq, cborBstr_eq, cborUint_eq, cborOut_ok]
  simp only [encList, List.append_nil, List.append_assoc]
  constructor
  · rintro ⟨rfl, h⟩; exact ⟨rfl, h⟩
  · rintro ⟨rfl, h⟩; exact ⟨rfl, h⟩

/-- C38: the info string is the RFC's. -/
theorem C38_info_rfc9528 {label L cap : Nat} {ctx a : Bytes} (h : createHkdfInfo label ctx L cap = .ok a) :
    a = EdhocSpec.info label ctx L := (createHkdfInfo_ok.1 h).1

/-- C38: two derivations with the same info string have the same label, context and length. -/
theorem C38_injective {label label' L L' cap cap' : Nat} {ctx ctx' a : Bytes}
    (h : createHkdfInfo label ctx L cap = .ok a) (h' : createHkdfInfo label' ctx' L' cap' = .ok a)
    (b1 : label < 2 ^ 64) (b2 : label' < 2 ^ 64) (b3 : L < 2 ^ 64) (b4 : L' < 2 ^ 64)
    (b5 : ctx.length < 2 ^ 64) (b6 : ctx'.length < 2 ^ 64) : label = label' ∧ ctx = ctx' ∧ L = L' := by
  have e := (C38_info_rfc9528 h).symm.trans (C38_info_rfc9528 h')
  have := encList_inj (l := [.uint label, .bstr ctx, .uint L]) (m := [.uint label', .bstr ctx', .uint L'])
    (by simp [OkList, Item.Ok]; omega) (by simp [OkList, Item.Ok]; omega) e
  simpa using this

/-- C38: the KDF is the RFC's: HKDF-Expand over that info string. -/
theorem kdf_ok {cfg : ECfg} {C : ECrypto} (hC : C.Lawful) {prk ctx k : Bytes} {label L : Nat}
    (h : edhocKdf cfg C prk label ctx L = .ok k) (hL : L ≤ 255 * 32) :
    k = EdhocSpec.kdf C.hmac prk label ctx L := by
  unfold edhocKdf at h
  obtain ⟨_, h1, h⟩ := R.bind_eq_ok.1 h
  obtain ⟨info, h2, h⟩ := R.bind_eq_ok.1 h
  obtain ⟨rfl, hl⟩ := createHkdfInfo_ok.1 h2
  have hsz := checkBufferSize_ok.1 h1
  rw [C37_expand_rfc5869 hC.base prk _ hL (by simp only; omega)] at h
  cases h; rfl

/-- C38 -/
theorem C38_kdf_rfc9528 {cfg : ECfg} {C : ECrypto} (hC : C.Lawful) {prk ctx k : Bytes} {label L : Nat}
    (h : edhocKdf cfg C prk label ctx L = .ok k) (hL : L ≤ 255 * 32) :
    k = EdhocSpec.kdf C.hmac prk label ctx L ∧ k.length = L := by
  have e := kdf_ok hC h hL
  exact ⟨e, by rw [e]; exact C37_length hC.base _ _ _⟩

theorem info_length_le {label L : Nat} {ctx : Bytes} (h1 : label < 24) (h2 : L < 2 ^ 16) (h3 : ctx.length < 2 ^ 32) :
    (EdhocSpec.info label ctx L).length ≤ asBstr ctx.length + 4 := by
  unfold EdhocSpec.info
  simp only [encList, List.append_nil, List.length_append]
  have := bstr_length_le h3
  have e1 : (enc (.uint label)).length = 1 := by rw [enc, head_length, if_pos h1]
  have e2 : (enc (.uint L)).length ≤ 3 := by
    rw [enc, head_length]; repeat' split
    all_goals omega
  omega

/-- the derivation succeeds for every label of the protocol, every length up to the HKDF limit and
every context that fits the configured buffer -/
theorem kdf_total {cfg : ECfg} {C : ECrypto} (hC : C.Lawful) (prk : Bytes) {ctx : Bytes} {label L : Nat}
    (h1 : label < 24) (hL : L ≤ 255 * 32) (h3 : asBstr ctx.length + 4 ≤ cfg.infoMaxSize) (h4 : ctx.length < 2 ^ 32) :
    edhocKdf cfg C prk label ctx L = .ok (EdhocSpec.kdf C.hmac prk label ctx L) := by
  unfold edhocKdf
  have e1 := info_length_le (L := L) h1 (by omega) h4
  rw [checkBufferSize_ok (u := ()).2 h3, R.ok_bind,
    createHkdfInfo_ok.2 ⟨rfl, e1⟩, R.ok_bind,
    C37_expand_rfc5869 hC.base prk _ hL (by simp only; omega)]
  rfl

/-- C38: the labels of the protocol are pairwise different: key stream 2, salt 3e2m, MAC_2, K_3, IV_3,
salt 4e3m, MAC_3, PRK_out, K_4, IV_4, PRK_exporter, PRK_out update. -/
theorem C38_labels_distinct :
    [keyLabel .c2, 1, 2, keyLabel .c3, ivLabel .c3, 5, 6, labelPrkOut, keyLabel .c4, ivLabel .c4, 10, 11].Nodup := by
  decide

example : createHkdfInfo 7 [1, 2] 32 10 = .ok [7, 0x42, 1, 2, 0x18, 32] := by decide
example : (edhocKdf {} toyE [1] 7 [1, 2] 32).isOk = true := by decide +kernel

/-! ### C47 -/

/-- the strings `a` and `b` are a collision of the hash -/
def HashClash (C : ECrypto) (a b : Bytes) : Prop := a ≠ b ∧ C.hash a = C.hash b

/-- the input of the hash for TH_2, from G_Y and H(message_1): RFC 9528, 5.3.2 -/
def th2In (gY h1 : Bytes) : Bytes := encList [.bstr gY, .bstr h1]

/-- the input of the hash for TH_3 and TH_4: RFC 9528, 5.4.2 and 5.5.2 -/
def thIn (th pt cred : Bytes) : Bytes := enc (.bstr th) ++ pt ++ cred

theorem th2_ok {C : ECrypto} {h1 gY t : Bytes} (h : th2Calc C h1 gY = .ok t) :
    t = C.hash (encList [.bstr gY, .bstr h1]) := by
  unfold th2Calc at h
  obtain ⟨_, _, h⟩ := R.bind_eq_ok.1 h
  obtain ⟨inp, h2, h⟩ := R.bind_eq_ok.1 h
  rw [cborBstr_eq, cborBstr_eq, cborOut_ok] at h2
  obtain ⟨rfl, _⟩ := h2
  simp only [R.pure_eq, R.ok.injEq] at h
  rw [← h]; simp [hash, encList]

/-- C47: TH_2 is H(G_Y, H(message_1)). -/
theorem C47_th2_rfc9528 {C : ECrypto} {m1 gY t : Bytes} (h : th2Calc C (hash C m1) gY = .ok t) :
    t = EdhocSpec.th2 C.hash gY m1 := th2_ok h

/-- C47: equal TH_2 means equal G_Y and equal H(message_1), or the two inputs of TH_2 are a collision of the hash. -/
theorem C47_th2_binds {C : ECrypto} {h1 h1' gY gY' t : Bytes} (h : th2Calc C h1 gY = .ok t)
    (h' : th2Calc C h1' gY' = .ok t) (b1 : gY.length < 2 ^ 64) (b2 : gY'.length < 2 ^ 64)
    (b3 : h1.length < 2 ^ 64) (b4 : h1'.length < 2 ^ 64) : (gY = gY' ∧ h1 = h1') ∨ HashClash C (th2In gY h1) (th2In gY' h1') := by
  have e := (th2_ok h).symm.trans (th2_ok h')
  by_cases hx : encList [Item.bstr gY, .bstr h1] = encList [.bstr gY', .bstr h1']
  · left
    have := encList_inj (l := [.bstr gY, .bstr h1]) (m := [.bstr gY', .bstr h1'])
      (by simp [OkList, Item.Ok]; omega) (by simp [OkList, Item.Ok]; omega) hx
    simpa using this
  · exact .inr ⟨hx, e⟩

theorem th34Input_ok {th pt cred a : Bytes} {cap : Nat} (h : th34Input th pt cred cap = .ok a) :
    a = enc (.bstr th) ++ pt ++ cred := by
  unfold th34Input at h
  obtain ⟨e, h1, h⟩ := R.bind_eq_ok.1 h
  obtain ⟨p, h2, h⟩ := R.bind_eq_ok.1 h
  obtain ⟨c, h3, h⟩ := R.bind_eq_ok.1 h
  obtain ⟨rfl, _⟩ := encodeBstr_ok.1 h1
  obtain ⟨rfl, _⟩ := memcpyS_ok.1 h2
  obtain ⟨rfl, _⟩ := memcpyS_ok.1 h3
  split at h
  · cases h
  · simp only [R.pure_eq, R.ok.injEq] at h
    exact h.symm

/-- C47: TH_3 and TH_4 are H(TH, PLAINTEXT, CRED). -/
theorem C47_th34_rfc9528 {cfg : ECfg} {C : ECrypto} {th pt cred t : Bytes} (h : th34Calc cfg C th pt cred = .ok t) :
    t = EdhocSpec.thNext C.hash th pt cred := by
  unfold th34Calc at h
  obtain ⟨_, _, h⟩ := R.bind_eq_ok.1 h
  obtain ⟨inp, h2, h⟩ := R.bind_eq_ok.1 h
  rw [th34Input_ok h2] at h
  simp only [R.pure_eq, R.ok.injEq] at h
  exact h.symm

/-- C47: equal TH_3 (TH_4) means the same previous transcript hash and the same plaintext and
credential as one string, or the two inputs are a collision of the hash; credentials of equal length are then equal,
and so are the plaintexts. -/
theorem C47_th34_binds {cfg cfg' : ECfg} {C : ECrypto} {th pt cred th' pt' cred' t : Bytes}
    (h : th34Calc cfg C th pt cred = .ok t) (h' : th34Calc cfg' C th' pt' cred' = .ok t)
    (b1 : th.length < 2 ^ 64) (b2 : th'.length < 2 ^ 64) :
    (th = th' ∧ pt ++ cred = pt' ++ cred' ∧ (cred.length = cred'.length → pt = pt' ∧ cred = cred')) ∨
      HashClash C (thIn th pt cred) (thIn th' pt' cred') := by
  have e := (C47_th34_rfc9528 h).symm.trans (C47_th34_rfc9528 h')
  unfold EdhocSpec.thNext at e
  by_cases hx : enc (Item.bstr th) ++ pt ++ cred = enc (.bstr th') ++ pt' ++ cred'
  · left
    rw [List.append_assoc, List.append_assoc] at hx
    obtain ⟨h1, h2⟩ := enc_prefix_free _ _ _ _ (by simpa [Item.Ok] using b1) (by simpa [Item.Ok] using b2) hx
    simp only [Item.bstr.injEq] at h1
    refine ⟨h1, h2, fun hl => ?_⟩
    have hp : pt.length = pt'.length := by
      have := congrArg List.length h2
      simp only [List.length_append] at this; omega
    exact List.append_inj h2 hp
  · exact .inr ⟨hx, e⟩

/-- "plaintext and credential as one string" cannot be improved: the boundary is not part of the hash
input. -/
theorem C47_boundary_not_bound (cfg : ECfg) (C : ECrypto) :
    th34Calc cfg C (List.replicate 32 0) [1, 2] [3] = th34Calc cfg C (List.replicate 32 0) [1] [2, 3] := by
  have e : th34Input (List.replicate 32 0) [1, 2] [3] (asBstr 32 + 3) =
      th34Input (List.replicate 32 0) [1] [2, 3] (asBstr 32 + 3) := by decide +kernel
  have h1 : asBstr 32 + ([1, 2] : Bytes).length + ([3] : Bytes).length = asBstr 32 + 3 := rfl
  have h2 : asBstr 32 + ([1] : Bytes).length + ([2, 3] : Bytes).length = asBstr 32 + 3 := rfl
  unfold th34Calc
  rw [h1, h2, e]

example : (th34Calc {} toyE (List.replicate 32 0) [1, 2] [3]).isOk = true := by decide +kernel
example : (th2Calc toyE (hash toyE [1]) (List.replicate 32 5)).isOk = true := by decide +kernel

/-! ### C50 -/

/-- C50: the exporter is the RFC's KDF with the given label; the context is always empty. -/
theorem C50_exporter {cfg : ECfg} {C : ECrypto} (hC : C.Lawful) {prk k : Bytes} {label L : Nat}
    (h : edhocExporter cfg C label prk L = .ok k) (hL : L ≤ 255 * 32) :
    k = EdhocSpec.kdf C.hmac prk label [] L ∧ k.length = L := C38_kdf_rfc9528 hC h hL

/-- C50: PRK_exporter and the updated PRK_out are the RFC's. -/
theorem C50_prk_exporter {cfg : ECfg} {C : ECrypto} (hC : C.Lawful) {prk k : Bytes} {L : Nat}
    (h : prkOut2exporter cfg C prk L = .ok k) (hL : L ≤ 255 * 32) :
    k = EdhocSpec.kdf C.hmac prk 10 [] L := (C38_kdf_rfc9528 hC h hL).1
theorem C50_update {cfg : ECfg} {C : ECrypto} (hC : C.Lawful) {prk ctx k : Bytes} {L : Nat}
    (h : prkOutUpdate cfg C prk ctx L = .ok k) (hL : L ≤ 255 * 32) :
    k = EdhocSpec.kdf C.hmac prk 11 ctx L := (C38_kdf_rfc9528 hC h hL).1

/-- C50: different labels (or lengths) never share an HKDF input; in particular master secret (label 0)
and master salt (label 1). -/
theorem C50_labels_separated {label label' L L' : Nat} (hne : label ≠ label' ∨ L ≠ L')
    (b1 : label < 2 ^ 64) (b2 : label' < 2 ^ 64) (b3 : L < 2 ^ 64) (b4 : L' < 2 ^ 64) :
    EdhocSpec.info label [] L ≠ EdhocSpec.info label' [] L' := by
  intro e
  have := encList_inj (l := [.uint label, .bstr [], .uint L]) (m := [.uint label', .bstr [], .uint L'])
    (by simp [OkList, Item.Ok]; omega) (by simp [OkList, Item.Ok]; omega) e
  simp only [List.cons.injEq, Item.uint.injEq, and_true, true_and] at this
  omega

/-- C50: two parties with the same PRK_out export the same values for the same label and length,
whatever their buffer configurations are. -/
theorem C50_same_export {cfg cfg' : ECfg} {C : ECrypto} (hC : C.Lawful) {prkOut e e' k k' : Bytes} {label L : Nat}
    (h1 : prkOut2exporter cfg C prkOut 32 = .ok e) (h2 : edhocExporter cfg C label e L = .ok k)
    (h1' : prkOut2exporter cfg' C prkOut 32 = .ok e') (h2' : edhocExporter cfg' C label e' L = .ok k')
    (hL : L ≤ 255 * 32) : k = k' := by
  have e1 := C50_prk_exporter hC h1 (by omega)
  have e2 := C50_prk_exporter hC h1' (by omega)
  rw [(C50_exporter hC h2 hL).1, (C50_exporter hC h2' hL).1, e1, e2]

/-- C50: the exporter succeeds for every label below 24 and every length up to the HKDF limit. -/
theorem C50_total {cfg : ECfg} {C : ECrypto} (hC : C.Lawful) (prk : Bytes) {label L : Nat} (h1 : label < 24)
    (hL : L ≤ 255 * 32) : edhocExporter cfg C label prk L = .ok (EdhocSpec.kdf C.hmac prk label [] L) := by
  refine kdf_total hC prk h1 hL ?_ (by simp)
  unfold ECfg.infoMaxSize ECfg.contextMacSize
  have := le_asBstr (asBstr cfg.cRSize + asBstr 32 + cfg.idCredMaxSize + cfg.credMaxSize + cfg.eadSize)
  simp only [List.length_nil]
  have h0 : asBstr 0 = 1 := rfl
  omega

example : (edhocExporter {} toyE 0 [1, 2, 3] 16).isOk = true := by decide +kernel

end Verif.Edhoc
