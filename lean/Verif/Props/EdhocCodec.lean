import Verif.Lemmas.EdhocCodecLemmas
/-
C40: messages and plaintexts decode to what was encoded.  C45: connection identifiers.
-/
namespace Verif.Edhoc
open Verif Cbor

/-! ### message 1 -/

theorem suitesItem_ok {l o : Bytes} (h : suitesItem l = .ok o) :
    o = enc (EdhocSpec.suites l) ∧ l ≠ [] ∧ l.length ≤ 10 := by
  match l, h with
  | [s], h =>
    simp only [suitesItem, R.ok.injEq] at h
    refine ⟨?_, by simp, by simp⟩
    rw [← h, cborInt_eq]
    unfold Item.int EdhocSpec.suites
    rw [if_pos (by simp)]
    simp
  | a :: b :: l, h =>
    simp only [suitesItem] at h
    split at h
    · cases h
    · rename_i hl
      cases h
      refine ⟨?_, by simp, by omega⟩
      simp only [EdhocSpec.suites]
      rw [← cborArr_eq, List.length_map]
      congr 1
      generalize a :: b :: l = m
      induction m with
      | nil => rfl
      | cons x m ih =>
        simp only [List.map_cons, List.flatten_cons, encList, ih]
        congr 1
        rw [cborInt_eq]
        unfold Item.int
        rw [if_pos (by simp)]
        simp

theorem cIItem_ok {cfg : ECfg} {c o : Bytes} (h : cIItem cfg c = .ok o) : o = enc (EdhocSpec.connId c) := by
  unfold cIItem at h
  cases hc : isEncodedInt c with
  | true =>
    obtain ⟨i, h1, h2, e1, e2⟩ := isEncodedInt_iff.1 hc
    rw [hc, if_pos rfl] at h
    obtain ⟨j, hj, h⟩ := R.bind_eq_ok.1 h
    cases h
    have hz := zInt32_int cfg.strictCbor (i := i) [] ⟨by omega, by omega⟩
    rw [List.append_nil] at hz
    unfold decodeInt at hj
    rw [e1, hz] at hj
    simp only at hj
    split at hj
    · cases hj
    · cases hj
      rw [e2, cborInt_eq]
  | false =>
    rw [hc, if_neg (by simp)] at h
    cases h
    rw [connId_bstr hc, cborBstr_eq]

theorem cIItem_total (cfg : ECfg) (c : Bytes) : cIItem cfg c = .ok (enc (EdhocSpec.connId c)) := by
  cases hc : isEncodedInt c with
  | true =>
    obtain ⟨i, h1, h2, e1, e2⟩ := isEncodedInt_iff.1 hc
    have hl : c.length = 1 := by
      match c, hc with
      | [b], _ => rfl
    unfold cIItem
    rw [hc, if_pos rfl]
    have hz := zInt32_int cfg.strictCbor (i := i) [] ⟨by omega, by omega⟩
    rw [List.append_nil, ← e1] at hz
    unfold decodeInt
    rw [hz]
    simp only
    rw [if_neg (by rw [hl]; simp), R.ok_bind, e2, cborInt_eq]
    rfl
  | false =>
    unfold cIItem
    rw [hc, if_neg (by simp), connId_bstr hc, cborBstr_eq]
    rfl

theorem msg1Gen_ok {cfg : ECfg} {C : ECrypto} {c : ICtx} {m h : Bytes} {su : Suite}
    (hg : msg1Gen cfg C c = .ok (m, su, h)) :
    m = EdhocSpec.message1 c.method c.suitesI c.gX c.cI c.ead1 ∧ c.suitesI ≠ [] ∧ c.suitesI.length ≤ 10 ∧
    getSuite (c.suitesI.getLastD 0).toNat = .ok su ∧ h = C.hash m ∧ m.length ≤ cfg.msgMaxSize := by
  unfold msg1Gen at hg
  obtain ⟨s, h1, hg⟩ := R.bind_eq_ok.1 hg
  obtain ⟨ci, h2, hg⟩ := R.bind_eq_ok.1 hg
  obtain ⟨m', h3, hg⟩ := R.bind_eq_ok.1 hg
  obtain ⟨su', h4, hg⟩ := R.bind_eq_ok.1 hg
  cases hg
  obtain ⟨e1, e2, e3⟩ := suitesItem_ok h1
  obtain ⟨e4, e5⟩ := cborOut_ok.1 h3
  refine ⟨?_, e2, e3, h4, rfl, by rw [e4]; exact e5⟩
  rw [e4, e1, cIItem_ok h2, cborInt_eq, cborBstr_eq]
  unfold EdhocSpec.message1 EdhocSpec.optEad
  by_cases he : c.ead1 = []
  · simp [he, encList]
  · rw [if_pos (by simpa using he), if_neg he, cborBstr_eq]
    simp [encList]

/-- C40: message_1 on the wire is the RFC's CBOR sequence. -/
theorem C40_message_1_rfc9528 {cfg : ECfg} {C : ECrypto} {c : ICtx} {m h : Bytes} {su : Suite}
    (hg : msg1Gen cfg C c = .ok (m, su, h)) :
    m = EdhocSpec.message1 c.method c.suitesI c.gX c.cI c.ead1 := (msg1Gen_ok hg).1

/-- how the responder stores C_I: the low byte of a decoded integer, not its encoding -/
def cIStored : Bytes → Bytes
  | [b] => if 0x20 ≤ b.toNat ∧ b.toNat ≤ 0x37 then [byte (0x11F - b.toNat)] else [b]
  | c => c

theorem cIOf_connId (s : Bool) {c : Bytes} (h : c.length < 2 ^ 32) (x : Bytes) :
    ∃ f, zIntOrBstr s (enc (EdhocSpec.connId c) ++ x) = some (f, x) ∧
      ∀ cap, c.length ≤ cap → cIOf f cap = .ok (cIStored c) := by
  cases hc : isEncodedInt c with
  | true =>
    obtain ⟨i, h1, h2, e1, e2⟩ := isEncodedInt_iff.1 hc
    refine ⟨.inl i, by rw [e2]; exact zIntOrBstr_int s x ⟨by omega, by omega⟩, ?_⟩
    intro cap _
    simp only [cIOf, castU8]
    rw [e1]
    unfold Item.int
    split
    · rw [enc]; unfold head; rw [if_pos (by omega)]
      simp only [cIStored]
      rw [byte_toNat (by omega), if_neg (by omega)]
      have : (i % 256).toNat = 0 * 32 + i.toNat := by omega
      rw [this]
    · rw [enc]; unfold head; rw [if_pos (by omega)]
      simp only [cIStored]
      rw [byte_toNat (by omega), if_pos (by omega)]
      have : (i % 256).toNat = 0x11F - (1 * 32 + (-1 - i).toNat) := by omega
      rw [this]
  | false =>
    refine ⟨.inr c, by rw [connId_bstr hc]; exact zIntOrBstr_bstr s x (by omega), ?_⟩
    intro cap hcap
    have e : cIStored c = c := by
      match c, hc with
      | [], _ => rfl
      | [b], hb =>
        simp only [isEncodedInt, Bool.or_eq_false_iff, Bool.and_eq_false_iff, decide_eq_false_iff_not] at hb
        simp only [cIStored]
        rw [if_neg (by omega)]
      | _ :: _ :: _, _ => rfl
    rw [e]
    exact memcpyS_ok.2 ⟨rfl, hcap⟩

theorem castU8_ofNat (b : UInt8) : castU8 (Int.ofNat b.toNat) = b := by
  have hb := b.toNat_lt
  unfold castU8
  have : ((Int.ofNat b.toNat) % 256).toNat = b.toNat := by
    simp only [Int.ofNat_eq_natCast]; omega
  rw [this, byte_of_toNat]

theorem zSuites_suites (s : Bool) (cfg : ECfg) {l : Bytes} (h1 : l ≠ []) (h2 : l.length ≤ 10)
    (h3 : l.length ≤ cfg.suitesISize) (x : Bytes) :
    ∃ f, zSuites s (enc (EdhocSpec.suites l) ++ x) = some (f, x) ∧ suitesOf cfg f = .ok l := by
  match l, h1, h2, h3 with
  | [b], _, _, _ =>
    have hb := b.toNat_lt
    have e : (EdhocSpec.suites [b]) = .int (Int.ofNat b.toNat) := by
      unfold Item.int EdhocSpec.suites
      rw [if_pos (by simp)]; simp
    have hi : Int32 (Int.ofNat b.toNat) := by
      constructor <;> simp only [Int.ofNat_eq_natCast] <;> omega
    refine ⟨.inr (Int.ofNat b.toNat), ?_, by simp only [suitesOf, castU8_ofNat]⟩
    unfold zSuites zSuiteList
    rw [e, zStart_int s x hi (by omega)]
    simp only
    rw [zInt32_int s x hi]
  | a :: b :: l, _, h2, h3 =>
    generalize hm : a :: b :: l = m at *
    have hlen : 2 ≤ m.length := by rw [← hm]; simp
    refine ⟨.inl (m.map fun s => Int.ofNat s.toNat), ?_, ?_⟩
    · have e : EdhocSpec.suites m = .arr ((m.map fun s => Int.ofNat s.toNat).map .int) := by
        rw [← hm]
        simp only [EdhocSpec.suites, List.map_map]
        congr 1
      unfold zSuites zSuiteList
      rw [e, zStart_arr s x (by simp; omega)]
      simp only [List.length_map]
      rw [if_pos ⟨hlen, h2⟩]
      have := zInts_ints s (m.map fun s => Int.ofNat s.toNat) x (by
        intro i hi
        simp only [List.mem_map] at hi
        obtain ⟨y, _, rfl⟩ := hi
        have := y.toNat_lt
        constructor <;> simp only [Int.ofNat_eq_natCast] <;> omega)
      rw [List.length_map] at this
      rw [this]
    · simp only [suitesOf, List.length_map]
      rw [if_neg (by omega), if_neg (by omega), List.map_map]
      congr 1
      conv => rhs; rw [← List.map_id m]
      apply List.map_congr_left
      intro y _
      exact castU8_ofNat y

/-- C40: the responder reads from message_1 the method, suites, G_X and EAD_1 that the initiator put
in; C_I up to `cIStored`. -/
theorem C40_message_1 {cfg cfg' : ECfg} {C : ECrypto} {c : ICtx} {m h : Bytes} {su : Suite} {cICap : Nat} {ead : Bytes}
    (hg : msg1Gen cfg C c = .ok (m, su, h)) (hm : 0 ≤ c.method ∧ c.method ≤ 3) (hgx : c.gX.length ≤ 32)
    (hs : c.suitesI.length ≤ cfg'.suitesISize) (hc : c.cI.length ≤ cICap) (hc' : c.cI.length < 2 ^ 32)
    (he : c.ead1.length ≤ ead.length) (he' : c.ead1.length < 2 ^ 32) :
    msg1Parse cfg' m cICap ead = .ok ⟨c.method, c.suitesI, c.gX, cIStored c.cI,
      if c.ead1 = [] then ead else c.ead1⟩ := by
  obtain ⟨e, s1, s2, -, -, -⟩ := msg1Gen_ok hg
  obtain ⟨fs, hfs, hfs'⟩ := zSuites_suites cfg'.strictCbor cfg' s1 s2 hs
    (encList ([.bstr c.gX, EdhocSpec.connId c.cI] ++ EdhocSpec.optEad c.ead1))
  obtain ⟨fc, hfc, hfc'⟩ := cIOf_connId cfg'.strictCbor hc' (encList (EdhocSpec.optEad c.ead1))
  unfold msg1Parse decMsg1
  rw [e]
  unfold EdhocSpec.message1
  simp only [List.cons_append, List.nil_append, encList] at hfs hfc ⊢
  rw [zInt32_int _ _ ⟨by omega, by omega⟩]
  simp only
  rw [hfs]
  simp only
  rw [zBstr_bstr _ _ (by omega)]
  simp only
  rw [hfc]
  simp only
  rw [if_neg (by omega), hfs', R.ok_bind, memcpyS_ok.2 ⟨rfl, hgx⟩, R.ok_bind, hfc' _ hc, R.ok_bind]
  by_cases hn : c.ead1 = []
  · rw [if_pos hn]
    simp only [hn, EdhocSpec.optEad, encList, if_true]
    rw [zOptBstr_nil]
    rfl
  · rw [if_neg hn]
    have := zOptBstr_bstr cfg'.strictCbor (b := c.ead1) [] (by omega)
    rw [List.append_nil] at this
    simp only [EdhocSpec.optEad, if_neg hn, encList, List.append_nil, this, ead1Of]
    rw [memcpyS_ok.2 ⟨rfl, he⟩]
    rfl

/-! ### message 2 -/

theorem ctxt2Len_bounds {b : Bytes} {n : Nat} (hn : b.length = 32 + n) (h : n < 2 ^ 31) :
    n ≤ ctxt2Len (enc (.bstr b)).length ∧ ctxt2Len (enc (.bstr b)).length ≤ n + 2 ∧ (enc (.bstr b)).length < 2 ^ 32 := by
  rw [enc, List.length_append, head_length, hn]
  unfold ctxt2Len
  have e : ∀ k, k ≤ 5 → sub32 (k + (32 + n)) 32 = k + n := by
    intro k hk; rw [sub32_le (by omega) (by omega)]; omega
  have o : ∀ a, a < 2 ^ 32 → bstrOverhead a ≤ a → sub32 a (bstrOverhead a) = a - bstrOverhead a := by
    intro a h1 h2; exact sub32_le h2 h1
  have f : ∀ k, 2 ≤ k → k ≤ 5 → (∀ a, a = k + n → n ≤ a - bstrOverhead a ∧ a - bstrOverhead a ≤ n + 2) →
      n ≤ sub32 (k + n) (bstrOverhead (k + n)) ∧ sub32 (k + n) (bstrOverhead (k + n)) ≤ n + 2 := by
    intro k h0 h1 h2
    have : bstrOverhead (k + n) ≤ k + n := by
      unfold bstrOverhead
      repeat' split
      all_goals omega
    rw [o _ (by omega) this]
    exact h2 _ rfl
  rw [if_neg (by omega)]
  split
  · simp only
    rw [e 2 (by omega)]
    obtain ⟨a1, a2⟩ := f 2 (by omega) (by omega) (by
      intro a ha; unfold bstrOverhead
      repeat' split
      all_goals omega)
    exact ⟨a1, a2, by omega⟩
  · split
    · simp only
      rw [e 3 (by omega)]
      obtain ⟨a1, a2⟩ := f 3 (by omega) (by omega) (by
        intro a ha; unfold bstrOverhead
        repeat' split
        all_goals omega)
      exact ⟨a1, a2, by omega⟩
    · rw [if_pos (by omega)]
      simp only
      rw [e 5 (by omega)]
      obtain ⟨a1, a2⟩ := f 5 (by omega) (by omega) (by
        intro a ha; unfold bstrOverhead
        repeat' split
        all_goals omega)
      exact ⟨a1, a2, by omega⟩

theorem xor_self {p k : Bytes} (h : k.length = p.length) : xorBytes (xorBytes p k) k = p := by
  induction p generalizing k with
  | nil => simp [xorBytes]
  | cons a p ih =>
    match k, h with
    | b :: k, h =>
      have := ih (k := k) (by simpa using h)
      unfold xorBytes at this ⊢
      simp only [List.zipWith_cons_cons, this, List.cons.injEq, and_true]
      rw [UInt8.xor_assoc, UInt8.xor_self, UInt8.xor_zero]

theorem xor_length {p k : Bytes} (h : k.length = p.length) : (xorBytes p k).length = p.length := by
  simp [xorBytes, h]

theorem assocData_total {th : Bytes} (h : th.length = 32) : assocData th = .ok (EdhocSpec.encStructure th) := by
  unfold assocData EdhocSpec.encStructure
  rw [← cborArr_eq, cborTstr_eq, cborBstr_eq, cborBstr_eq]
  simp only [List.length_cons, List.length_nil, encList, List.append_nil, List.append_assoc]
  refine cborOut_ok.2 ⟨rfl, ?_⟩
  simp only [List.length_append, bstr_32_length h]
  decide +kernel

theorem keyGen2_ok {cfg : ECfg} {C : ECrypto} (hC : C.Lawful) {prk th : Bytes} {len : Nat} {k : Bytes × Bytes}
    (h : keyGen cfg C .c2 prk th len = .ok k) (hl : len ≤ 255 * 32) : k.1.length = len := by
  unfold keyGen at h
  rw [if_pos rfl] at h
  obtain ⟨_, _, h⟩ := R.bind_eq_ok.1 h
  obtain ⟨k', h1, h⟩ := R.bind_eq_ok.1 h
  cases h
  exact (C38_kdf_rfc9528 hC h1 hl).2

/-- C40: ciphertext_2 has the length of the plaintext and decrypts to it. -/
theorem C40_ciphertext_2 {cfg : ECfg} {C : ECrypto} (hC : C.Lawful) {suite : Suite} {cR id sm ead prk th c p : Bytes}
    {buf cap : Nat} (hth : th.length = 32) (hp : p.length ≤ 255 * 32)
    (h : ciphertextGen cfg C .c2 suite cR id sm ead prk th buf cap = .ok (c, p)) :
    c.length = p.length ∧ ctxtDecrypt cfg C .c2 suite prk th c = .ok p ∧
    plaintextGen cfg .c2 cR id sm ead cap = .ok p := by
  unfold ciphertextGen at h
  obtain ⟨p', h1, h⟩ := R.bind_eq_ok.1 h
  obtain ⟨⟨k, iv⟩, h2, h⟩ := R.bind_eq_ok.1 h
  obtain ⟨c', h3, h⟩ := R.bind_eq_ok.1 h
  cases h
  have hk := keyGen2_ok hC h2 hp
  unfold ctxtEncrypt at h3
  rw [if_pos rfl] at h3
  split at h3
  · cases h3
  · cases h3
    refine ⟨xor_length hk, ?_, h1⟩
    unfold ctxtDecrypt
    rw [xor_length hk, h2, R.ok_bind]
    simp only
    rw [assocData_total hth, R.ok_bind, if_pos trivial, xor_self hk]
    rfl

/-- C40: ciphertext_3 and ciphertext_4 decrypt to the plaintext. -/
theorem C40_ciphertext_34 {cfg cfg' : ECfg} {C : ECrypto} (hC : C.Lawful) {ct : Ctxt} (hct : ct ≠ .c2) {suite : Suite}
    {cR id sm ead prk th c p : Bytes} {buf cap : Nat} (hth : th.length = 32)
    (hk : keyGen cfg C ct prk th p.length = keyGen cfg' C ct prk th c.length)
    (h : ciphertextGen cfg C ct suite cR id sm ead prk th buf cap = .ok (c, p)) :
    c.length = p.length + suite.aead.tagLen ∧ ctxtDecrypt cfg' C ct suite prk th c = .ok p ∧
    plaintextGen cfg ct cR id sm ead cap = .ok p ∧ c.length ≤ buf := by
  unfold ciphertextGen at h
  obtain ⟨p', h1, h⟩ := R.bind_eq_ok.1 h
  obtain ⟨⟨k, iv⟩, h2, h⟩ := R.bind_eq_ok.1 h
  obtain ⟨c', h3, h⟩ := R.bind_eq_ok.1 h
  cases h
  rw [hk] at h2
  unfold ctxtEncrypt at h3
  rw [if_neg hct, assocData_total hth, R.ok_bind] at h3
  split at h3
  · cases h3
  · rename_i hb
    split at h3
    · rename_i c' he
      cases h3
      have hl := hC.base.enc_len _ _ _ _ _ _ he
      refine ⟨hl, ?_, h1, by omega⟩
      unfold ctxtDecrypt
      rw [h2, R.ok_bind]
      simp only
      rw [assocData_total hth, R.ok_bind, if_neg hct, if_neg (by omega), hC.base.dec_enc _ _ _ _ _ _ he]
      rfl
    · cases h3

/-- C40: the initiator gets from message_2 the G_Y and ciphertext_2 that the responder put in. -/
theorem C40_message_2_outer {cfg cfg' : ECfg} {gY c2 m2 : Bytes} (hg : gY.length = 32) (hl : c2.length < 2 ^ 31)
    (hf : 32 + c2.length ≤ cfg'.gYCiphertext2) (h : msg2Encode cfg gY c2 = .ok m2) :
    msg2Parse cfg' m2 (ctxt2Len m2.length) = .ok (gY, c2) := by
  unfold msg2Encode at h
  obtain ⟨_, _, h⟩ := R.bind_eq_ok.1 h
  obtain ⟨rfl, hcap⟩ := encodeBstr_ok.1 h
  have hb := ctxt2Len_bounds (b := gY ++ c2) (n := c2.length) (by simp [hg]) hl
  unfold msg2Parse
  have := decodeBstr_bstr cfg' (b := gY ++ c2) [] (cap := cfg'.gYCiphertext2) (by simp [hg]; omega) (by simp [hg]; omega)
  rw [List.append_nil] at this
  rw [this, R.ok_bind, if_neg (by simp [hg])]
  have e1 : (gY ++ c2).drop 32 = c2 := by rw [← hg]; simp
  have e2 : (gY ++ c2).take 32 = gY := by rw [← hg]; simp
  rw [e1, e2, memcpyS_ok.2 ⟨rfl, hb.1⟩]
  rfl

/-- C40: from message_2 the initiator recovers G_Y, and with the same PRK_2e and TH_2 the C_R, ID_CRED_R,
Signature_or_MAC_2 that the responder put in, and EAD_2 if that was an encoded byte string (or absent).
`cfg'`, the capacities: the initiator's. -/
theorem C40_message_2_partial {cfg cfg' : ECfg} {C : ECrypto} (hC : C.Lawful) {suite : Suite}
    {gY cR id w sm e prk th c2 p2 m2 : Bytes} {buf cap crCap idCap eadCap : Nat} (hw : IdWire id w)
    (hg : gY.length = 32) (hth : th.length = 32) (hp : p2.length ≤ 255 * 32) (hsm : sm.length ≤ 64)
    (he : e.length < 2 ^ 32) (hcr : cR.length < 2 ^ 32)
    (h1 : ciphertextGen cfg C .c2 suite cR id sm (eadWire e) prk th buf cap = .ok (c2, p2))
    (h2 : msg2Encode cfg gY c2 = .ok m2)
    (f1 : 32 + p2.length ≤ cfg'.gYCiphertext2) (f2 : cR.length ≤ crCap) (f3 : id.length ≤ idCap) (f4 : e.length ≤ eadCap) :
    msg2Parse cfg' m2 (ctxt2Len m2.length) = .ok (gY, c2) ∧ ctxtDecrypt cfg C .c2 suite prk th c2 = .ok p2 ∧
    plaintext2Split cfg' p2 crCap idCap eadCap = .ok (cR, ⟨id, sm, e⟩) := by
  obtain ⟨a1, a2, a3⟩ := C40_ciphertext_2 hC hth hp h1
  refine ⟨C40_message_2_outer hg (by omega) (by omega) h2, a2, ?_⟩
  rw [ptxt2Gen_ok hw a3]
  exact split2_of hw hsm he hcr f3 f4 f2

theorem keyGen34 {cfg : ECfg} {C : ECrypto} {ct : Ctxt} (hct : ct ≠ .c2) {prk th : Bytes} (n m : Nat) :
    keyGen cfg C ct prk th n = keyGen cfg C ct prk th m := by
  unfold keyGen; rw [if_neg hct, if_neg hct]

/-- C40: from message_3 the responder recovers, with the same PRK_3e2m and TH_3, the ID_CRED_I and
Signature_or_MAC_3 that the initiator put in, and EAD_3 if that was an encoded byte string (or absent). -/
theorem C40_message_3_partial {cfg : ECfg} {C : ECrypto} (hC : C.Lawful) {suite : Suite}
    {id w sm e prk th c3 p3 m3 : Bytes} {buf cap mcap idCap eadCap : Nat} (hw : IdWire id w)
    (hth : th.length = 32) (hsm : sm.length ≤ 64) (he : e.length < 2 ^ 32) (hc3 : c3.length < 2 ^ 32)
    (h1 : ciphertextGen cfg C .c3 suite [] id sm (eadWire e) prk th buf cap = .ok (c3, p3))
    (h2 : encodeBstr c3 mcap = .ok m3) (f3 : id.length ≤ idCap) (f4 : e.length ≤ eadCap) :
    decodeBstr cfg m3 m3.length = .ok c3 ∧ ctxtDecrypt cfg C .c3 suite prk th c3 = .ok p3 ∧
    plaintext3Split cfg p3 idCap eadCap = .ok ⟨id, sm, e⟩ := by
  obtain ⟨a1, a2, a3, a4⟩ := C40_ciphertext_34 hC (by simp) hth (keyGen34 (by simp) _ _) h1
  obtain ⟨rfl, -⟩ := encodeBstr_ok.1 h2
  refine ⟨?_, a2, ?_⟩
  · have := decodeBstr_bstr cfg (b := c3) [] (cap := (enc (.bstr c3)).length) (by omega) (by
      rw [enc, List.length_append]; omega)
    rwa [List.append_nil] at this
  · rw [ptxt3Gen_ok hw a3]
    exact split3_of hw hsm he f3 f4

/-- C40: from message_4 the initiator recovers, with the same PRK_4e3m and TH_4, the EAD_4 of the responder
if that was an encoded byte string (or absent). -/
theorem C40_message_4 {cfg : ECfg} {C : ECrypto} (hC : C.Lawful) {suite : Suite} {e prk th m4 : Bytes}
    {mcap eadCap : Nat} (hth : th.length = 32) (he : e.length < 2 ^ 32) (hs : cfg.plaintext4Size < 2 ^ 32)
    (h : msg4Gen cfg C (eadWire e) suite prk th mcap = .ok m4) (f4 : e.length ≤ eadCap) :
    msg4Process cfg C suite prk th m4 eadCap = .ok e := by
  unfold msg4Gen at h
  obtain ⟨⟨c4, p4⟩, h1, h⟩ := R.bind_eq_ok.1 h
  obtain ⟨a1, a2, a3, a4⟩ := C40_ciphertext_34 hC (by simp) hth (keyGen34 (by simp) _ _) h1
  obtain ⟨rfl, -⟩ := encodeBstr_ok.1 h
  unfold msg4Process
  have := decodeBstr_bstr cfg (b := c4) [] (cap := cfg.plaintext4Size) (by omega) a4
  rw [List.append_nil] at this
  rw [this, R.ok_bind, checkOk (by omega), R.ok_bind, a2, R.ok_bind, ptxt4Gen_ok a3]
  unfold ead4Of
  by_cases hn : e = []
  · subst hn; rw [eadWire_nil]; rfl
  · have e1 : eadWire e = enc (.bstr e) := by simp [eadWire, EdhocSpec.optEad, hn, encList]
    have e2 := decodeBstr_bstr cfg (b := e) [] (cap := eadCap) (by omega) f4
    rw [List.append_nil] at e2
    rw [e1, if_pos (by rw [enc, List.length_append]; have := List.length_pos_iff.2 hn; omega), e2]

/-! Concrete cases. -/
def exMsg1 : Bytes := ((msg1Gen {} toyE (toyI 3)).getD ⟨[], ⟨0, .ccm64, 8, .x25519, .eddsa, .ccm64⟩, []⟩).1

/-- the hypotheses of `C40_message_1` are met by the example initiator: the message has the two suites, and the
responder reads the fields back -/
example : (msg1Gen {} toyE (toyI 3)).isOk = true ∧
    msg1Parse {} exMsg1 8 [] = .ok ⟨3, [2, 0], List.replicate 32 1, [0xaa, 0xbb], []⟩ := by decide +kernel

/-- the hypotheses of `C40_message_2_partial` are met: two-byte C_R, x5t, EAD_2 = h'0909' -/
example : (match ciphertextGen { eadSize := 8 } toyE .c2 ⟨0, .ccm64, 8, .x25519, .eddsa, .ccm64⟩ [0xcc, 0x27] toyR.idCredR
      [1, 2, 3, 4, 5, 6, 7, 8] (eadWire [9, 9]) (List.replicate 32 4) (List.replicate 32 3) 100 100 with
    | .ok (c2, p2) => (msg2Encode { eadSize := 8 } toyR.gY c2).isOk && decide (p2.length = 23)
    | _ => false) = true := by decide +kernel
/-- and of `C40_message_4` -/
example : (match msg4Gen { eadSize := 32 } toyE (eadWire [9, 9]) ⟨0, .ccm64, 8, .x25519, .eddsa, .ccm64⟩ (List.replicate 32 4)
      (List.replicate 32 3) 100 with
    | .ok m4 => decide (msg4Process { eadSize := 32 } toyE ⟨0, .ccm64, 8, .x25519, .eddsa, .ccm64⟩ (List.replicate 32 4)
      (List.replicate 32 3) m4 8 = .ok [9, 9])
    | _ => false) = true := by decide +kernel

/-- C40 is false of the code for EAD_2 (and EAD_3): the encoder appends the bytes as they are, the decoder
expects a byte string.  The raw EAD h'0909' is silently dropped. -/
theorem C40_false_ead :
    ∃ p, plaintextGen { eadSize := 8 } .c3 [] toyR.idCredR [1, 2, 3, 4, 5, 6, 7, 8] [9, 9] 100 = .ok p ∧
      plaintext3Split { eadSize := 8 } p 100 8 = .ok ⟨toyR.idCredR, [1, 2, 3, 4, 5, 6, 7, 8], []⟩ :=
  ⟨toyR.idCredR ++ [0x48, 1, 2, 3, 4, 5, 6, 7, 8] ++ [9, 9], by decide +kernel, by decide +kernel⟩

/-- C40 is false of the code for an absent EAD_1 in a build with EAD_SIZE ≠ 0: the responder's application is
given EAD_SIZE zero bytes as EAD_1. -/
theorem C40_false_absent_ead_1 :
    ∃ m su h, msg1Gen { eadSize := 8 } toyE (toyI 3) = .ok (m, su, h) ∧ (toyI 3).ead1 = [] ∧
      (msg2Gen { eadSize := 8 } toyE toyR m 8 (List.replicate 8 0)).isOk = true ∧
      msg1Parse { eadSize := 8 } m 8 (List.replicate 8 0) =
        .ok ⟨3, [2, 0], List.replicate 32 1, [0xaa, 0xbb], List.replicate 8 0⟩ := by
  refine ⟨exMsg1, ⟨0, .ccm64, 8, .x25519, .eddsa, .ccm64⟩, toyE.hash exMsg1, ?_, ?_, ?_, ?_⟩ <;> decide +kernel

/-! ### C45 -/

theorem cIStored_eq {c : Bytes} (h : ∀ b, c = [b] → ¬ (0x20 ≤ b.toNat ∧ b.toNat ≤ 0x37)) : cIStored c = c := by
  match c, h with
  | [], _ => rfl
  | [b], h => simp only [cIStored]; rw [if_neg (h b rfl)]
  | _ :: _ :: _, _ => rfl

theorem C40_message_1_method_range {cfg : ECfg} {m ead : Bytes} {cap : Nat} {p : Parsed1}
    (h : msg1Parse cfg m cap ead = .ok p) : 0 ≤ p.method ∧ p.method ≤ 3 := by
  unfold msg1Parse at h
  split at h
  · cases h
  · split at h
    · cases h
    · rename_i hm
      obtain ⟨_, _, h⟩ := R.bind_eq_ok.1 h
      obtain ⟨_, _, h⟩ := R.bind_eq_ok.1 h
      obtain ⟨_, _, h⟩ := R.bind_eq_ok.1 h
      obtain ⟨_, _, h⟩ := R.bind_eq_ok.1 h
      cases h
      simp only; omega

/-- C45, C_I: the responder represents the initiator's C_I by the same bytes, unless it is the one-byte
encoding of a negative integer (0x20 to 0x37).  Any other length and value, including the empty one. -/
theorem C45_C_I_partial {cfg cfg' : ECfg} {C : ECrypto} {c : ICtx} {m h : Bytes} {su : Suite} {cICap : Nat} {ead : Bytes}
    (hg : msg1Gen cfg C c = .ok (m, su, h)) (hm : 0 ≤ c.method ∧ c.method ≤ 3) (hgx : c.gX.length ≤ 32)
    (hs : c.suitesI.length ≤ cfg'.suitesISize) (hc : c.cI.length ≤ cICap) (hc' : c.cI.length < 2 ^ 32)
    (he : c.ead1.length ≤ ead.length) (he' : c.ead1.length < 2 ^ 32)
    (hn : ∀ b, c.cI = [b] → ¬ (0x20 ≤ b.toNat ∧ b.toNat ≤ 0x37)) :
    ∃ p, msg1Parse cfg' m cICap ead = .ok p ∧ p.cI = c.cI :=
  ⟨_, C40_message_1 hg hm hgx hs hc hc' he he', cIStored_eq hn⟩

/-- C45 is false of the code for C_I: for each of the 24 one-byte encodings of a negative integer the
responder ends up with another byte string. -/
theorem C45_false_C_I {cfg cfg' : ECfg} {C : ECrypto} {c : ICtx} {m h : Bytes} {su : Suite} {cICap : Nat} {ead : Bytes}
    {b : UInt8} (hg : msg1Gen cfg C c = .ok (m, su, h)) (hm : 0 ≤ c.method ∧ c.method ≤ 3) (hgx : c.gX.length ≤ 32)
    (hs : c.suitesI.length ≤ cfg'.suitesISize) (hc : 1 ≤ cICap)
    (he : c.ead1.length ≤ ead.length) (he' : c.ead1.length < 2 ^ 32)
    (hb : c.cI = [b]) (hn : 0x20 ≤ b.toNat ∧ b.toNat ≤ 0x37) :
    ∃ p b', msg1Parse cfg' m cICap ead = .ok p ∧ p.cI = [b'] ∧ b' ≠ b := by
  have h1 := C40_message_1 hg hm hgx hs (by rw [hb]; exact hc) (by rw [hb]; simp) he he'
  refine ⟨_, byte (0x11F - b.toNat), h1, ?_, ?_⟩
  · simp only [hb, cIStored]; rw [if_pos hn]
  · intro e
    have e2 := congrArg UInt8.toNat e
    rw [byte_toNat (by omega)] at e2
    omega

example : (msg1Gen {} toyE { toyI 3 with cI := [0x21] }).isOk = true := by decide +kernel

/-- C45, C_R: whatever message_2 the responder built, the initiator that decrypts it with the same PRK_2e and TH_2
represents C_R by the same bytes (all lengths and values that fit its buffer). -/
theorem C45_C_R {cfg cfg' : ECfg} {C : ECrypto} (hC : C.Lawful) {suite : Suite}
    {gY cR id w sm e prk th c2 p2 m2 : Bytes} {buf cap crCap idCap eadCap : Nat} (hw : IdWire id w)
    (hg : gY.length = 32) (hth : th.length = 32) (hp : p2.length ≤ 255 * 32) (hsm : sm.length ≤ 64)
    (he : e.length < 2 ^ 32) (hcr : cR.length < 2 ^ 32)
    (h1 : ciphertextGen cfg C .c2 suite cR id sm (eadWire e) prk th buf cap = .ok (c2, p2))
    (h2 : msg2Encode cfg gY c2 = .ok m2)
    (f1 : 32 + p2.length ≤ cfg'.gYCiphertext2) (f2 : cR.length ≤ crCap) (f3 : id.length ≤ idCap) (f4 : e.length ≤ eadCap) :
    ∃ s, plaintext2Split cfg' p2 crCap idCap eadCap = .ok (cR, s) :=
  ⟨_, (C40_message_2_partial hC hw hg hth hp hsm he hcr h1 h2 f1 f2 f3 f4).2.2⟩

end Verif.Edhoc
