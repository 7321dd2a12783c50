import Verif.Lemmas.EdhocTotal
/-
Encoding and decoding of plaintexts and messages.
-/
namespace Verif.Edhoc
open Verif Cbor

/-- ID_CRED_x forms the library can send, with their form in a plaintext -/
inductive IdWire : Bytes → Bytes → Prop where
  | kid {k : Int} (h : Int32 k) : IdWire (idKid k) (enc (.int k))
  | x5chain {c : Bytes} (h : c.length < 2 ^ 32) : IdWire (idX5chain c) (idX5chain c)
  | x5t {a : Int} {h : Bytes} (h1 : Int32 a) (h2 : h.length < 2 ^ 32) : IdWire (idX5t a h) (idX5t a h)

theorem enc_int_length {i : Int} (h : Int32 i) : 1 ≤ (enc (.int i)).length ∧ (enc (.int i)).length ≤ 5 := by
  obtain ⟨h1, h2⟩ := h
  unfold Item.int
  split <;> rw [enc, head_length] <;> (repeat' split) <;> omega

theorem IdWire.le {id w : Bytes} (h : IdWire id w) : w.length ≤ id.length := by
  cases h with
  | kid h =>
    unfold idKid
    rw [enc.eq_def (.map _)]
    simp only [encList, List.length_append, List.append_nil]
    omega
  | x5chain h => exact Nat.le_refl _
  | x5t h1 h2 => exact Nat.le_refl _

theorem IdWire.ne {id w : Bytes} (h : IdWire id w) : 1 ≤ w.length := by
  cases h with
  | kid h => exact (enc_int_length h).1
  | x5chain h =>
    unfold idX5chain
    rw [enc.eq_def (.map _)]
    simp only [List.length_append, head_length]
    (repeat' split) <;> omega
  | x5t h1 h2 =>
    unfold idX5t
    rw [enc.eq_def (.map _)]
    simp only [List.length_append, head_length]
    (repeat' split) <;> omega

theorem idField_wire (cfg : ECfg) {id w : Bytes} (h : IdWire id w) : idField cfg id = .ok w := by
  unfold idField idCred2kid
  cases h with
  | @kid k h =>
    have := zIdMap_kid cfg.strictCbor [] h
    rw [List.append_nil] at this
    rw [this]
    have h5 := enc_int_length h
    have e : encodeInt k kidSize = .ok (enc (.int k)) := by
      unfold encodeInt
      rw [cborInt_eq]
      exact cborOut_ok.2 ⟨rfl, by unfold kidSize; omega⟩
    simp only [e, R.ok_bind]
    rw [if_pos (by omega)]
    rfl
  | @x5chain c h =>
    have := zIdMap_x5chain cfg.strictCbor [] (c := c) (by omega)
    rw [List.append_nil] at this
    rw [this]
    rfl
  | @x5t a h h1 h2 =>
    have := zIdMap_x5t cfg.strictCbor [] h1 (h := h) (by omega)
    rw [List.append_nil] at this
    rw [this]
    rfl

/-- the decoder's view of a sent ID_CRED_x -/
theorem zIdField_wire (s : Bool) {id w : Bytes} (h : IdWire id w) (x : Bytes) :
    ∃ f, zIdField s (w ++ x) = some (f, x) ∧ ∀ cap, id.length ≤ cap → idCredOf f cap = .ok id := by
  unfold zIdField
  cases h with
  | @kid k h =>
    refine ⟨.int k, ?_, ?_⟩
    · rw [zIdMap_int s x h, zBstr_int s x h, zInt32_int s x h]
    · intro cap hc
      simp only [idCredOf, idCredKid]
      have e : cborMap 1 ++ cborUint 4 ++ cborInt k = idKid k := by
        unfold idKid
        rw [enc.eq_def (.map _)]
        simp only [cborMap, cborArr, cborHead_eq, cborUint_eq, cborInt_eq, encList, List.append_nil, List.append_assoc]
        simp
      rw [e]
      exact cborOut_ok.2 ⟨rfl, hc⟩
  | @x5chain c h =>
    refine ⟨_, by rw [zIdMap_x5chain s x (by omega)], ?_⟩
    intro cap hc
    simp only [idCredOf, IdMap.none, idCredX5chain]
    have e : cborMap 1 ++ cborUint 33 ++ cborBstr c = idX5chain c := by
      unfold idX5chain
      rw [enc.eq_def (.map _)]
      simp only [cborMap, cborArr, cborHead_eq, cborUint_eq, cborBstr_eq, encList, List.append_nil, List.append_assoc]
      simp
    rw [e]
    exact cborOut_ok.2 ⟨rfl, hc⟩
  | @x5t a h h1 h2 =>
    refine ⟨_, by rw [zIdMap_x5t s x h1 (by omega)], ?_⟩
    intro cap hc
    simp only [idCredOf, IdMap.none, idCredX5t]
    have e : cborMap 1 ++ cborUint 34 ++ cborArr 2 ++ cborInt a ++ cborBstr h = idX5t a h := by
      unfold idX5t
      rw [enc.eq_def (.map _)]
      simp only [cborMap, cborArr, cborHead_eq, cborUint_eq, cborInt_eq, cborBstr_eq, encList, List.append_nil, List.append_assoc]
      rw [enc.eq_def (.arr _)]
      simp only [encList, List.append_nil, List.append_assoc]
      simp
    rw [e]
    exact cborOut_ok.2 ⟨rfl, hc⟩

/-! ### connection identifiers -/

theorem isEncodedInt_iff {c : Bytes} : isEncodedInt c = true ↔
    ∃ i : Int, -24 ≤ i ∧ i < 24 ∧ c = enc (.int i) ∧ EdhocSpec.connId c = .int i := by
  constructor
  · intro h
    match c, h with
    | [b], h =>
      have hb := b.toNat_lt
      simp only [isEncodedInt, Bool.or_eq_true, Bool.and_eq_true, decide_eq_true_eq] at h
      by_cases h1 : b.toNat < 0x18
      · refine ⟨b.toNat, by omega, by omega, ?_, ?_⟩
        · unfold Item.int
          rw [if_pos (by omega), enc, Int.toNat_natCast]
          unfold head
          rw [if_pos h1]
          simp [byte_of_toNat]
        · simp only [EdhocSpec.connId, Item.int]
          rw [if_pos (by omega), if_pos (by omega), Int.toNat_natCast]
      · have h2 : 0x20 ≤ b.toNat ∧ b.toNat ≤ 0x37 := by omega
        refine ⟨-1 - ((b.toNat - 0x20 : Nat) : Int), by omega, by omega, ?_, ?_⟩
        · unfold Item.int
          rw [if_neg (by omega), enc]
          have : (-1 - (-1 - ((b.toNat - 0x20 : Nat) : Int))).toNat = b.toNat - 0x20 := by omega
          rw [this]
          unfold head
          rw [if_pos (by omega)]
          have : 1 * 32 + (b.toNat - 0x20) = b.toNat := by omega
          rw [this, byte_of_toNat]
        · simp only [EdhocSpec.connId, Item.int]
          rw [if_neg (by omega), if_pos h2, if_neg (by omega)]
          congr 1; omega
  · rintro ⟨i, h1, h2, rfl, -⟩
    unfold Item.int
    split
    · rw [enc]; unfold head; rw [if_pos (by omega)]
      simp only [isEncodedInt, Bool.or_eq_true, decide_eq_true_eq]
      left; rw [byte_toNat (by omega)]; omega
    · rw [enc]; unfold head; rw [if_pos (by omega)]
      simp only [isEncodedInt, Bool.or_eq_true, Bool.and_eq_true, decide_eq_true_eq]
      right; rw [byte_toNat (by omega)]; omega

theorem connId_bstr {c : Bytes} (h : isEncodedInt c = false) : EdhocSpec.connId c = .bstr c := by
  match c, h with
  | [], _ => rfl
  | [b], h =>
    simp only [isEncodedInt, Bool.or_eq_false_iff, Bool.and_eq_false_iff, decide_eq_false_iff_not] at h
    simp only [EdhocSpec.connId]
    rw [if_neg (by omega), if_neg (by omega)]
  | _ :: _ :: _, _ => rfl

/-- C_x on the wire and back -/
theorem connId_length {c : Bytes} (h : c.length < 2 ^ 32) :
    (enc (EdhocSpec.connId c)).length ≤ asBstr c.length := by
  cases hc : isEncodedInt c with
  | true =>
    obtain ⟨i, _, _, e1, e2⟩ := isEncodedInt_iff.1 hc
    rw [e2, ← e1]
    have := le_asBstr c.length
    omega
  | false => rw [connId_bstr hc]; exact bstr_length_le h

theorem zIntOrBstr_connId (s : Bool) {c : Bytes} (h : c.length < 2 ^ 32) (x : Bytes) :
    ∃ f, zIntOrBstr s (enc (EdhocSpec.connId c) ++ x) = some (f, x) ∧
      ∀ cap, c.length ≤ cap → crOf f cap = .ok c := by
  cases hc : isEncodedInt c with
  | true =>
    obtain ⟨i, h1, h2, e1, e2⟩ := isEncodedInt_iff.1 hc
    refine ⟨.inl i, by rw [e2]; exact zIntOrBstr_int s x ⟨by omega, by omega⟩, ?_⟩
    intro cap hcap
    simp only [crOf, encodeInt, cborInt_eq]
    exact cborOut_ok.2 ⟨e1, by rw [← e1]; exact hcap⟩
  | false =>
    refine ⟨.inr c, by rw [connId_bstr hc]; exact zIntOrBstr_bstr s x (by omega), ?_⟩
    intro cap hcap
    exact memcpyS_ok.2 ⟨rfl, hcap⟩

/-! ### plaintexts -/

/-- plaintext 2 as put together by the library: C_R, ID_CRED_R, Signature_or_MAC_2, EAD_2 -/
def ptxt2Of (cR idW sm ead : Bytes) : Bytes := enc (EdhocSpec.connId cR) ++ idW ++ enc (.bstr sm) ++ ead
/-- plaintext 3 as put together by the library -/
def ptxt3Of (idW sm ead : Bytes) : Bytes := idW ++ enc (.bstr sm) ++ ead

theorem append_ok {d s o : Bytes} {cap : Nat} (h : byteArrayAppend d s cap = .ok o) : o = d ++ s := by
  exact (byteArrayAppend_ok h)

theorem crField_ok {cfg : ECfg} {cR o : Bytes} (h : crField cfg cR = .ok o) : o = enc (EdhocSpec.connId cR) := by
  unfold crField at h
  cases hc : isEncodedInt cR with
  | true =>
    obtain ⟨i, _, _, e1, e2⟩ := isEncodedInt_iff.1 hc
    rw [hc, if_pos rfl] at h
    cases h
    rw [e2, ← e1]
  | false =>
    rw [hc, if_neg (by simp)] at h
    obtain ⟨_, _, h⟩ := R.bind_eq_ok.1 h
    rw [connId_bstr hc]
    exact (encodeBstr_ok.1 h).1

theorem ptxt2Gen_ok {cfg : ECfg} {cR id w sm ead p : Bytes} {cap : Nat} (hw : IdWire id w)
    (h : plaintextGen cfg .c2 cR id sm ead cap = .ok p) : p = ptxt2Of cR w sm ead := by
  unfold plaintextGen at h
  obtain ⟨_, _, h⟩ := R.bind_eq_ok.1 h
  obtain ⟨e, he, h⟩ := R.bind_eq_ok.1 h
  obtain ⟨c, hc, h⟩ := R.bind_eq_ok.1 h
  obtain ⟨p1, h1, h⟩ := R.bind_eq_ok.1 h
  rw [idField_wire cfg hw, R.ok_bind] at h
  obtain ⟨p2, h2, h⟩ := R.bind_eq_ok.1 h
  obtain ⟨p3, h3, h⟩ := R.bind_eq_ok.1 h
  rw [append_ok h, append_ok h3, append_ok h2, append_ok h1, crField_ok hc, (encodeBstr_ok.1 he).1]
  rfl

theorem ptxt3Gen_ok {cfg : ECfg} {cR id w sm ead p : Bytes} {cap : Nat} (hw : IdWire id w)
    (h : plaintextGen cfg .c3 cR id sm ead cap = .ok p) : p = ptxt3Of w sm ead := by
  unfold plaintextGen at h
  obtain ⟨_, _, h⟩ := R.bind_eq_ok.1 h
  obtain ⟨e, he, h⟩ := R.bind_eq_ok.1 h
  rw [idField_wire cfg hw, R.ok_bind] at h
  obtain ⟨p2, h2, h⟩ := R.bind_eq_ok.1 h
  obtain ⟨p3, h3, h⟩ := R.bind_eq_ok.1 h
  rw [append_ok h, append_ok h3, append_ok h2, (encodeBstr_ok.1 he).1]
  rfl

theorem ptxt4Gen_ok {cfg : ECfg} {cR id sm ead p : Bytes} {cap : Nat}
    (h : plaintextGen cfg .c4 cR id sm ead cap = .ok p) : p = ead := by
  unfold plaintextGen at h
  obtain ⟨_, _, h⟩ := R.bind_eq_ok.1 h
  obtain ⟨e, he, h⟩ := R.bind_eq_ok.1 h
  rw [append_ok h]; rfl

theorem ptxt2Gen_total {cfg : ECfg} {cR id w sm ead : Bytes} {cap : Nat} (hw : IdWire id w)
    (h1 : sm.length ≤ 64) (h2 : asBstr cR.length ≤ asBstr cfg.cISize) (h4 : cap < 2 ^ 32)
    (h3 : asBstr cR.length + id.length + asBstr sm.length + ead.length ≤ cap) :
    plaintextGen cfg .c2 cR id sm ead cap = .ok (ptxt2Of cR w sm ead) := by
  have hle := le_asBstr cR.length
  have hw' := hw.le
  have hs := bstr_length_le (b := sm) (by omega)
  have hc := connId_length (c := cR) (by omega)
  have hcf : crField cfg cR = .ok (enc (EdhocSpec.connId cR)) := by
    unfold crField
    cases hi : isEncodedInt cR with
    | true =>
      obtain ⟨i, _, _, e1, e2⟩ := isEncodedInt_iff.1 hi
      rw [if_pos rfl, e2, ← e1]; rfl
    | false =>
      rw [if_neg (by simp), checkOk h2, R.ok_bind, connId_bstr hi]
      exact encodeBstr_asBstr (by omega)
  unfold plaintextGen
  rw [checkOk (asBstr_mono (by unfold sigOrMacSize; omega)), R.ok_bind, encodeBstr_asBstr (by omega), R.ok_bind]
  simp only
  rw [hcf, R.ok_bind, append_total (by simp only [List.length_nil]; omega) h4, R.ok_bind,
    idField_wire cfg hw, R.ok_bind, append_total (by simp only [List.length_append, List.length_nil]; omega) h4, R.ok_bind,
    append_total (by simp only [List.length_append, List.length_nil]; omega) h4, R.ok_bind,
    append_total (by simp only [List.length_append, List.length_nil]; omega) h4]
  rfl

theorem ptxt3Gen_total {cfg : ECfg} {cR id w sm ead : Bytes} {cap : Nat} (hw : IdWire id w)
    (h1 : sm.length ≤ 64) (h4 : cap < 2 ^ 32)
    (h3 : id.length + asBstr sm.length + ead.length ≤ cap) :
    plaintextGen cfg .c3 cR id sm ead cap = .ok (ptxt3Of w sm ead) := by
  have hw' := hw.le
  have hs := bstr_length_le (b := sm) (by omega)
  unfold plaintextGen
  rw [checkOk (asBstr_mono (by unfold sigOrMacSize; omega)), R.ok_bind, encodeBstr_asBstr (by omega), R.ok_bind]
  simp only
  rw [idField_wire cfg hw, R.ok_bind, append_total (by simp only [List.length_nil]; omega) h4, R.ok_bind,
    append_total (by simp only [List.length_append, List.length_nil]; omega) h4, R.ok_bind,
    append_total (by simp only [List.length_append, List.length_nil]; omega) h4]
  rfl

/-- the EAD field as the decoders read it: an optional byte string -/
def eadWire (e : Bytes) : Bytes := encList (EdhocSpec.optEad e)

theorem eadWire_nil : eadWire [] = [] := by simp [eadWire, EdhocSpec.optEad, encList]

theorem zOptBstr_wire (s : Bool) {e : Bytes} (h : e.length < 2 ^ 32) :
    ∃ f, zOptBstr s (eadWire e) = f ∧ ∀ cap, e.length ≤ cap → eadOf f cap = .ok e := by
  by_cases he : e = []
  · subst he
    refine ⟨none, by rw [eadWire_nil]; exact zOptBstr_nil s, fun cap _ => rfl⟩
  · refine ⟨some e, ?_, fun cap hc => memcpyS_ok.2 ⟨rfl, hc⟩⟩
    have := zOptBstr_bstr s (b := e) [] (by omega)
    rw [List.append_nil] at this
    simp [eadWire, EdhocSpec.optEad, he, encList, this]

theorem split3_of {cfg : ECfg} {id w sm e : Bytes} {idCap eadCap : Nat} (hw : IdWire id w) (h1 : sm.length ≤ 64)
    (he : e.length < 2 ^ 32) (h2 : id.length ≤ idCap) (h3 : e.length ≤ eadCap) :
    plaintext3Split cfg (ptxt3Of w sm (eadWire e)) idCap eadCap = .ok ⟨id, sm, e⟩ := by
  unfold plaintext3Split decPtxt3 ptxt3Of
  obtain ⟨f, hf, hf'⟩ := zIdField_wire cfg.strictCbor hw (enc (.bstr sm) ++ eadWire e)
  obtain ⟨g, hg, hg'⟩ := zOptBstr_wire cfg.strictCbor he
  rw [List.append_assoc, hf]
  simp only
  rw [zBstr_bstr _ _ (by omega)]
  simp only [splitFields]
  rw [hf' _ h2, R.ok_bind, memcpyS_ok.2 ⟨rfl, by unfold sigOrMacSize; omega⟩, R.ok_bind, hg, hg' _ h3, R.ok_bind]
  rfl

theorem split2_of {cfg : ECfg} {cR id w sm e : Bytes} {crCap idCap eadCap : Nat} (hw : IdWire id w) (h1 : sm.length ≤ 64)
    (he : e.length < 2 ^ 32) (hc : cR.length < 2 ^ 32) (h2 : id.length ≤ idCap) (h3 : e.length ≤ eadCap)
    (h4 : cR.length ≤ crCap) :
    plaintext2Split cfg (ptxt2Of cR w sm (eadWire e)) crCap idCap eadCap = .ok (cR, ⟨id, sm, e⟩) := by
  have h := split3_of (cfg := cfg) hw h1 he h2 h3
  unfold plaintext3Split at h
  unfold plaintext2Split decPtxt2 ptxt2Of
  obtain ⟨f, hf, hf'⟩ := zIntOrBstr_connId cfg.strictCbor hc (ptxt3Of w sm (eadWire e))
  have e1 : enc (EdhocSpec.connId cR) ++ w ++ enc (.bstr sm) ++ eadWire e =
      enc (EdhocSpec.connId cR) ++ ptxt3Of w sm (eadWire e) := by simp [ptxt3Of]
  rw [e1, hf]
  simp only
  cases hd : decPtxt3 cfg.strictCbor (ptxt3Of w sm (eadWire e)) with
  | none => rw [hd] at h; cases h
  | some p =>
    rw [hd] at h
    simp only at h ⊢
    rw [hf' _ h4, R.ok_bind, h]
    rfl

end Verif.Edhoc
