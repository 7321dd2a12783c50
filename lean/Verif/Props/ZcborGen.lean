import Verif.Lemmas.ZcborEnc
import Verif.Props.EdhocWire
import Verif.Model.EdhocMsg
/-
C70: the generated CBOR functions (src/cbor/*.c), run call by call on zcbor's cursor, element counter and backup
stack, decode exactly the grammar and encode exactly the deterministic encoding of RFC 8949.

Decoders: `Message1`, `Plaintext2`, ... are the CDDL (Spec/EdhocGrammar.lean) over well-formed CBOR
(Spec/CborWf.lean).  Encoders: `enc`, `encList` (Spec/CborSpec.lean).
-/
namespace Verif.Zcbor
open Verif Verif.Edhoc Verif.Cbor Verif.EdhocGrammar

/-! ### deterministic encodings are well-formed -/

theorem head_wf {s : Bool} {m n : Nat} (h : n < 2 ^ 64) : IsHead s m n (head m n) := by
  unfold head
  have wid : ∀ {ai k least : Nat}, (ai, k, least) ∈ widths → least ≤ n → n < 256 ^ k →
      IsHead s m n (byte (m * 32 + ai) :: be k n) := by
    intro ai k least hw hl hk
    exact Or.inr ⟨ai, k, least, be k n, hw, be_length .., by rw [beVal_be, Nat.mod_eq_of_lt hk], fun _ => hl, rfl⟩
  split
  · rename_i h1
    exact Or.inl ⟨h1, rfl⟩
  · split
    · exact wid (least := 24) (by simp [widths]) (by omega) (by omega)
    · split
      · exact wid (least := 2 ^ 8) (by simp [widths]) (by omega) (by omega)
      · split
        · exact wid (least := 2 ^ 16) (by simp [widths]) (by omega) (by omega)
        · exact wid (least := 2 ^ 32) (by simp [widths]) (by omega) (by omega)

mutual
theorem item_wf {s : Bool} : ∀ {i : Item}, i.Ok → IsItem s i (enc i)
  | .uint n, h => by rw [IsItem, enc]; exact head_wf (by simpa [Item.Ok] using h)
  | .nint n, h => by rw [IsItem, enc]; exact head_wf (by simpa [Item.Ok] using h)
  | .bstr v, h => by rw [IsItem, enc]; exact ⟨_, head_wf (by simpa [Item.Ok] using h), rfl⟩
  | .tstr v, h => by rw [IsItem, enc]; exact ⟨_, head_wf (by simpa [Item.Ok] using h), rfl⟩
  | .arr l, h => by
    rw [IsItem, enc]
    simp only [Item.Ok] at h
    exact ⟨_, _, head_wf h.1, seq_wf h.2, rfl⟩
  | .map l, h => by
    rw [IsItem, enc]
    simp only [Item.Ok] at h
    exact ⟨_, _, head_wf (by omega), seq_wf h.2.2, rfl⟩
  | .null, h => by rw [IsItem, enc]
theorem seq_wf {s : Bool} : ∀ {l : List Item}, OkList l → IsSeq s l (encList l)
  | [], h => by rw [IsSeq, encList]
  | i :: l, h => by
    rw [IsSeq, encList]
    simp only [OkList] at h
    exact ⟨_, _, item_wf h.1, seq_wf h.2, rfl⟩
end

/-! ### decoders -/

/-- C70: `cbor_decode_message_1` returns exactly the fields of a message_1 in the grammar -/
theorem C70_decode_message_1 {L : Lib} (ht : L.Tidy) {b : Bytes} {m : Msg1} :
    cborDecodeMessage1 L b = some m ↔ Message1 L.strict m.method m.suites m.gX m.cI m.ead1 b := by
  rw [msg1_eq ht, decMsg1_iff]

/-- C70: `cbor_decode_ptxt2` -/
theorem C70_decode_plaintext_2 {L : Lib} (ht : L.Tidy) (hl : 9 < L.mapLimit) {b : Bytes} {c : Int ⊕ Bytes} {p : Ptxt3} :
    cborDecodePtxt2 L b = some (c, p) ↔
      IdFieldOk p.id ∧ Plaintext2 L.strict c (idFieldItem p.id) p.sigOrMac p.ead b := by
  rw [ptxt2_eq ht hl, decPtxt2_iff]

/-- C70: `cbor_decode_ptxt3` -/
theorem C70_decode_plaintext_3 {L : Lib} (ht : L.Tidy) (hl : 9 < L.mapLimit) {b : Bytes} {p : Ptxt3} :
    cborDecodePtxt3 L b = some p ↔ IdFieldOk p.id ∧ Plaintext3 L.strict (idFieldItem p.id) p.sigOrMac p.ead b := by
  rw [ptxt3_eq ht hl, decPtxt3_iff]

/-- C70: `cbor_decode_id_cred_x_map` -/
theorem C70_decode_id_cred {L : Lib} (ht : L.Tidy) (hl : 9 < L.mapLimit) {b : Bytes} {m : IdMap} :
    cborDecodeIdCredX L b = some m ↔
      IdMapOk m ∧ ∃ x r, IsItem L.strict (.map (idMapEntries m)) x ∧ b = x ++ r := by
  rw [idCred_eq ht hl]
  constructor
  · intro h
    cases hz : zIdMap L.strict b with
    | none => rw [hz] at h; cases h
    | some r =>
      obtain ⟨m', l⟩ := r
      rw [hz] at h
      cases h
      obtain ⟨h1, x, h2, h3⟩ := zIdMap_iff.1 hz
      exact ⟨h1, x, l, h2, h3⟩
  · rintro ⟨h1, x, r, h2, h3⟩
    rw [zIdMap_iff.2 ⟨h1, x, h2, h3⟩]
    rfl

/-- the fields of a C509 certificate as data items, in order -/
def certItems (c : CertFields) : List Item :=
  [.int c.type, .int c.serial, .tstr c.issuer, .int c.notBefore, .int c.notAfter, .bstr c.subject, .int c.pkAlg,
    .bstr c.pk, .int c.extensions, .int c.sigAlg, .bstr c.signature]

/-- C70: `cbor_decode_cert`, with every version of the library -/
theorem C70_decode_cert (L : Lib) {b : Bytes} {c : CertFields} :
    cborDecodeCert L b = some c ↔
      (∀ i ∈ [c.type, c.serial, c.notBefore, c.notAfter, c.pkAlg, c.extensions, c.sigAlg], I32 i) ∧
      ∃ w r, IsSeq L.strict (certItems c) w ∧ b = w ++ r := by
  rw [cert_chain]
  unfold certChain certItems
  simp only [Option.bind_eq_some_iff, Option.some.injEq, isSeq_cons, isSeq_nil, List.forall_mem_cons]
  constructor
  · rintro ⟨⟨v0, b0⟩, h0, ⟨v1, b1⟩, h1, ⟨v2, b2⟩, h2, ⟨v3, b3⟩, h3, ⟨v4, b4⟩, h4, ⟨v5, b5⟩, h5, ⟨v6, b6⟩, h6,
      ⟨v7, b7⟩, h7, ⟨v8, b8⟩, h8, ⟨v9, b9⟩, h9, ⟨v10, b10⟩, h10, rfl⟩
    simp only at h1 h2 h3 h4 h5 h6 h7 h8 h9 h10
    obtain ⟨o0, x0, e0, rfl⟩ := zInt32_iff.1 h0
    obtain ⟨o1, x1, e1, rfl⟩ := zInt32_iff.1 h1
    obtain ⟨x2, e2, rfl⟩ := zTstr_iff.1 h2
    obtain ⟨o3, x3, e3, rfl⟩ := zInt32_iff.1 h3
    obtain ⟨o4, x4, e4, rfl⟩ := zInt32_iff.1 h4
    obtain ⟨x5, e5, rfl⟩ := zBstr_iff.1 h5
    obtain ⟨o6, x6, e6, rfl⟩ := zInt32_iff.1 h6
    obtain ⟨x7, e7, rfl⟩ := zBstr_iff.1 h7
    obtain ⟨o8, x8, e8, rfl⟩ := zInt32_iff.1 h8
    obtain ⟨o9, x9, e9, rfl⟩ := zInt32_iff.1 h9
    obtain ⟨x10, e10, rfl⟩ := zBstr_iff.1 h10
    refine ⟨⟨o0, o1, o3, o4, o6, o8, o9, by simp⟩, _, b10, ⟨x0, _, e0, ⟨x1, _, e1, ⟨x2, _, e2, ⟨x3, _, e3,
      ⟨x4, _, e4, ⟨x5, _, e5, ⟨x6, _, e6, ⟨x7, _, e7, ⟨x8, _, e8, ⟨x9, _, e9, ⟨x10, _, e10, rfl, rfl⟩, rfl⟩, rfl⟩,
      rfl⟩, rfl⟩, rfl⟩, rfl⟩, rfl⟩, rfl⟩, rfl⟩, rfl⟩, ?_⟩
    simp only [List.append_assoc, List.append_nil]
  · rintro ⟨⟨o0, o1, o3, o4, o6, o8, o9, -⟩, _, r, ⟨x0, _, e0, ⟨x1, _, e1, ⟨x2, _, e2, ⟨x3, _, e3, ⟨x4, _, e4,
      ⟨x5, _, e5, ⟨x6, _, e6, ⟨x7, _, e7, ⟨x8, _, e8, ⟨x9, _, e9, ⟨x10, _, e10, rfl, rfl⟩, rfl⟩, rfl⟩, rfl⟩, rfl⟩,
      rfl⟩, rfl⟩, rfl⟩, rfl⟩, rfl⟩, rfl⟩, rfl⟩
    simp only [List.append_assoc, List.append_nil]
    refine ⟨_, zInt32_iff.2 ⟨o0, x0, e0, rfl⟩, _, zInt32_iff.2 ⟨o1, x1, e1, rfl⟩, _, zTstr_iff.2 ⟨x2, e2, rfl⟩,
      _, zInt32_iff.2 ⟨o3, x3, e3, rfl⟩, _, zInt32_iff.2 ⟨o4, x4, e4, rfl⟩, _, zBstr_iff.2 ⟨x5, e5, rfl⟩,
      _, zInt32_iff.2 ⟨o6, x6, e6, rfl⟩, _, zBstr_iff.2 ⟨x7, e7, rfl⟩, _, zInt32_iff.2 ⟨o8, x8, e8, rfl⟩,
      _, zInt32_iff.2 ⟨o9, x9, e9, rfl⟩, _, zBstr_iff.2 ⟨x10, e10, rfl⟩, rfl⟩

/-- C70: `cbor_decode_bstr_type_b_str`, `cbor_decode_m2_G_Y_CIPHERTEXT_2`, `cbor_decode_m3_CIPHERTEXT_3`, with every
version of the library -/
theorem C70_decode_bstr (L : Lib) {b v : Bytes} : cborDecodeBstr L b = some v ↔ OneBstr L.strict v b := by
  rw [bstr_eq]
  unfold OneBstr
  constructor
  · intro h
    cases hz : zBstr L.strict b with
    | none => rw [hz] at h; cases h
    | some r =>
      obtain ⟨v', l⟩ := r
      rw [hz] at h
      cases h
      obtain ⟨x, h2, h3⟩ := zBstr_iff.1 hz
      exact ⟨x, l, h2, h3⟩
  · rintro ⟨x, t, h2, h3⟩
    rw [zBstr_iff.2 ⟨x, h2, h3⟩]
    rfl

/-- C70: `cbor_decode_int_type_i`: the integer and the length of its encoding, with every version of the library -/
theorem C70_decode_int (L : Lib) {b : Bytes} {i : Int} {n : Nat} :
    cborDecodeInt L b = some (i, n) ↔ I32 i ∧ ∃ x t, IsItem L.strict (.int i) x ∧ b = x ++ t ∧ n = x.length := by
  rw [int_eq]
  constructor
  · intro h
    cases hz : zInt32 L.strict b with
    | none => rw [hz] at h; cases h
    | some r =>
      obtain ⟨v', l⟩ := r
      rw [hz] at h
      cases h
      obtain ⟨o, x, h2, rfl⟩ := zInt32_iff.1 hz
      exact ⟨o, x, l, h2, rfl, by simp⟩
  · rintro ⟨o, x, t, h2, rfl, rfl⟩
    rw [zInt32_iff.2 ⟨o, x, h2, rfl⟩]
    simp

/-- C70: whatever a failed call leaves behind, everything in the grammar is decoded -/
theorem C70_decode_complete (L : Lib) (hl : 9 < L.mapLimit) (b : Bytes) :
    (∀ m : Msg1, Message1 L.strict m.method m.suites m.gX m.cI m.ead1 b → cborDecodeMessage1 L b = some m) ∧
    (∀ c p, IdFieldOk p.id → Plaintext2 L.strict c (idFieldItem p.id) p.sigOrMac p.ead b →
      cborDecodePtxt2 L b = some (c, p)) ∧
    (∀ p, IdFieldOk p.id → Plaintext3 L.strict (idFieldItem p.id) p.sigOrMac p.ead b → cborDecodePtxt3 L b = some p) ∧
    (∀ m x r, IdMapOk m → IsItem L.strict (.map (idMapEntries m)) x → b = x ++ r → cborDecodeIdCredX L b = some m) :=
  ⟨fun _ h => msg1_succ (decMsg1_iff.2 h), fun _ _ h1 h2 => ptxt2_succ hl (decPtxt2_iff.2 ⟨h1, h2⟩),
    fun _ h1 h2 => ptxt3_succ hl (decPtxt3_iff.2 ⟨h1, h2⟩),
    fun _ x _ h1 h2 h3 => idCred_succ hl (zIdMap_iff.2 ⟨h1, x, h2, h3⟩)⟩

/-- C70: the decoders of the EDHOC model are the generated ones -/
theorem C70_model_decoders {L : Lib} (ht : L.Tidy) (hl : 9 < L.mapLimit) (b : Bytes) :
    decMsg1 L.strict b = cborDecodeMessage1 L b ∧ decPtxt2 L.strict b = cborDecodePtxt2 L b ∧
    decPtxt3 L.strict b = cborDecodePtxt3 L b ∧ (zIdMap L.strict b).map Prod.fst = cborDecodeIdCredX L b ∧
    (zBstr L.strict b).map Prod.fst = cborDecodeBstr L b ∧
    (zInt32 L.strict b).map (fun r => (r.1, b.length - r.2.length)) = cborDecodeInt L b ∧
    (decCert L.strict b).map (fun c => (c.issuer, c.pk, c.sigAlg, c.signature)) =
      (cborDecodeCert L b).map (fun c => (c.issuer, c.pk, c.sigAlg, c.signature)) := by
  refine ⟨(msg1_eq ht b).symm, (ptxt2_eq ht hl b).symm, (ptxt3_eq ht hl b).symm, (idCred_eq ht hl b).symm,
    (bstr_eq L b).symm, (int_eq L b).symm, ?_⟩
  rw [cert_chain]
  unfold decCert certChain
  generalize L.strict = s
  cases zInt32 s b with
  | none => rfl
  | some r0 =>
  show Option.map _ ((zInt32 s r0.2).bind _) = Option.map _ ((zInt32 s r0.2).bind _)
  cases zInt32 s r0.2 with
  | none => rfl
  | some r1 =>
  show Option.map _ ((zTstr s r1.2).bind _) = Option.map _ ((zTstr s r1.2).bind _)
  cases zTstr s r1.2 with
  | none => rfl
  | some r2 =>
  show Option.map _ ((zInt32 s r2.2).bind _) = Option.map _ ((zInt32 s r2.2).bind _)
  cases zInt32 s r2.2 with
  | none => rfl
  | some r3 =>
  show Option.map _ ((zInt32 s r3.2).bind _) = Option.map _ ((zInt32 s r3.2).bind _)
  cases zInt32 s r3.2 with
  | none => rfl
  | some r4 =>
  show Option.map _ ((zBstr s r4.2).bind _) = Option.map _ ((zBstr s r4.2).bind _)
  cases zBstr s r4.2 with
  | none => rfl
  | some r5 =>
  show Option.map _ ((zInt32 s r5.2).bind _) = Option.map _ ((zInt32 s r5.2).bind _)
  cases zInt32 s r5.2 with
  | none => rfl
  | some r6 =>
  show Option.map _ ((zBstr s r6.2).bind _) = Option.map _ ((zBstr s r6.2).bind _)
  cases zBstr s r6.2 with
  | none => rfl
  | some r7 =>
  show Option.map _ ((zInt32 s r7.2).bind _) = Option.map _ ((zInt32 s r7.2).bind _)
  cases zInt32 s r7.2 with
  | none => rfl
  | some r8 =>
  show Option.map _ ((zInt32 s r8.2).bind _) = Option.map _ ((zInt32 s r8.2).bind _)
  cases zInt32 s r8.2 with
  | none => rfl
  | some r9 =>
  show Option.map _ ((zBstr s r9.2).bind _) = Option.map _ ((zBstr s r9.2).bind _)
  cases zBstr s r9.2 with
  | none => rfl
  | some r10 => rfl

/-! ### encoders -/

/-- an encoder into a buffer of `cap` bytes: all of `b`, or nothing if it does not fit -/
def fit (cap : Nat) (b : Bytes) : Option Bytes := if b.length ≤ cap then some b else none

/-- C70: `cbor_encode_message_1` -/
theorem C70_encode_message_1 {m : Msg1} (h : SuitesLen m.suites) (cap : Nat) :
    cborEncodeMessage1 m cap = fit cap
      (encList ([.int m.method, suites m.suites, .bstr m.gX, bstrInt m.cI] ++ m.ead1.toList.map .bstr)) := by
  unfold cborEncodeMessage1 encodeMessage1 fit
  refine entry_enc (k := 1) (m := List.length ([.int m.method, suites m.suites, .bstr m.gX, bstrInt m.cI] ++
    m.ead1.toList.map .bstr)) ?_ (by omega) cap
  exact cons_encF (int_encF _ _) (cons_encF (suites_encF h 0) (cons_encF (bstr_encF _ _) (cons_encF (intBstr_encF _ _)
    (opt_items (fun x => bstr_encF x 1) _))))

/-- C70: a list of fewer than 2 or more than 10 suites is not encoded -/
theorem C70_encode_message_1_suites {m : Msg1} (h : ¬ SuitesLen m.suites) (cap : Nat) :
    cborEncodeMessage1 m cap = none := by
  unfold cborEncodeMessage1 entryE encodeMessage1 eAnd
  cases intEncode m.method ⟨[], cap, 5, [], 2⟩ with
  | none => rfl
  | some s =>
    simp only
    cases hs : m.suites with
    | inr i => rw [hs] at h; exact absurd trivial h
    | inl l =>
      rw [hs] at h
      rw [suites_refused (l := l) h]

/-- C70: `cbor_encode_id_cred_x_map` -/
theorem C70_encode_id_cred (m : IdMap) (cap : Nat) :
    cborEncodeIdCredX m cap = fit cap (enc (.map (idMapEntries m))) := by
  unfold cborEncodeIdCredX fit
  exact entry_enc (idMap_encF m) (by omega) cap

/-- C70: `cbor_encode_bstr_type_b_str`, `cbor_encode_m2_G_Y_CIPHERTEXT_2`, `cbor_encode_m3_CIPHERTEXT_3`,
`cbor_encode_int_type_i`, `cbor_encode_info`, `cbor_encode_th2` -/
theorem C70_encode_sequences (b c : Bytes) (i : Int) (label length cap : Nat) :
    cborEncodeBstr b cap = fit cap (enc (.bstr b)) ∧
    cborEncodeInt i cap = fit cap (enc (.int i)) ∧
    cborEncodeInfo label b length cap = fit cap (encList [.uint label, .bstr b, .uint length]) ∧
    cborEncodeTh2 b c cap = fit cap (encList [.bstr b, .bstr c]) := by
  refine ⟨entry_enc (bstr_encF b 0) (by omega) cap, entry_enc (int_encF i 0) (by omega) cap, ?_, ?_⟩
  · exact entry_enc (k := 0) (cons_encF (uint_encF _ _) (cons_encF (bstr_encF _ _) (one_encF (uint_encF _ _)))) (by omega) cap
  · exact entry_enc (k := 0) (cons_encF (bstr_encF _ _) (one_encF (bstr_encF _ _))) (by omega) cap

/-- C70: `cbor_encode_edhoc_enc_structure`, `cbor_encode_oscore_enc_structure`, `cbor_encode_sig_structure` -/
theorem C70_encode_cose (ctx prot aad payload : Bytes) (cap : Nat) :
    cborEncodeEncStructure ctx prot aad cap = fit cap (enc (.arr [.tstr ctx, .bstr prot, .bstr aad])) ∧
    cborEncodeSigStructure ctx prot aad payload cap =
      fit cap (enc (.arr [.tstr ctx, .bstr prot, .bstr aad, .bstr payload])) := by
  constructor
  · exact entry_enc (k := 1) (arr_encF (by omega) (cons_encF (tstr_encF _ _) (cons_encF (bstr_encF _ _)
      (one_encF (bstr_encF _ _)))) (by simp)) (by omega) cap
  · exact entry_enc (k := 1) (arr_encF (by omega) (cons_encF (tstr_encF _ _) (cons_encF (bstr_encF _ _)
      (cons_encF (bstr_encF _ _) (one_encF (bstr_encF _ _))))) (by simp)) (by omega) cap

/-- C70: `cbor_encode_aad_array`, `cbor_encode_oscore_info` -/
theorem C70_encode_oscore (version len cap : Nat) (alg : Int ⊕ Bytes) (kid piv opts id type : Bytes) (idc : Option Bytes) :
    cborEncodeAadArray version alg kid piv opts cap =
      fit cap (enc (.arr [.uint version, .arr [intTstr alg], .bstr kid, .bstr piv, .bstr opts])) ∧
    cborEncodeOscoreInfo id idc alg type len cap =
      fit cap (enc (.arr [.bstr id, (match idc with | some b => .bstr b | none => .null), intTstr alg, .tstr type,
        .uint len])) := by
  constructor
  · exact entry_enc (k := 2) (arr_encF (by omega) (cons_encF (uint_encF _ _) (cons_encF (arr_encF (by omega)
      (one_encF (intTstr_encF _ _)) (by simp)) (cons_encF (bstr_encF _ _) (cons_encF (bstr_encF _ _)
      (one_encF (bstr_encF _ _)))))) (by simp)) (by omega) cap
  · refine entry_enc (k := 1) (arr_encF (by omega) (cons_encF (bstr_encF _ _) (cons_encF ?_
      (cons_encF (intTstr_encF _ _) (cons_encF (tstr_encF _ _) (one_encF (uint_encF _ _)))))) (by simp)) (by omega) cap
    cases idc with
    | none => exact null_encF 0
    | some b => exact bstr_encF b 0

/-- C70: `cbor_encode_data_2`, `cbor_encode_message_error` -/
theorem C70_encode_unused (c : Option (Int ⊕ Bytes)) (v : Int ⊕ Bytes) (b : Bytes) (su : Option (List Int ⊕ Int))
    (hs : ∀ s, su = some s → SuitesLen s) (cap : Nat) :
    cborEncodeData2 c b v cap = fit cap (encList (c.toList.map bstrInt ++ [.bstr b, bstrInt v])) ∧
    cborEncodeError c b su cap = fit cap (encList (c.toList.map bstrInt ++ (.tstr b :: su.toList.map suites))) := by
  constructor
  · exact entry_enc (k := 0) (app_encF (opt_items (fun x => intBstr_encF x 0) c) (cons_encF (bstr_encF _ _)
      (one_encF (intBstr_encF _ _)))) (by omega) cap
  · refine entry_enc (k := 1) (app_encF (opt_items (fun x => intBstr_encF x 1) c) (cons_encF (tstr_encF _ _) ?_))
      (by omega) cap
    cases su with
    | none => exact nil_encF 1
    | some s => exact one_encF (suites_encF (hs s rfl) 0)

/-! ### round trip -/

theorem int_ok {i : Int} (h : I32 i) : (Item.int i).Ok := by
  unfold I32 at h
  unfold Item.int
  split <;> simp only [Item.Ok] <;> omega

theorem fld_ok {v : Int ⊕ Bytes} (h : FldOk v) (hl : ∀ b, v = .inr b → b.length < 2 ^ 32) : (bstrInt v).Ok := by
  cases v with
  | inl i => exact int_ok h
  | inr b => have := hl b rfl; simp only [bstrInt, Item.Ok]; omega

theorem ints_ok : ∀ {l : List Int}, (∀ i ∈ l, I32 i) → OkList (l.map Item.int)
  | [], _ => by simp only [List.map_nil, OkList]
  | i :: l, h => by
    simp only [List.map_cons, OkList]
    exact ⟨int_ok (h i (by simp)), ints_ok fun j hj => h j (List.mem_cons_of_mem _ hj)⟩

theorem not_bstr_nil {s : Bool} : Tail s none [] := by
  intro e x t h he
  rw [IsItem] at h
  obtain ⟨hd, h1, rfl⟩ := h
  have : hd = [] := by
    have := congrArg List.length he
    simp only [List.length_nil, List.length_append] at this
    exact List.length_eq_zero_iff.1 (by omega)
  subst this
  rcases h1 with ⟨_, h⟩ | ⟨_, _, _, _, _, _, _, _, h⟩ <;> cases h

/-- C70: what `cbor_encode_message_1` writes is decoded to the same fields, whatever the version of the library -/
theorem C70_message_1_roundtrip (L : Lib) {m : Msg1} {cap : Nat} {b : Bytes} (h : cborEncodeMessage1 m cap = some b)
    (h1 : I32 m.method) (h2 : SuitesOk m.suites) (h3 : FldOk m.cI) (hc : cap < 2 ^ 32) :
    cborDecodeMessage1 L b = some m := by
  have hs : SuitesLen m.suites := by
    generalize m.suites = v at h2
    cases v with
    | inl l => exact ⟨h2.1, h2.2.1⟩
    | inr i => trivial
  rw [C70_encode_message_1 hs] at h
  unfold fit at h
  split at h
  · rename_i hle
    cases h
    rw [encList_append, List.length_append] at hle
    simp only [encList, List.length_append] at hle
    have e1 : ∀ v : Bytes, v.length ≤ (enc (.bstr v)).length := by intro v; rw [enc, List.length_append]; omega
    have g1 := e1 m.gX
    apply msg1_succ
    apply decMsg1_iff.2
    refine ⟨h1, h2, h3, encList [.int m.method, suites m.suites, .bstr m.gX, bstrInt m.cI],
      encList (m.ead1.toList.map .bstr), seq_wf ?_, encList_append _ _, ?_⟩
    · simp only [OkList, and_true]
      refine ⟨int_ok h1, ?_, ?_, ?_⟩
      · generalize m.suites = v at h2
        cases v with
        | inl l =>
          simp only [suites, Item.Ok, List.length_map]
          exact ⟨by have := h2.2.1; omega, ints_ok h2.2.2⟩
        | inr i => exact int_ok h2
      · simp only [Item.Ok]; omega
      · refine fld_ok h3 ?_
        intro v hv
        rw [hv] at hle
        have := e1 v
        simp only [bstrInt] at hle
        omega
    · cases he : m.ead1 with
      | none => simpa [encList] using not_bstr_nil (s := L.strict)
      | some e =>
        rw [he] at hle
        simp only [Option.toList, List.map_cons, List.map_nil, encList] at hle ⊢
        have := e1 e
        simp only [List.length_append] at hle
        exact ⟨_, [], item_wf (by simp only [Item.Ok]; omega), rfl⟩
  · cases h

/-! ### the encoders of the model -/

/-- a generated encoder as its callers see it: `TRY_EXPECT(cbor_encode_..., 0)` -/
def expectOk (r : Option Bytes) : R Bytes := ofLib r

theorem out_fit {cap : Nat} {b b' : Bytes} (h : b = b') :
    cborOut cap .unexpected_result_from_ext_lib b = expectOk (fit cap b') := by
  subst h
  unfold cborOut expectOk fit
  split <;> rfl

/-- C70: what the model writes for OSCORE (info of the key derivation, external_aad, Enc_structure) is what the
generated functions write with the arguments of their callers (oscore_hkdf_info.c:53-86, aad.c:31-54,
oscore_cose.c:39-57) -/
theorem C70_model_oscore (id idc kid piv aad : Bytes) :
    hkdfInfo id idc .key = expectOk (cborEncodeOscoreInfo id (if idc.length = 0 then none else some idc) (.inl 10)
      "Key".toUTF8.toList 16 50) ∧
    hkdfInfo id idc .iv = expectOk (cborEncodeOscoreInfo id (if idc.length = 0 then none else some idc) (.inl 10)
      "IV".toUTF8.toList 13 50) ∧
    createAad kid piv = expectOk (cborEncodeAadArray 1 (.inl 10) kid piv [] 30) ∧
    (aad.length + 16 ≤ 30 →
      encStructure aad = expectOk (cborEncodeEncStructure "Encrypt0".toUTF8.toList [] aad (aad.length + 16))) := by
  have s1 : "Key".toUTF8.toList = [0x4B, 0x65, 0x79] := by decide +kernel
  have s2 : "IV".toUTF8.toList = [0x49, 0x56] := by decide +kernel
  have s3 : "Encrypt0".toUTF8.toList = Verif.strEncrypt0 := by decide +kernel
  have info : ∀ ty len, cborArr 5 ++ cborBstr id ++ (if idc.length = 0 then cborNil else cborBstr idc) ++ cborInt 10 ++
      (cborTstr ty ++ cborUint len) = enc (.arr [.bstr id, (match (if idc.length = 0 then none else some idc) with
        | some b => Item.bstr b | none => .null), intTstr (.inl 10), .tstr ty, .uint len]) := by
    intro ty len
    rw [← cborArr_eq]
    simp only [encList, intTstr, ← cborBstr_eq, ← cborInt_eq, ← cborTstr_eq, ← cborUint_eq, List.append_nil,
      List.append_assoc, List.length_cons, List.length_nil]
    split <;> simp [enc, cborNil, cborBstr_eq]
  refine ⟨?_, ?_, ?_, ?_⟩
  · unfold hkdfInfo
    rw [(C70_encode_oscore 0 16 50 (.inl 10) [] [] [] id _ _).2, s1]
    exact out_fit (info _ _)
  · unfold hkdfInfo
    rw [(C70_encode_oscore 0 13 50 (.inl 10) [] [] [] id _ _).2, s2]
    exact out_fit (info _ _)
  · unfold createAad
    rw [(C70_encode_oscore 1 0 30 (.inl 10) kid piv [] [] [] none).1]
    apply out_fit
    rw [← cborArr_eq]
    simp only [encList, intTstr, ← cborBstr_eq, ← cborInt_eq, ← cborUint_eq, List.append_nil,
      List.append_assoc, List.length_cons, List.length_nil, ← cborArr_eq]
  · intro h
    unfold encStructure
    rw [(checkBufferSize_ok (u := ())).2 (by omega), R.ok_bind, (C70_encode_cose _ [] aad [] _).1, s3]
    apply out_fit
    rw [← cborArr_eq]
    simp only [encList, ← cborBstr_eq, ← cborTstr_eq, List.append_nil, List.append_assoc, List.length_cons,
      List.length_nil]

/-- plaintext_decode.c:45 `struct id_cred_x_map map = { 0 }` -/
def emptyMap : IdMap := ⟨none, none, none, none, none, none, none, none, none⟩

/-- C70: the same of EDHOC's small encoders (th.c:35-47, hkdf_info.c:37-55, bstr_encode_decode.c:16-27,
int_encode_decode.c:34-42, associated_data_encode.c:22-29, plaintext_decode.c:39-79) -/
theorem C70_model_edhoc (b : Bytes) (i : Int) (label len cap : Nat) :
    encodeBstr b cap = expectOk (cborEncodeBstr b cap) ∧
    encodeInt i cap = expectOk (cborEncodeInt i cap) ∧
    createHkdfInfo label b len cap = expectOk (cborEncodeInfo label b len cap) ∧
    assocData b = expectOk (cborEncodeEncStructure "Encrypt0".toUTF8.toList [] b aadSize) ∧
    idCredKid i cap = expectOk (cborEncodeIdCredX { emptyMap with kid := some (.inl i) } cap) ∧
    idCredX5chain b cap = expectOk (cborEncodeIdCredX { emptyMap with x5chain := some b } cap) ∧
    idCredX5t (.inl i) b cap = expectOk (cborEncodeIdCredX { emptyMap with x5t := some (.inl i, b) } cap) := by
  refine ⟨?_, ?_, ?_, ?_, ?_, ?_, ?_⟩
  · rw [(C70_encode_sequences b [] 0 0 0 cap).1]
    exact out_fit (cborBstr_eq b)
  · rw [(C70_encode_sequences [] [] i 0 0 cap).2.1]
    exact out_fit (cborInt_eq i)
  · rw [(C70_encode_sequences b [] 0 label len cap).2.2.1]
    apply out_fit
    simp only [encList, ← cborBstr_eq, ← cborUint_eq, List.append_nil, List.append_assoc]
  · rw [(C70_encode_cose _ [] b [] aadSize).1]
    apply out_fit
    rw [← cborArr_eq]
    simp only [encList, ← cborBstr_eq, ← cborTstr_eq, List.append_nil, List.append_assoc, List.length_cons,
      List.length_nil]
    rfl
  · rw [C70_encode_id_cred]
    apply out_fit
    rw [← cborMap_eq]
    simp [idMapEntries, emptyMap, ent, encList, bstrInt, ← cborUint_eq, ← cborInt_eq]
  · rw [C70_encode_id_cred]
    apply out_fit
    rw [← cborMap_eq]
    simp [idMapEntries, emptyMap, ent, encList, ← cborUint_eq, ← cborBstr_eq]
  · rw [C70_encode_id_cred]
    unfold idCredX5t
    apply out_fit
    rw [← cborMap_eq]
    simp [idMapEntries, emptyMap, ent, encList, algHash, intTstr, ← cborArr_eq, ← cborUint_eq, ← cborBstr_eq, ← cborInt_eq]

/-- C70: the same of the input of TH_2 and the Sig_structure (th.c:35-60, edhoc_cose.c:66-90) -/
theorem C70_model_th2_sig (cfg : ECfg) (C : ECrypto) (h gY th idCred cred ead mac : Bytes) :
    th2Calc C h gY = (do
      checkBufferSize (asBstr 32 + asBstr 32) (asBstr gY.length + asBstr 32)
      let inp ← expectOk (cborEncodeTh2 gY h (asBstr gY.length + asBstr 32))
      pure (hash C inp)) ∧
    sigStruct cfg th idCred cred ead mac = (do
      checkBufferSize cfg.sigStructSize (sigStructCap th idCred cred ead mac)
      let thEnc ← expectOk (cborEncodeBstr th (asBstr 32))
      checkBufferSize (cfg.credMaxSize + asBstr 32 + cfg.eadSize) (thEnc.length + cred.length + ead.length)
      expectOk (cborEncodeSigStructure "Signature1".toUTF8.toList idCred (thEnc ++ cred ++ ead) mac
        (sigStructCap th idCred cred ead mac))) := by
  constructor
  · rw [(C70_encode_sequences gY h 0 0 0 _).2.2.2]
    unfold th2Calc
    rw [out_fit (b' := encList [.bstr gY, .bstr h])
      (by simp only [encList, ← cborBstr_eq, List.append_nil])]
  · unfold sigStruct
    rw [(C70_model_edhoc th 0 0 0 _).1]
    congr 1
    funext _
    congr 1
    funext thEnc
    congr 1
    funext _
    rw [(C70_encode_cose _ idCred (thEnc ++ cred ++ ead) mac _).2]
    apply out_fit
    rw [← cborArr_eq]
    simp only [encList, ← cborBstr_eq, ← cborTstr_eq, List.append_nil, List.append_assoc, List.length_cons,
      List.length_nil]
    rfl

/-- what initiator.c:73-116 puts into `struct message_1`, for C_I as an integer or a string -/
def msg1Fields (c : ICtx) (cI : Int ⊕ Bytes) : Msg1 :=
  ⟨c.method, (match c.suitesI with
    | [s] => .inr (Int.ofNat s.toNat)
    | su => .inl (su.map fun s => Int.ofNat s.toNat)), c.gX, cI, if c.ead1.length ≠ 0 then some c.ead1 else none⟩

/-- C70: message_1 of the model is what `cbor_encode_message_1` writes with the arguments of `msg1_gen` -/
theorem C70_model_message_1 {cfg : ECfg} {C : ECrypto} {c : ICtx} {m h : Bytes} {su : Suite}
    (hm : msg1Gen cfg C c = .ok (m, su, h)) :
    ∃ cI, cborEncodeMessage1 (msg1Fields c cI) cfg.msgMaxSize = some m ∧
      (match cI with | .inl i => decodeInt cfg c.cI = .ok i | .inr b => b = c.cI) := by
  unfold msg1Gen at hm
  obtain ⟨s, hs, hm⟩ := R.bind_eq_ok.1 hm
  obtain ⟨ci, hci, hm⟩ := R.bind_eq_ok.1 hm
  obtain ⟨mm, ho, hm⟩ := R.bind_eq_ok.1 hm
  obtain ⟨suite, _, hm⟩ := R.bind_eq_ok.1 hm
  simp only [R.pure_eq, R.ok.injEq, Prod.mk.injEq] at hm
  obtain ⟨rfl, -, -⟩ := hm
  have hC : ∃ cI, ci = enc (bstrInt cI) ∧ (match cI with | .inl i => decodeInt cfg c.cI = .ok i | .inr b => b = c.cI) := by
    unfold cIItem at hci
    split at hci
    · obtain ⟨i, hi, hci⟩ := R.bind_eq_ok.1 hci
      simp only [R.pure_eq, R.ok.injEq] at hci
      exact ⟨.inl i, by rw [← hci, cborInt_eq]; rfl, hi⟩
    · simp only [R.pure_eq, R.ok.injEq] at hci
      exact ⟨.inr c.cI, by rw [← hci, cborBstr_eq]; rfl, rfl⟩
  obtain ⟨cI, rfl, hC⟩ := hC
  refine ⟨cI, ?_, hC⟩
  have hS : SuitesLen (msg1Fields c cI).suites ∧ s = enc (suites (msg1Fields c cI).suites) := by
    unfold msg1Fields
    generalize c.suitesI = l at hs
    unfold suitesItem at hs
    match l, hs with
    | [], hs => cases hs
    | [x], hs =>
      simp only [R.ok.injEq] at hs
      exact ⟨trivial, by rw [← hs, cborInt_eq]; rfl⟩
    | x :: y :: l, hs =>
      simp only at hs
      split at hs
      · cases hs
      · rename_i hl
        simp only [R.ok.injEq] at hs
        refine ⟨⟨by simp, by simpa using hl⟩, ?_⟩
        rw [← hs]
        simp only [suites]
        rw [← cborArr_eq, encList_ints]
        simp only [List.length_map, List.map_map, cborInt_eq]
        rfl
  rw [C70_encode_message_1 hS.1]
  obtain ⟨rfl, hle⟩ := cborOut_ok.1 ho
  have : encList ([.int (msg1Fields c cI).method, suites (msg1Fields c cI).suites, .bstr (msg1Fields c cI).gX,
      bstrInt (msg1Fields c cI).cI] ++ (msg1Fields c cI).ead1.toList.map .bstr) = cborInt c.method ++ s ++ cborBstr c.gX ++
      enc (bstrInt cI) ++ (if c.ead1.length ≠ 0 then cborBstr c.ead1 else []) := by
    rw [encList_append, hS.2]
    simp only [encList, ← cborInt_eq, ← cborBstr_eq, List.append_nil, List.append_assoc]
    congr 4
    unfold msg1Fields
    simp only
    split <;> simp [encList, cborBstr_eq]
  rw [this]
  unfold fit
  rw [if_pos hle]

/-! ### what depends on the version of the library -/

/-- C70 depends on zcbor restoring its state after a failed value: the generated code tries the alternatives
of `int / bstr` without going back (edhoc_decode_message_1.c:32-33).  With a library that leaves the cursor
behind an integer that is out of range, this message_1, whose C_I is the integer 2^31, is decoded with its EAD_1 as
C_I. -/
theorem C70_false_unrestored :
    let L : Lib := ⟨true, fun p n => (p.drop 5, n), 2 ^ 31 - 1, false⟩
    let b : Bytes := [0x00, 0x02, 0x41, 0xAA, 0x1A, 0x80, 0, 0, 0, 0x41, 0x07]
    cborDecodeMessage1 L b = some ⟨0, .inr 2, [0xAA], .inr [7], none⟩ ∧
    ¬ ∃ method su gX cI ead, Message1 true method su gX cI ead b := by
  refine ⟨by decide +kernel, ?_⟩
  rintro ⟨method, su, gX, cI, ead, h⟩
  have := (decMsg1_iff (m := ⟨method, su, gX, cI, ead⟩)).2 h
  have e : decMsg1 true [0x00, 0x02, 0x41, 0xAA, 0x1A, 0x80, 0, 0, 0, 0x41, 0x07] = none := by decide +kernel
  rw [e] at this
  cases this

/-- C70 depends on `zcbor_map_start_decode` giving its backup back when it refuses a map that is too large: if it
stays on the stack, `zcbor_union_elem_code` goes back to it instead of the beginning of ID_CRED_I.  This PLAINTEXT_3
begins with the header of a map of 2^31 - 1 pairs and is decoded as if the header were not there. -/
theorem C70_false_leak :
    let L : Lib := ⟨true, fun p n => (p, n), 2 ^ 31 - 1, true⟩
    let b : Bytes := [0xBA, 0x7F, 0xFF, 0xFF, 0xFF, 0x41, 0x01, 0x41, 0x02]
    cborDecodePtxt3 L b = some ⟨.bstr [1], [2], none⟩ ∧
    ¬ ∃ f sm ead, IdFieldOk f ∧ Plaintext3 true (idFieldItem f) sm ead b := by
  refine ⟨by decide +kernel, ?_⟩
  rintro ⟨f, sm, ead, h⟩
  have := (decPtxt3_iff (p := ⟨f, sm, ead⟩)).2 h
  have e : decPtxt3 true [0xBA, 0x7F, 0xFF, 0xFF, 0xFF, 0x41, 0x01, 0x41, 0x02] = none := by decide +kernel
  rw [e] at this
  cases this

/-! ### the hypotheses can be met -/

/-- a tidy library: newer versions of zcbor, with and without ZCBOR_CANONICAL -/
def tidyLib (strict : Bool) : Lib := ⟨strict, fun p n => (p, n), 2 ^ 31 - 1, false⟩
theorem tidyLib_tidy (strict : Bool) : (tidyLib strict).Tidy := ⟨fun _ _ => rfl, rfl⟩

example : cborDecodeMessage1 (tidyLib true) [0x03, 0x82, 0x02, 0x03, 0x41, 0xAA, 0x37, 0x41, 0x05] =
    some ⟨3, .inl [2, 3], [0xAA], .inl (-24), some [5]⟩ := by decide +kernel
example : cborEncodeMessage1 ⟨3, .inl [2, 3], [0xAA], .inl (-24), some [5]⟩ 9 =
    some [0x03, 0x82, 0x02, 0x03, 0x41, 0xAA, 0x37, 0x41, 0x05] := by decide +kernel
example : cborEncodeMessage1 ⟨3, .inl [2, 3], [0xAA], .inl (-24), some [5]⟩ 8 = none := by decide +kernel
example : cborDecodePtxt2 (tidyLib true) [0x07, 0xA1, 0x18, 0x22, 0x82, 0x2E, 0x41, 0x09, 0x42, 1, 2, 0x40] =
    some (.inl 7, ⟨.map { emptyMap with x5t := some (.inl (-15), [9]) }, [1, 2], some []⟩) := by decide +kernel
example : cborEncodeIdCredX { emptyMap with x5t := some (.inl (-15), [9]) } 9 =
    some [0xA1, 0x18, 0x22, 0x82, 0x2E, 0x41, 0x09] := by decide +kernel
example : cborDecodeCert (tidyLib true) [1, 0x18, 0x63, 0x61, 0x52, 2, 3, 0x41, 7, 4, 0x41, 8, 5, 0x26, 0x41, 9] =
    some ⟨1, 99, [0x52], 2, 3, [7], 4, [8], 5, -7, [9]⟩ := by decide +kernel

end Verif.Zcbor
