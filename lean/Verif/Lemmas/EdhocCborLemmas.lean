import Verif.Model.EdhocCbor
import Verif.Lemmas.CborLemmas
import Verif.Props.Hkdf
/-
The zcbor decoders of the model on the specified encodings, followed by arbitrary bytes.
-/
namespace Verif.Edhoc
open Verif Verif.Cbor

theorem zArg_be (s : Bool) {m k n : Nat} (x : Bytes) (h1 : n < 256 ^ k) (h2 : minArg k ≤ n) :
    zArg s m k (be k n ++ x) = some (m, n, x) := by
  have hl : (be k n ++ x).length = k + x.length := by simp [be_length]
  have ht : (be k n ++ x).take k = be k n := by
    rw [List.take_append_of_le_length (by rw [be_length]; omega), List.take_of_length_le (by rw [be_length]; omega)]
  have hd : (be k n ++ x).drop k = x := by
    rw [List.drop_append_of_le_length (by rw [be_length]; omega),
      List.drop_of_length_le (by rw [be_length]; omega)]; rfl
  have hv : beVal (be k n) = n := by rw [beVal_be, Nat.mod_eq_of_lt h1]
  unfold zArg
  rw [if_neg (by omega), ht, hv, hd, if_neg (by omega)]

theorem zHead_head (s : Bool) {m n : Nat} (x : Bytes) (hm : m < 8) (hn : n < 2 ^ 64) :
    zHead s (head m n ++ x) = some (m, n, x) := by
  have key : ∀ (a : Nat), a < 32 →
      (byte (m * 32 + a)).toNat / 32 = m ∧ (byte (m * 32 + a)).toNat % 32 = a := by
    intro a ha
    rw [byte_toNat (by omega)]; omega
  unfold head
  split
  · obtain ⟨k1, k2⟩ := key n (by omega)
    simp only [List.cons_append, List.nil_append, zHead, k1, k2]
    rw [if_pos (by omega)]
  · split
    · obtain ⟨k1, k2⟩ := key 24 (by omega)
      simp only [List.cons_append, zHead, k1, k2]
      rw [if_neg (by omega), if_pos trivial, zArg_be s x (by omega) (by simp [minArg]; omega)]
    · split
      · obtain ⟨k1, k2⟩ := key 25 (by omega)
        simp only [List.cons_append, zHead, k1, k2]
        rw [if_neg (by omega), if_neg (by omega), if_pos trivial, zArg_be s x (by omega) (by simp [minArg]; omega)]
      · split
        · obtain ⟨k1, k2⟩ := key 26 (by omega)
          simp only [List.cons_append, zHead, k1, k2]
          rw [if_neg (by omega), if_neg (by omega), if_neg (by omega), if_pos trivial,
            zArg_be s x (by omega) (by simp [minArg]; omega)]
        · obtain ⟨k1, k2⟩ := key 27 (by omega)
          simp only [List.cons_append, zHead, k1, k2]
          rw [if_neg (by omega), if_neg (by omega), if_neg (by omega), if_neg (by omega), if_pos trivial,
            zArg_be s x (by omega) (by simp [minArg]; omega)]

/-- an `int32_t` -/
def Int32 (i : Int) : Prop := -2 ^ 31 ≤ i ∧ i < 2 ^ 31

theorem zInt32_int (s : Bool) {i : Int} (x : Bytes) (h : Int32 i) :
    zInt32 s (enc (.int i) ++ x) = some (i, x) := by
  obtain ⟨h1, h2⟩ := h
  unfold Item.int
  split
  · rename_i hi
    rw [enc]; unfold zInt32; rw [zHead_head s x (by omega) (by omega)]
    simp only
    rw [if_pos (by omega), if_pos trivial, Int.ofNat_eq_natCast, Int.toNat_of_nonneg hi]
  · rename_i hi
    rw [enc]; unfold zInt32; rw [zHead_head s x (by omega) (by omega)]
    simp only
    rw [if_pos (by omega), if_neg (by omega), if_pos trivial, Int.ofNat_eq_natCast, Int.toNat_of_nonneg (by omega)]
    simp only [Option.some.injEq, Prod.mk.injEq, and_true]; omega

theorem zInt32_bstr (s : Bool) {b : Bytes} (x : Bytes) (h : b.length < 2 ^ 64) :
    zInt32 s (enc (.bstr b) ++ x) = none := by
  rw [enc, List.append_assoc]; unfold zInt32; rw [zHead_head s _ (by omega) h]
  simp

theorem zInt32_map (s : Bool) {l : List Item} (x : Bytes) (h : l.length < 2 ^ 64) :
    zInt32 s (enc (.map l) ++ x) = none := by
  rw [enc, List.append_assoc]; unfold zInt32; rw [zHead_head s _ (by omega) (by omega)]
  simp

theorem zInt32_arr (s : Bool) {l : List Item} (x : Bytes) (h : l.length < 2 ^ 64) :
    zInt32 s (enc (.arr l) ++ x) = none := by
  rw [enc, List.append_assoc]; unfold zInt32; rw [zHead_head s _ (by omega) (by omega)]
  simp

theorem zExpect_uint (s : Bool) {k n : Nat} (x : Bytes) (h : n < 2 ^ 64) :
    zExpect s k (enc (.uint n) ++ x) = if n = k then some x else none := by
  rw [enc]; unfold zExpect; rw [zHead_head s x (by omega) h]
  simp

theorem zBstr_bstr (s : Bool) {b : Bytes} (x : Bytes) (h : b.length < 2 ^ 64) :
    zBstr s (enc (.bstr b) ++ x) = some (b, x) := by
  rw [enc, List.append_assoc]; unfold zBstr zStr; rw [zHead_head s _ (by omega) h]
  simp

theorem zTstr_tstr (s : Bool) {b : Bytes} (x : Bytes) (h : b.length < 2 ^ 64) :
    zTstr s (enc (.tstr b) ++ x) = some (b, x) := by
  rw [enc, List.append_assoc]; unfold zTstr zStr; rw [zHead_head s _ (by omega) h]
  simp

theorem zBstr_int (s : Bool) {i : Int} (x : Bytes) (h : Int32 i) : zBstr s (enc (.int i) ++ x) = none := by
  obtain ⟨h1, h2⟩ := h
  unfold Item.int
  split
  · rw [enc]; unfold zBstr zStr; rw [zHead_head s x (by omega) (by omega)]; simp
  · rw [enc]; unfold zBstr zStr; rw [zHead_head s x (by omega) (by omega)]; simp

theorem zStart_arr (s : Bool) {l : List Item} (x : Bytes) (h : l.length < 2 ^ 64) :
    zStart s 4 (enc (.arr l) ++ x) = some (l.length, encList l ++ x) := by
  rw [enc, List.append_assoc]; unfold zStart; rw [zHead_head s _ (by omega) h]
  simp

theorem zStart_map (s : Bool) {l : List Item} (x : Bytes) (h : l.length < 2 ^ 64) :
    zStart s 5 (enc (.map l) ++ x) = some (l.length / 2, encList l ++ x) := by
  rw [enc, List.append_assoc]; unfold zStart; rw [zHead_head s _ (by omega) (by omega)]
  simp

theorem zStart_int (s : Bool) {mt : Nat} {i : Int} (x : Bytes) (h : Int32 i) (hmt : 2 ≤ mt) :
    zStart s mt (enc (.int i) ++ x) = none := by
  obtain ⟨h1, h2⟩ := h
  unfold Item.int
  split
  · rw [enc]; unfold zStart; rw [zHead_head s x (by omega) (by omega)]; simp; omega
  · rw [enc]; unfold zStart; rw [zHead_head s x (by omega) (by omega)]; simp; omega

theorem zIntOrBstr_int (s : Bool) {i : Int} (x : Bytes) (h : Int32 i) :
    zIntOrBstr s (enc (.int i) ++ x) = some (.inl i, x) := by
  unfold zIntOrBstr; rw [zInt32_int s x h]

theorem zIntOrBstr_bstr (s : Bool) {b : Bytes} (x : Bytes) (h : b.length < 2 ^ 64) :
    zIntOrBstr s (enc (.bstr b) ++ x) = some (.inr b, x) := by
  unfold zIntOrBstr; rw [zInt32_bstr s x h, zBstr_bstr s x h]

theorem zIntOrTstr_int (s : Bool) {i : Int} (x : Bytes) (h : Int32 i) :
    zIntOrTstr s (enc (.int i) ++ x) = some (.inl i, x) := by
  unfold zIntOrTstr; rw [zInt32_int s x h]

theorem zInts_ints (s : Bool) : ∀ (l : List Int) (x : Bytes), (∀ i ∈ l, Int32 i) →
    zInts s l.length (encList (l.map .int) ++ x) = some (l, x)
  | [], x, _ => by simp [zInts, encList]
  | i :: l, x, h => by
    simp only [List.length_cons, List.map_cons, encList, List.append_assoc, zInts]
    rw [zInt32_int s _ (h i (by simp))]
    simp only
    rw [zInts_ints s l x (fun j hj => h j (by simp [hj]))]

theorem zOptBstr_nil (s : Bool) : zOptBstr s [] = none := by
  simp [zOptBstr, zBstr, zStr, zHead]

theorem zOptBstr_bstr (s : Bool) {b : Bytes} (x : Bytes) (h : b.length < 2 ^ 64) :
    zOptBstr s (enc (.bstr b) ++ x) = some b := by
  unfold zOptBstr; rw [zBstr_bstr s x h]

/-- the room reserved for a byte string is enough -/
theorem bstr_length_le {b : Bytes} (h : b.length < 2 ^ 32) :
    (enc (.bstr b)).length ≤ asBstr b.length := by
  rw [enc, List.length_append, head_length]
  unfold asBstr bstrOverhead
  repeat' split
  all_goals omega

theorem asBstr_le (n : Nat) : asBstr n ≤ n + 5 := by
  unfold asBstr bstrOverhead; repeat' split
  all_goals omega
theorem le_asBstr (n : Nat) : n + 1 ≤ asBstr n := by
  unfold asBstr bstrOverhead; repeat' split
  all_goals omega

theorem encodeBstr_ok {b c : Bytes} {cap : Nat} :
    encodeBstr b cap = .ok c ↔ c = enc (.bstr b) ∧ (enc (.bstr b)).length ≤ cap := by
  unfold encodeBstr; rw [cborBstr_eq, cborOut_ok]

theorem encodeBstr_asBstr {b : Bytes} (h : b.length < 2 ^ 32) :
    encodeBstr b (asBstr b.length) = .ok (enc (.bstr b)) :=
  encodeBstr_ok.2 ⟨rfl, bstr_length_le h⟩

theorem decodeBstr_bstr (cfg : ECfg) {b : Bytes} (x : Bytes) {cap : Nat} (h : b.length < 2 ^ 64)
    (hc : b.length ≤ cap) : decodeBstr cfg (enc (.bstr b) ++ x) cap = .ok b := by
  unfold decodeBstr; rw [zBstr_bstr _ x h]; exact memcpyS_ok.2 ⟨rfl, hc⟩

/-! ### ID_CRED_x -/

/-- `{4: kid}` with an integer kid -/
def idKid (k : Int) : Bytes := enc (.map [.uint 4, .int k])
/-- `{33: certificate}` (x5chain) -/
def idX5chain (cert : Bytes) : Bytes := enc (.map [.uint 33, .bstr cert])
/-- `{34: [alg, hash]}` (x5t) -/
def idX5t (alg : Int) (h : Bytes) : Bytes := enc (.map [.uint 34, .arr [.int alg, .bstr h]])

theorem zEntry_zero {α : Type} (s : Bool) (k : Nat) (f : Bytes → Option (α × Bytes)) (b : Bytes) :
    zEntry s k f 0 b = (none, 0, b) := by simp [zEntry]

theorem zEntry_other {α : Type} (s : Bool) {k key : Nat} (f : Bytes → Option (α × Bytes)) (n : Nat) (b : Bytes)
    (h : key < 2 ^ 64) (hk : key ≠ k) :
    zEntry s k f n (enc (.uint key) ++ b) = (none, n, enc (.uint key) ++ b) := by
  unfold zEntry
  split
  · rfl
  · rw [zExpect_uint s b h, if_neg hk]

theorem zEntry_match {α : Type} (s : Bool) {k : Nat} {f : Bytes → Option (α × Bytes)} (n : Nat) {b b' : Bytes} {v : α}
    (h : k < 2 ^ 64) (hf : f b = some (v, b')) :
    zEntry s k f (n + 1) (enc (.uint k) ++ b) = (some v, n, b') := by
  unfold zEntry
  rw [if_neg (by omega), zExpect_uint s b h, if_pos rfl]
  simp only [hf, Nat.add_sub_cancel]

/-- no entry -/
def IdMap.none : IdMap := ⟨.none, .none, .none, .none, .none, .none, .none, .none, .none⟩

theorem zIdMap_kid (s : Bool) {k : Int} (x : Bytes) (h : Int32 k) :
    zIdMap s (idKid k ++ x) = some ({ IdMap.none with kid := some (.inl k) }, x) := by
  unfold zIdMap idKid
  rw [zStart_map s x (by simp)]
  simp only [List.length_cons, List.length_nil, encList, List.append_nil, List.append_assoc]
  rw [zEntry_match s 0 (by omega) (zIntOrBstr_int s x h)]
  simp only [zEntry_zero, ↓reduceIte, IdMap.none]

theorem zIdMap_x5chain (s : Bool) {c : Bytes} (x : Bytes) (h : c.length < 2 ^ 64) :
    zIdMap s (idX5chain c ++ x) = some ({ IdMap.none with x5chain := some c }, x) := by
  unfold zIdMap idX5chain
  rw [zStart_map s x (by simp)]
  simp only [List.length_cons, List.length_nil, encList, List.append_nil, List.append_assoc]
  simp only [zEntry_other s (key := 33) (k := 4) _ _ _ (by omega) (by omega),
    zEntry_other s (key := 33) (k := 32) _ _ _ (by omega) (by omega),
    zEntry_match s (k := 33) (f := zBstr s) 0 (by omega) (zBstr_bstr s x h),
    zEntry_zero, ↓reduceIte, IdMap.none]

theorem zAlgHash_ok (s : Bool) {a : Int} {h : Bytes} (x : Bytes) (ha : Int32 a) (hh : h.length < 2 ^ 64) :
    zAlgHash s (enc (.arr [.int a, .bstr h]) ++ x) = some ((.inl a, h), x) := by
  unfold zAlgHash
  rw [zStart_arr s x (by simp)]
  simp only [List.length_cons, List.length_nil, encList, List.append_nil, List.append_assoc, ↓reduceIte]
  rw [zIntOrTstr_int s _ ha]
  simp only
  rw [zBstr_bstr s x hh]

theorem zIdMap_x5t (s : Bool) {a : Int} {h : Bytes} (x : Bytes) (ha : Int32 a) (hh : h.length < 2 ^ 64) :
    zIdMap s (idX5t a h ++ x) = some ({ IdMap.none with x5t := some (.inl a, h) }, x) := by
  unfold zIdMap idX5t
  rw [zStart_map s x (by simp)]
  simp only [List.length_cons, List.length_nil, encList, List.append_nil, List.append_assoc]
  simp only [zEntry_other s (key := 34) (k := 4) _ _ _ (by omega) (by omega),
    zEntry_other s (key := 34) (k := 32) _ _ _ (by omega) (by omega),
    zEntry_other s (key := 34) (k := 33) _ _ _ (by omega) (by omega),
    zEntry_match s (k := 34) (f := zAlgHash s) 0 (by omega) (zAlgHash_ok s x ha hh),
    zEntry_zero, ↓reduceIte, IdMap.none]

theorem zIdMap_int (s : Bool) {i : Int} (x : Bytes) (h : Int32 i) : zIdMap s (enc (.int i) ++ x) = none := by
  unfold zIdMap
  rw [zStart_int s x h (by omega)]

end Verif.Edhoc
