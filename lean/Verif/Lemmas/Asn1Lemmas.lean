import Verif.Model.Asn1
import Verif.Spec.DerSpec
/-
Lemmas about the certificate parser of cert.c without MBEDTLS.
-/
namespace Verif.Asn1
open Verif DerSpec

theorem getElem?_of_drop {c t : Bytes} {pos : Nat} {b : UInt8} (h : c.drop pos = b :: t) : c[pos]? = some b := by
  have : (c.drop pos)[0]? = some b := by rw [h]; rfl
  simpa using this

theorem rd_of_drop {c t : Bytes} {pos : Nat} {b : UInt8} (h : c.drop pos = b :: t) : rd c pos = .ok b := by
  unfold rd; rw [getElem?_of_drop h]

theorem drop_add {c s t : Bytes} {pos : Nat} (h : c.drop pos = s ++ t) : c.drop (pos + s.length) = t := by
  rw [← List.drop_drop, h, List.drop_left]

theorem at_of_drop {c t : Bytes} {pos : Nat} {b : UInt8} (h : c.drop pos = b :: t) : at' c pos = b.toNat := by
  unfold at'; rw [List.getD_eq_getElem?_getD, getElem?_of_drop h]; rfl

theorem drop_cons {c t : Bytes} {pos : Nat} {b : UInt8} (h : c.drop pos = b :: t) : c.drop (pos + 1) = t :=
  drop_add (s := [b]) h

theorem length_of_drop {c s t : Bytes} {pos : Nat} (h : c.drop pos = s ++ t) (hs : s ≠ []) :
    pos + s.length ≤ c.length := by
  have := congrArg List.length h
  rw [List.length_drop, List.length_append] at this
  have : 0 < s.length := List.length_pos_iff.2 hs
  omega

theorem ofNat_toNat' (n : Nat) : (UInt8.ofNat n).toNat = n % 256 := UInt8.toNat_ofNat' ..

theorem lenBytes_ne (n : Nat) : lenBytes n ≠ [] := by
  unfold lenBytes; repeat' split
  all_goals simp

theorem getLen_of_drop {c t : Bytes} {pos n len : Nat} (h : c.drop pos = lenBytes n ++ t) (hn : n < 2 ^ 32) :
    getLen c pos len = (pos + (lenBytes n).length, n) := by
  have hlen := length_of_drop h (lenBytes_ne n)
  unfold getLen
  unfold lenBytes at h hlen ⊢
  split at h
  · rename_i h1
    rw [if_pos h1] at hlen ⊢
    simp only [List.length_cons, List.length_nil] at hlen
    have e := at_of_drop (b := UInt8.ofNat n) (t := t) h
    rw [ofNat_toNat'] at e
    rw [if_neg (by omega)]
    simp only []
    rw [e, if_pos (by omega), Nat.mod_eq_of_lt (by omega)]
    rfl
  · rename_i h1
    rw [if_neg h1] at hlen ⊢
    split at h
    · rename_i h2
      rw [if_pos h2] at hlen ⊢
      simp only [List.length_cons, List.length_nil] at hlen
      have e0 := at_of_drop (b := 0x81) (t := _) h
      have d1 := drop_cons (b := 0x81) h
      have e1 := at_of_drop (b := UInt8.ofNat n) (t := t) d1
      rw [ofNat_toNat'] at e1
      rw [if_neg (by omega)]
      simp only []
      rw [e0, if_neg (by decide), if_pos (by decide), if_neg (by omega), e1, Nat.mod_eq_of_lt (by omega)]
      rfl
    · rename_i h2
      rw [if_neg h2] at hlen ⊢
      split at h
      · rename_i h3
        rw [if_pos h3] at hlen ⊢
        simp only [List.length_cons, List.length_nil] at hlen
        have e0 := at_of_drop (b := 0x82) (t := _) h
        have d1 := drop_cons (b := 0x82) h
        have e1 := at_of_drop (b := UInt8.ofNat (n / 0x100)) (t := _) d1
        have d2 := drop_cons (b := UInt8.ofNat (n / 0x100)) d1
        have e2 := at_of_drop (b := UInt8.ofNat n) (t := t) d2
        rw [ofNat_toNat'] at e1 e2
        rw [if_neg (by omega)]
        simp only []
        rw [e0, if_neg (by decide), if_neg (by decide), if_pos (by decide), if_neg (by omega), e1, e2]
        refine Prod.ext rfl ?_
        show _ = n
        simp only []
        omega
      · rename_i h3
        rw [if_neg h3] at hlen ⊢
        split at h
        · rename_i h4
          rw [if_pos h4] at hlen ⊢
          simp only [List.length_cons, List.length_nil] at hlen
          have e0 := at_of_drop (b := 0x83) (t := _) h
          have d1 := drop_cons (b := 0x83) h
          have e1 := at_of_drop (b := UInt8.ofNat (n / 0x10000)) (t := _) d1
          have d2 := drop_cons (b := UInt8.ofNat (n / 0x10000)) d1
          have e2 := at_of_drop (b := UInt8.ofNat (n / 0x100)) (t := _) d2
          have d3 := drop_cons (b := UInt8.ofNat (n / 0x100)) d2
          have e3 := at_of_drop (b := UInt8.ofNat n) (t := t) d3
          rw [ofNat_toNat'] at e1 e2 e3
          rw [if_neg (by omega)]
          simp only []
          rw [e0, if_neg (by decide), if_neg (by decide), if_neg (by decide), if_pos (by decide), if_neg (by omega), e1, e2, e3]
          refine Prod.ext rfl ?_
          show _ = n
          simp only []
          omega
        · rename_i h4
          rw [if_neg h4] at hlen ⊢
          simp only [List.length_cons, List.length_nil] at hlen
          have e0 := at_of_drop (b := 0x84) (t := _) h
          have d1 := drop_cons (b := 0x84) h
          have e1 := at_of_drop (b := UInt8.ofNat (n / 0x1000000)) (t := _) d1
          have d2 := drop_cons (b := UInt8.ofNat (n / 0x1000000)) d1
          have e2 := at_of_drop (b := UInt8.ofNat (n / 0x10000)) (t := _) d2
          have d3 := drop_cons (b := UInt8.ofNat (n / 0x10000)) d2
          have e3 := at_of_drop (b := UInt8.ofNat (n / 0x100)) (t := _) d3
          have d4 := drop_cons (b := UInt8.ofNat (n / 0x100)) d3
          have e4 := at_of_drop (b := UInt8.ofNat n) (t := t) d4
          rw [ofNat_toNat'] at e1 e2 e3 e4
          rw [if_neg (by omega)]
          simp only []
          rw [e0, if_neg (by decide), if_neg (by decide), if_neg (by decide), if_neg (by decide), if_pos (by decide),
            if_neg (by omega), e1, e2, e3, e4]
          refine Prod.ext rfl ?_
          show _ = n
          simp only []
          omega

/-- position behind the header of an element -/
def hdr (content : Bytes) : Nat := 1 + (lenBytes content.length).length

theorem tlv_length (tag : UInt8) (content : Bytes) : (tlv tag content).length = hdr content + content.length := by
  simp [tlv, hdr]; omega

theorem getLen_tlv {c t content : Bytes} {tag : UInt8} {pos len : Nat} (h : c.drop pos = tlv tag content ++ t)
    (hn : content.length < 2 ^ 32) :
    getLen c (pos + 1) len = (pos + hdr content, content.length) ∧ c.drop (pos + hdr content) = content ++ t := by
  have h1 : c.drop (pos + 1) = lenBytes content.length ++ (content ++ t) := by
    apply drop_cons (b := tag)
    rw [h]; simp [tlv]
  refine ⟨?_, ?_⟩
  · rw [getLen_of_drop h1 hn, hdr]
    simp only [Prod.mk.injEq, and_true]
    omega
  · have := drop_add h1
    rw [hdr, ← Nat.add_assoc]; exact this

/-- an element whose contents do not start with 0 -/
theorem expect_nz {c t content : Bytes} {tag b : UInt8} {pos len : Nat} (h : c.drop pos = tlv tag content ++ t)
    (hn : content.length < 2 ^ 32) (hb : (content ++ t).head? = some b) (hb0 : b ≠ 0) :
    expectTag tag c pos len = .ok (pos + hdr content, content.length) ∧
    c.drop (pos + hdr content) = content ++ t := by
  obtain ⟨g1, g2⟩ := getLen_tlv (len := len) h hn
  refine ⟨?_, g2⟩
  unfold expectTag
  rw [rd_of_drop (b := tag) (t := lenBytes content.length ++ content ++ t) (by rw [h]; simp [tlv]), R.ok_bind,
    if_neg (by simp), g1]
  unfold skipZero
  obtain ⟨w, hw⟩ : ∃ w, content ++ t = b :: w := by
    cases hc : content ++ t with
    | nil => rw [hc] at hb; simp at hb
    | cons x w => rw [hc] at hb; simp only [List.head?_cons, Option.some.injEq] at hb; subst hb; exact ⟨w, rfl⟩
  rw [hw] at g2
  simp only []
  rw [rd_of_drop g2, R.ok_bind, if_neg hb0]
  rfl

/-- an element whose contents start with 0 -/
theorem expect_z {c t v : Bytes} {tag : UInt8} {pos len : Nat} (h : c.drop pos = tlv tag (0 :: v) ++ t)
    (hn : (0 :: v).length < 2 ^ 32) :
    expectTag tag c pos len = .ok (pos + hdr (0 :: v) + 1, v.length) ∧
    c.drop (pos + hdr (0 :: v) + 1) = v ++ t := by
  obtain ⟨g1, g2⟩ := getLen_tlv (len := len) h hn
  refine ⟨?_, drop_cons (b := 0) g2⟩
  unfold expectTag
  rw [rd_of_drop (b := tag) (t := lenBytes (0 :: v).length ++ (0 :: v) ++ t) (by rw [h]; simp [tlv]), R.ok_bind,
    if_neg (by simp), g1]
  unfold skipZero
  simp only []
  rw [rd_of_drop (b := 0) (t := v ++ t) g2, R.ok_bind, if_pos rfl]
  simp only [List.length_cons] at hn ⊢
  rw [show (v.length + 1 + 2 ^ 32 - 1) % 2 ^ 32 = v.length by omega]
  rfl

/-- an INTEGER -/
theorem expect_int {c t v : Bytes} {pos len : Nat} (h : c.drop pos = int v ++ t)
    (hn : v.length ≤ 32) (hv : v ≠ []) (hv0 : v.head? ≠ some 0) :
    ∃ q, expectTag tagInteger c pos len = .ok (q, v.length) ∧ c.drop q = v ++ t := by
  unfold int at h
  split at h
  · obtain ⟨e1, e2⟩ := expect_z (len := len) h (by simp; omega)
    exact ⟨_, e1, e2⟩
  · cases v with
    | nil => exact absurd rfl hv
    | cons b w =>
      obtain ⟨e1, e2⟩ := expect_nz (b := b) (len := len) h (by simp at hn ⊢; omega) rfl (by simpa using hv0)
      exact ⟨_, e1, e2⟩

theorem skip_step {c t content : Bytes} {tag : UInt8} {n pos len : Nat} (h : c.drop pos = tlv tag content ++ t)
    (hn : content.length < 2 ^ 32) :
    skipElems c (n + 1) (pos, len) = skipElems c n (pos + (tlv tag content).length, content.length) ∧
    c.drop (pos + (tlv tag content).length) = t := by
  obtain ⟨g1, g2⟩ := getLen_tlv (len := len) h hn
  refine ⟨?_, drop_add h⟩
  rw [skipElems]
  simp only []
  rw [g1]
  simp only [tlv_length]
  rw [Nat.add_assoc]

theorem rdSlice_of_drop {c v t : Bytes} {pos : Nat} (h : c.drop pos = v ++ t) (hv : v ≠ []) :
    rdSlice c pos v.length = .ok v := by
  unfold rdSlice
  rw [if_pos (length_of_drop h hv), h, List.take_left]

theorem copyPk_of_drop {mem c v t : Bytes} {pos : Nat} (h : c.drop pos = v ++ t) (hl : v.length ≤ mem.length) :
    copyPk mem c pos v.length = .ok ⟨v ++ mem.drop v.length, v.length⟩ := by
  unfold copyPk
  split
  · rename_i h0
    have : v = [] := List.length_eq_zero_iff.1 h0
    subst this
    simp
  · rename_i h0
    rw [if_neg (by omega), rdSlice_of_drop h (by intro e; subst e; exact h0 rfl)]
    rfl

theorem copySig_of_drop {b : Buf} {c v t : Bytes} {pos : Nat} (h : c.drop pos = v ++ t) (hv : v ≠ [])
    (hl : b.len + v.length ≤ 64) :
    copySig b c pos v.length = .ok ⟨b.mem.take b.len ++ v ++ b.mem.drop (b.len + v.length), b.len + v.length⟩ := by
  have h0 : v.length ≠ 0 := by intro e; exact hv (List.length_eq_zero_iff.1 e)
  unfold copySig
  rw [if_neg h0, if_neg (by omega), if_neg (by omega), rdSlice_of_drop h hv, R.ok_bind,
    Nat.mod_eq_of_lt (by omega)]
  rfl

end Verif.Asn1
