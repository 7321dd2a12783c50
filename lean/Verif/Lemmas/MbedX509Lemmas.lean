import Verif.Model.MbedX509
import Verif.Lemmas.Asn1Lemmas
/-
Lemmas about the mbedTLS traversal and the callbacks of cert.c.
-/
namespace Verif.MbedX509
open Verif Asn1 DerSpec

theorem lenBytes_pos (n : Nat) : 0 < (lenBytes n).length := List.length_pos_iff.2 (lenBytes_ne n)

theorem take_drop_slice {c t : Bytes} {stop pos : Nat} (h : (c.take stop).drop pos = t) :
    ∃ u, c.drop pos = t ++ u := by
  refine ⟨c.drop (max pos stop), ?_⟩
  subst h
  rw [List.drop_take]
  by_cases hp : pos ≤ stop
  · conv => lhs; rw [← List.take_append_drop (stop - pos) (c.drop pos)]
    rw [List.drop_drop]
    congr 2
    omega
  · rw [Nat.sub_eq_zero_of_le (by omega), List.take_zero, List.nil_append, Nat.max_eq_left (by omega)]

theorem libLen_tlv {c t content : Bytes} {tag : UInt8} {stop pos : Nat} (hs : stop ≤ c.length)
    (h : (c.take stop).drop pos = tlv tag content ++ t) (hn : content.length < 2 ^ 32) :
    libLen c stop (pos + 1) = some (pos + hdr content, content.length) ∧
    (c.take stop).drop (pos + hdr content) = content ++ t := by
  obtain ⟨g1, g2⟩ := getLen_tlv (len := 0) h hn
  refine ⟨?_, g2⟩
  unfold libLen
  rw [g1]
  have hl := congrArg List.length h
  rw [List.length_drop, List.length_take, List.length_append, tlv_length, Nat.min_eq_left hs] at hl
  have := lenBytes_pos content.length
  have hh : 2 ≤ hdr content := by unfold hdr; omega
  simp only
  rw [if_neg (by omega), if_pos (by omega)]

theorem getD_of_drop {c t : Bytes} {pos : Nat} {b : UInt8} (h : c.drop pos = b :: t) : c.getD pos 0 = b := by
  rw [List.getD_eq_getElem?_getD, getElem?_of_drop h]; rfl

theorem libElems_step {c t content : Bytes} {tag : UInt8} {stop pos : Nat} (hs : stop ≤ c.length)
    (h : (c.take stop).drop pos = tlv tag content ++ t) (hn : content.length < 2 ^ 32) (fuel : Nat) :
    libElems c stop (fuel + 1) pos =
      (tag, pos + hdr content, content.length) :: libElems c stop fuel (pos + hdr content + content.length) ∧
    (c.take stop).drop (pos + hdr content) = content ++ t ∧
    (c.take stop).drop (pos + hdr content + content.length) = t := by
  obtain ⟨g1, g2⟩ := libLen_tlv hs h hn
  refine ⟨?_, g2, drop_add g2⟩
  have hl := congrArg List.length h
  rw [List.length_drop, List.length_take, List.length_append, tlv_length, Nat.min_eq_left hs] at hl
  have hh : 2 ≤ hdr content := by have := lenBytes_pos content.length; unfold hdr; omega
  conv => lhs; unfold libElems
  rw [if_pos (by omega), g1]
  simp only
  obtain ⟨u, hu⟩ := take_drop_slice h
  rw [getD_of_drop (b := tag) (t := lenBytes content.length ++ content ++ t ++ u) (by rw [hu]; simp [tlv])]

theorem libElems_end {c : Bytes} {stop pos : Nat} (hs : stop ≤ c.length) (h : (c.take stop).drop pos = []) (fuel : Nat) :
    libElems c stop fuel pos = [] := by
  have hl := congrArg List.length h
  rw [List.length_drop, List.length_take, Nat.min_eq_left hs, List.length_nil] at hl
  cases fuel with
  | zero => rfl
  | succ n => unfold libElems; rw [if_neg (by omega)]

/-- the part `pl` of the certificate -/
def slice (c : Bytes) (pl : Nat × Nat) : Bytes := (c.drop pl.1).take pl.2

/-- `pl` is the position of `v` in `c` -/
def At (c : Bytes) (pl : Nat × Nat) (v : Bytes) : Prop := pl.1 + pl.2 ≤ c.length ∧ slice c pl = v

theorem At.len {c v : Bytes} {pl : Nat × Nat} (h : At c pl v) : pl.2 = v.length := by
  obtain ⟨h1, h2⟩ := h
  rw [← h2, slice, List.length_take, List.length_drop]; omega

theorem At.drop {c v : Bytes} {pl : Nat × Nat} (h : At c pl v) : (c.take (pl.1 + pl.2)).drop pl.1 = v := by
  obtain ⟨_, h2⟩ := h
  rw [← h2, slice, List.drop_take]
  congr 1; omega

theorem At.rd {c v : Bytes} {pl : Nat × Nat} (h : At c pl v) : rdSlice c pl.1 pl.2 = .ok v := by
  unfold rdSlice
  rw [if_pos h.1, show (c.drop pl.1).take pl.2 = v from h.2]

/-- a SEQUENCE of two elements -/
theorem traverse_two {c c1 c2 : Bytes} {t1 t2 : UInt8} {pl : Nat × Nat} (h : At c pl (seq (tlv t1 c1 ++ tlv t2 c2)))
    (hn : (tlv t1 c1 ++ tlv t2 c2).length < 2 ^ 32) :
    ∃ p1 p2 u1 u2, libTraverse c pl = [(t1, p1, c1.length), (t2, p2, c2.length)] ∧
      c.drop p1 = c1 ++ u1 ∧ c.drop p2 = c2 ++ u2 ∧
      (∃ w, (c.take p1).reverse = (lenBytes c1.length).reverse ++ w) ∧
      (∃ w, (c.take p2).reverse = (lenBytes c2.length).reverse ++ w) ∧ pl.1 ≤ p1 ∧ p2 + c2.length = pl.1 + pl.2 ∧ p1 + c1.length ≤ p2 := by
  have hd := h.drop
  have hlen := h.len
  unfold seq at hd hlen
  have hs := h.1
  have hn1 : c1.length < 2 ^ 32 ∧ c2.length < 2 ^ 32 := by
    rw [List.length_append, tlv_length, tlv_length] at hn; omega
  obtain ⟨g1, g2⟩ := libLen_tlv (t := []) hs (by rw [hd, List.append_nil]) hn
  rw [List.append_nil] at g2
  rw [tlv_length] at hlen
  have hh0 : 2 ≤ hdr (tlv t1 c1 ++ tlv t2 c2) := by have := lenBytes_pos (tlv t1 c1 ++ tlv t2 c2).length; unfold hdr; omega
  have hh1 : 2 ≤ hdr c1 := by have := lenBytes_pos c1.length; unfold hdr; omega
  have hh2 : 2 ≤ hdr c2 := by have := lenBytes_pos c2.length; unfold hdr; omega
  have hl2 : (tlv t1 c1 ++ tlv t2 c2).length = hdr c1 + c1.length + (hdr c2 + c2.length) := by
    rw [List.length_append, tlv_length, tlv_length]
  obtain ⟨f, hf⟩ : ∃ f, pl.2 = f + 1 + 1 := ⟨pl.2 - 2, by omega⟩
  obtain ⟨e1, e2, e3⟩ := libElems_step hs g2 hn1.1 (f + 1)
  replace e3 := e3.trans (List.append_nil (tlv t2 c2)).symm
  obtain ⟨e4, e5, e6⟩ := libElems_step hs e3 hn1.2 f
  have ht : libTraverse c pl = libElems c (pl.1 + pl.2) pl.2 (pl.1 + hdr (tlv t1 c1 ++ tlv t2 c2)) := by
    unfold libTraverse
    obtain ⟨u, hu⟩ := take_drop_slice hd
    simp only
    rw [if_pos ⟨by omega, getD_of_drop (b := 0x30) (t := lenBytes (tlv t1 c1 ++ tlv t2 c2).length ++ (tlv t1 c1 ++ tlv t2 c2) ++ u)
      (by rw [hu]; simp [tlv])⟩, g1]
    simp only
    rw [if_pos (by omega)]
  obtain ⟨u1, hu1⟩ := take_drop_slice e2
  obtain ⟨u2, hu2⟩ := take_drop_slice e5
  have key : ∀ (q : Nat) (t : UInt8) (w x : Bytes), (c.take (pl.1 + pl.2)).drop q = tlv t w ++ x → q + hdr w ≤ pl.1 + pl.2 →
      ∃ y, (c.take (q + hdr w)).reverse = (lenBytes w.length).reverse ++ y := by
    intro q t w x hq hle
    refine ⟨(c.take q ++ [t]).reverse, ?_⟩
    rw [← List.reverse_append]
    congr 1
    have h1 : c.take (q + hdr w) = c.take q ++ ((c.take (pl.1 + pl.2)).drop q).take (hdr w) := by
      have : (c.take (pl.1 + pl.2)).take (q + hdr w) = c.take (q + hdr w) := by
        rw [List.take_take, Nat.min_eq_left hle]
      rw [← this, List.take_add, List.take_take, Nat.min_eq_left (by omega)]
    rw [h1, hq, tlv]
    have : hdr w = (t :: lenBytes w.length).length := by simp [hdr]; omega
    rw [this, ← List.cons_append, List.append_assoc, List.take_left]
    simp
  refine ⟨_, _, _, _, ?_, hu1.trans (List.append_assoc ..), hu2.trans (List.append_assoc ..), key _ _ _ _ g2 (by omega),
    key _ _ _ _ e3 (by omega), by omega, by omega, by omega⟩
  · rw [ht]
    conv => lhs; arg 3; rw [hf]
    rw [e1, e4, libElems_end hs e6]

end Verif.MbedX509
