import Verif.Lemmas.UnprotectLemmas
import Verif.Spec.OscoreOptSpec
/-
Property C19 (OSCORE option codec) and the part of C16 about the OSCORE option.
-/
namespace Verif
open Spec

/-- **C19** What `coap2oscore` writes is the RFC 8613 encoding, whenever it fits the 23-byte buffer;
otherwise the error is `buffer_to_small`. -/
theorem C19_generate_rfc8613 (piv kid kctx : Bytes) :
    (oscoreValue piv kctx kid).length ≤ 23 ∧
      oscoreOptionGenerate piv kid kctx = .ok (oscoreValue piv kctx kid) ∨
    23 < (oscoreValue piv kctx kid).length ∧
      oscoreOptionGenerate piv kid kctx = .err .buffer_to_small := by
  have hlen : oscoreOptValLen piv.length kid.length kctx.length = (oscoreValue piv kctx kid).length := by
    unfold oscoreOptValLen oscoreValue
    cases piv <;> cases kid <;> cases kctx <;> simp <;> omega
  unfold oscoreOptionGenerate
  rw [hlen]
  unfold checkBufferSize
  by_cases h : 23 < (oscoreValue piv kctx kid).length
  · right; exact ⟨h, by rw [if_pos h]; rfl⟩
  · left
    refine ⟨by omega, ?_⟩
    rw [if_neg h]
    simp only [R.ok_bind, R.pure_eq]
    unfold oscoreValue
    by_cases hc : piv = [] ∧ kctx = [] ∧ kid = []
    · simp [hc]
    · rw [if_neg hc]
      rw [if_neg (by simp)]
      congr 1
      simp only [List.cons_append, List.cons.injEq, List.append_assoc, byte,
        List.length_eq_zero_iff, List.nil_append]
      refine ⟨?_, ?_⟩
      · congr 1; omega
      · trivial

/-- **C19** Parsing an option value in the RFC 8613 format (PIV of at most 5 bytes, total length of
at most 255 bytes), wherever it lies in a packet, gives back exactly PIV, KID context and KID. -/
theorem C19_parse (piv kctx kid rest : Bytes) (hp : piv.length ≤ 5)
    (hl : (oscoreValue piv kctx kid).length ≤ 255) :
    ∃ o, parseOscoreValue (oscoreValue piv kctx kid).length (oscoreValue piv kctx kid ++ rest) = .ok o ∧
      o.piv.read = .ok piv ∧ o.kidCtx.read = .ok kctx ∧ o.kid.read = .ok kid ∧
      o.piv.len = piv.length ∧ o.kid.len = kid.length := by
  unfold oscoreValue at *
  by_cases hc : piv = [] ∧ kctx = [] ∧ kid = []
  · obtain ⟨rfl, rfl, rfl⟩ := hc
    exact ⟨⟨.null, .null, .null⟩, by simp [parseOscoreValue], by simp [Fld.null, Fld.read],
      by simp [Fld.null, Fld.read], by simp [Fld.null, Fld.read], rfl, rfl⟩
  · rw [if_neg hc] at *
    unfold parseOscoreValue
    rw [if_neg (by simp)]
    simp only [List.cons_append, List.append_assoc, List.nil_append]
    have hb : (UInt8.ofNat ((if kctx = [] then 0 else 16) + 8 + piv.length)).toNat =
        (if kctx = [] then 0 else 16) + 8 + piv.length := byte_toNat (by split <;> omega)
    rw [hb]
    have hn : ((if kctx = [] then 0 else 16) + 8 + piv.length) % 8 = piv.length := by split <;> omega
    have hk : ((if kctx = [] then 0 else 16) + 8 + piv.length) / 8 % 2 = 1 := by split <;> omega
    rw [hn, hk, if_neg (by omega)]
    simp only [List.length_append, List.length_cons, List.length_nil] at hl
    have hpr : ∀ l : Bytes, (if piv.length = 0 then Fld.null else ⟨piv.length, piv ++ l⟩ : Fld).read =
        .ok piv := by
      intro l
      by_cases h0 : piv.length = 0
      · have : piv = [] := List.length_eq_zero_iff.1 h0
        subst this; rfl
      · rw [if_neg h0]; simp [Fld.read]
    have hpl : ∀ l : Bytes, (if piv.length = 0 then Fld.null else ⟨piv.length, piv ++ l⟩ : Fld).len =
        piv.length := by
      intro l
      by_cases h0 : piv.length = 0
      · rw [if_pos h0]; exact h0.symm
      · rw [if_neg h0]
    by_cases hx : kctx = []
    · subst hx
      simp only [if_true, List.nil_append] at *
      rw [if_pos (by omega), List.drop_left]
      refine ⟨_, rfl, hpr _, rfl, ?_, hpl _, ?_⟩
      · simp only [Nat.one_ne_zero, if_false, Fld.read]
        have : (if piv.length = 0 then 0 + 1 + piv.length + kid.length - 1
            else (0 + 1 + piv.length + kid.length + 255 - piv.length) % 256) = kid.length := by
          simp at hl
          split <;> omega
        simp only [List.length_append, List.length_cons, List.length_nil]
        have h2 : (if piv.length = 0 then piv.length + kid.length + 1 - 1
            else (piv.length + kid.length + 1 + 255 - piv.length) % 256) = kid.length := by
          simp at hl
          split <;> omega
        rw [h2]
        simp
      · simp only [Nat.one_ne_zero, if_false, List.length_append, List.length_cons]
        simp at hl
        split <;> omega
    · have hkpos : kctx.length ≠ 0 := by
        intro h; exact hx (List.length_eq_zero_iff.1 h)
      simp only [if_neg hx] at *
      simp only [List.length_cons] at hl
      rw [if_neg (by omega), List.drop_left]
      simp only [List.cons_append]
      have hs : (UInt8.ofNat kctx.length).toNat = kctx.length := byte_toNat (by omega)
      rw [hs]
      simp only [List.append_assoc, List.drop_left]
      refine ⟨_, rfl, hpr _, ?_, ?_, hpl _, ?_⟩
      · simp [Fld.read]
      · simp only [Nat.one_ne_zero, if_false, Fld.read]
        simp only [List.length_append, List.length_cons]
        have h2 : ((if piv.length = 0 then piv.length + (kctx.length + kid.length + 1) + 1 - 1
            else (piv.length + (kctx.length + kid.length + 1) + 1 + 255 - piv.length) % 256) + 512 -
              (kctx.length + 1)) % 256 = kid.length := by
          split <;> omega
        rw [h2]
        simp
      · simp only [Nat.one_ne_zero, if_false, List.length_append, List.length_cons]
        split <;> omega

/-- **C19** Generate, then parse: nothing is lost. -/
theorem C19_roundtrip (piv kctx kid v rest : Bytes) (hp : piv.length ≤ 5)
    (h : oscoreOptionGenerate piv kid kctx = .ok v) :
    ∃ o, parseOscoreValue v.length (v ++ rest) = .ok o ∧
      o.piv.read = .ok piv ∧ o.kidCtx.read = .ok kctx ∧ o.kid.read = .ok kid ∧
      o.piv.len = piv.length ∧ o.kid.len = kid.length := by
  rcases C19_generate_rfc8613 piv kid kctx with ⟨h1, h2⟩ | ⟨_, h2⟩
  · rw [h] at h2
    obtain rfl := R.ok.inj h2
    exact C19_parse piv kctx kid rest hp (by omega)
  · rw [h] at h2; cases h2

/-- **C19** The reserved PIV lengths 6 and 7 are rejected. -/
theorem C19_reserved_rejected (f : UInt8) (v rest : Bytes) (len : Nat) (hlen : 0 < len)
    (hn : f.toNat % 8 = 6 ∨ f.toNat % 8 = 7) :
    parseOscoreValue len (f :: v ++ rest) = .err .oscore_inpkt_invalid_piv := by
  unfold parseOscoreValue
  rw [if_neg (by omega)]
  simp only [List.cons_append]
  rw [if_pos hn]

/-- Reserved flag bits (RFC 8613 §6.1: "set to zero, otherwise malformed") are ignored: the three
high bits do not influence the result. -/
theorem C19_reserved_bits_ignored (f : UInt8) (tail : Bytes) (len : Nat) :
    parseOscoreValue len (f :: tail) = parseOscoreValue len (byte (f.toNat % 32) :: tail) := by
  have h : (byte (f.toNat % 32)).toNat = f.toNat % 32 := byte_toNat (by omega)
  unfold parseOscoreValue
  simp only [h]
  rw [show f.toNat % 32 % 8 = f.toNat % 8 by omega, show f.toNat % 32 / 8 % 2 = f.toNat / 8 % 2 by omega,
    show f.toNat % 32 / 16 % 2 = f.toNat / 16 % 2 by omega]

/-- Exactly when a field can be read without leaving the packet. -/
theorem Fld.read_ok_iff {f : Fld} : (∃ b, f.read = .ok b) ↔ f.len ≤ f.avail.length := by
  unfold Fld.read
  split <;> simp [*]

/-- **C16** (OSCORE option, partial) If the option value is at least as long as its flag byte
announces (PIV; KID context length byte and KID context), the parser stays inside the value and all
reported fields lie inside the value.  Missing: nothing checks that announcement, see
`C16_false_kid` and `C16_false_piv`. -/
theorem C16_oscore_option_inside_partial (f : UInt8) (v rest : Bytes) (hv : v.length ≤ 254)
    (hn : f.toNat % 8 ≤ 5) (hpiv : f.toNat % 8 ≤ v.length)
    (hctx : f.toNat / 16 % 2 = 1 → ∃ s w, v.drop (f.toNat % 8) = s :: w ∧ s.toNat ≤ w.length) :
    ∃ o piv kctx kid, parseOscoreValue (v.length + 1) (f :: v ++ rest) = .ok o ∧
      o.piv.read = .ok piv ∧ o.kidCtx.read = .ok kctx ∧ o.kid.read = .ok kid ∧
      piv <:+: v ∧ kctx <:+: v ∧ kid <:+: v := by
  unfold parseOscoreValue
  rw [if_neg (by omega)]
  simp only [List.cons_append]
  rw [if_neg (by omega)]
  have nil_in : ([] : Bytes) <:+: v := List.nil_infix
  have hdrop : (v ++ rest).drop (f.toNat % 8) = v.drop (f.toNat % 8) ++ rest :=
    List.drop_append_of_le_length hpiv
  have htake : (v ++ rest).take (f.toNat % 8) = v.take (f.toNat % 8) :=
    List.take_append_of_le_length hpiv
  have hp : (if f.toNat % 8 = 0 then Fld.null else ⟨f.toNat % 8, v ++ rest⟩ : Fld).read =
      .ok (v.take (f.toNat % 8)) := by
    by_cases h0 : f.toNat % 8 = 0
    · rw [h0]; rfl
    · rw [if_neg h0]
      simp only [Fld.read]
      rw [if_pos (by simp; omega), htake]
  have hpin : v.take (f.toNat % 8) <:+: v := (List.take_prefix _ _).isInfix
  have hkl : (if f.toNat % 8 = 0 then v.length + 1 - 1 else (v.length + 1 + 255 - f.toNat % 8) % 256) =
      v.length - f.toNat % 8 := by split <;> omega
  rw [hkl, hdrop]
  have hh : f.toNat / 16 % 2 = 0 ∨ f.toNat / 16 % 2 = 1 := by omega
  rcases hh with hh | hh
  · rw [if_pos hh]
    by_cases hk : f.toNat / 8 % 2 = 0
    · exact ⟨_, _, [], [], rfl, hp, rfl, by simp only [hk, if_true]; rfl, hpin, nil_in, nil_in⟩
    · refine ⟨_, _, [], v.drop (f.toNat % 8), rfl, hp, rfl, ?_, hpin, nil_in, (List.drop_suffix _ _).isInfix⟩
      simp only [if_neg hk, Fld.read]
      rw [if_pos (by simp)]
      rw [← List.length_drop, List.take_left]
  · rw [if_neg (by omega)]
    obtain ⟨s, w, hsw, hs⟩ := hctx hh
    have hlen := congrArg List.length hsw
    simp only [List.length_drop, List.length_cons] at hlen
    have hw : w <:+: v := by
      have h1 : s :: w <:+ v := by rw [← hsw]; exact List.drop_suffix _ _
      exact ((List.suffix_cons s w).trans h1).isInfix
    rw [hsw]
    simp only [List.cons_append]
    have hd2 : (w ++ rest).drop s.toNat = w.drop s.toNat ++ rest := List.drop_append_of_le_length hs
    have hk2 : (v.length - f.toNat % 8 + 512 - (s.toNat + 1)) % 256 = (w.drop s.toNat).length := by
      simp; omega
    by_cases hk : f.toNat / 8 % 2 = 0
    · refine ⟨_, _, w.take s.toNat, [], rfl, hp, ?_, by simp only [hk, if_true]; rfl, hpin,
        (List.take_prefix _ _).isInfix.trans hw, nil_in⟩
      simp only [Fld.read]
      rw [if_pos (by simp; omega), List.take_append_of_le_length hs]
    · refine ⟨_, _, w.take s.toNat, w.drop s.toNat, rfl, hp, ?_, ?_, hpin,
        (List.take_prefix _ _).isInfix.trans hw, (List.drop_suffix _ _).isInfix.trans hw⟩
      · simp only [Fld.read]
        rw [if_pos (by simp; omega), List.take_append_of_le_length hs]
      · simp only [if_neg hk, Fld.read, hd2, hk2]
        rw [if_pos (by simp), List.take_left]

/-- **C16 is false** for the OSCORE option: a 3-byte value with an announced KID context of 255 bytes
yields a 2-byte KID that lies outside the packet. -/
theorem C16_false_kid : ∃ o, parseOscoreValue 3 [0x18, 255, 0] = .ok o ∧ o.kid.len = 2 ∧
    o.kid.read = .ub := ⟨⟨.null, ⟨255, [0]⟩, ⟨2, []⟩⟩, by decide +kernel⟩

/-- **C16 is false** for the OSCORE option: a 1-byte value announcing a 5-byte PIV at the end of the
packet. -/
theorem C16_false_piv : ∃ o, parseOscoreValue 1 [0x05] = .ok o ∧ o.piv.read = .ub :=
  ⟨⟨⟨5, []⟩, .null, .null⟩, by decide +kernel⟩

/-! Non-vacuity -/
example : oscoreOptionGenerate [1, 0] [7, 8] [0xAA] = .ok [0x1A, 1, 0, 1, 0xAA, 7, 8] := by decide +kernel
example : (parseOscoreValue 7 [0x1A, 1, 0, 1, 0xAA, 7, 8, 0xFF]) =
    .ok ⟨⟨2, [1, 0, 1, 0xAA, 7, 8, 0xFF]⟩, ⟨1, [0xAA, 7, 8, 0xFF]⟩, ⟨2, [7, 8, 0xFF]⟩⟩ := by decide +kernel

end Verif
