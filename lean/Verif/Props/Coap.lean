import Verif.Spec.CoapSpec
import Verif.Lemmas.CoapLemmas
/-
Properties C15 (CoAP round trip), C16 (parser memory safety), C32 for the serialiser,
C48 (copy primitives).
-/
namespace Verif
open Spec

/-! ## C48 -/

/-- **C48** `_memcpy_s` copies exactly the source or reports `buffer_to_small`. -/
theorem C48_memcpy (destLen : Nat) (src : Bytes) :
    (src.length ≤ destLen → memcpyS destLen src = .ok src) ∧
    (destLen < src.length → memcpyS destLen src = .err .buffer_to_small) := by
  rw [memcpyS_eq]
  exact ⟨fun h => if_pos h, fun h => if_neg (by omega)⟩

/-- **C48** `byte_array_cpy`: exact copy or `buffer_to_small`. -/
theorem C48_cpy (src : Bytes) (maxLen : Nat) :
    (src.length ≤ maxLen → byteArrayCpy src maxLen = .ok src) ∧
    (maxLen < src.length → byteArrayCpy src maxLen = .err .buffer_to_small) :=
  C48_memcpy maxLen src

/-- **C48** `byte_array_append`: for arrays whose sizes fit their 32-bit length fields the result is
the concatenation if it fits the capacity and `buffer_to_small` otherwise (the 32-bit sum of the
lengths may wrap; the second check catches that). -/
theorem C48_append (dest src : Bytes) (capacity : Nat) (hc : capacity < 2 ^ 32)
    (hd : dest.length ≤ capacity) (hs : src.length < 2 ^ 32) :
    (dest.length + src.length ≤ capacity → byteArrayAppend dest src capacity = .ok (dest ++ src)) ∧
    (capacity < dest.length + src.length →
      byteArrayAppend dest src capacity = .err .buffer_to_small) := by
  unfold byteArrayAppend
  have e : (capacity + 2 ^ 32 - dest.length) % 2 ^ 32 = capacity - dest.length := by omega
  constructor
  · intro h
    rw [if_neg (by omega), e, memcpyS_eq, if_pos (by omega)]
    rfl
  · intro h
    split
    · rfl
    · rw [e, memcpyS_eq, if_neg (by omega)]; rfl

/-- **C48** `array_equals` decides equality of contents. -/
theorem C48_arrayEquals (l r : Bytes) : arrayEquals l r = true ↔ l = r := arrayEquals_iff

/-! ## C15 -/

theorem extField_eq (x : Nat) (h : x < 65536 + 269) : extField x = (optNibble x, optExt x) := by
  unfold extField optNibble optExt optExtraBytes
  by_cases h1 : x < 13
  · rw [if_pos (by omega)]; simp [h1]
  · rw [if_neg (by omega)]
    by_cases h2 : x < 269
    · rw [if_pos (by omega)]; simp [h1, h2]
    · rw [if_neg (by omega)]
      have : (x - 269) / 256 % 256 = (x - 269) / 256 := by omega
      simp [h1, h2, this]

theorem wireOpts_eq {prev : Nat} {opts : List Opt} (hs : sortedFrom prev opts)
    (hl : ∀ o ∈ opts, o.value.length < 65536) :
    wireOpts prev (opts.map fun o => (o.num, o.value)) = encOpts opts := by
  induction opts generalizing prev with
  | nil => rfl
  | cons o os ih =>
    obtain ⟨h1, h2, h3, h4⟩ := hs
    have hlo := hl o (by simp)
    simp only [List.map_cons, wireOpts, encOpts, optHeader]
    rw [ih h4 (fun x hx => hl x (List.mem_cons_of_mem _ hx)), ← h3, extField_eq _ (by omega),
      extField_eq _ (by omega)]
    simp [Opt.len, Nat.mul_comm, byte]

theorem wire_eq {p : Pkt} (h : WellFormed p) :
    wire p.ver p.type p.token.length p.code p.mid p.token (p.opts.map fun o => (o.num, o.value))
      p.payload = encPkt p := by
  unfold wire encPkt coapHeaderBytes
  rw [wireOpts_eq h.sorted h.lens]
  simp only [List.length_eq_zero_iff]
  have e : 64 * p.ver + 16 * p.type + p.token.length = p.ver * 64 + p.type * 16 + p.token.length := by
    omega
  rw [e]

/-- **C15** What `coap_serialize` writes for a well-formed message is the RFC 7252 encoding. -/
theorem C15_serialize_rfc7252 (cfg : Cfg) (p : Pkt) (cap : Nat) (b : Bytes) (h : WellFormed p)
    (hs : coapSerialize cfg p cap = .ok b) :
    b = wire p.ver p.type p.token.length p.code p.mid p.token
      (p.opts.map fun o => (o.num, o.value)) p.payload := by
  rw [wire_eq h]; exact (coapSerialize_ok.1 hs).1

theorem numsOk_of_sorted {prev : Nat} {opts : List Opt} (h : sortedFrom prev opts) :
    numsOk prev opts := by
  induction opts generalizing prev with
  | nil => trivial
  | cons o os ih =>
    obtain ⟨h1, h2, h3, h4⟩ := h
    refine ⟨?_, ih h4⟩
    rw [h3]; omega

/-- **C15** (partial) A well-formed message survives serialisation and parsing.
Missing from the full claim, because it is false there (see the witnesses below):
messages with 20 options, with an option delta in 256..268, with an option length in 256..268, or
with an extended length whose two summands share bits (e.g. 525, read back as 269). -/
theorem C15_roundtrip_partial (cfg : Cfg) (p : Pkt) (cap : Nat) (b : Bytes) (h : WellFormed p)
    (hs : coapSerialize cfg p cap = .ok b) (hb : b.length < 65536)
    (hcount : p.opts.length ≤ 19)
    (hdelta : ∀ o ∈ p.opts, ¬ (256 ≤ o.delta ∧ o.delta ≤ 268))
    (hlen : ∀ o ∈ p.opts, o.value.length < 256 ∨
      (269 ≤ o.value.length ∧
        ((o.value.length - 269) / 256 * 256 ||| ((o.value.length - 269) % 256 + 269))
          = o.value.length)) :
    coapDeserialize b = .ok p := by
  obtain ⟨rfl, _, _⟩ := coapSerialize_ok.1 hs
  refine deserialize_encPkt ⟨h.ver, h.type, h.mid, h.token, hcount, ?_, numsOk_of_sorted h.sorted⟩ hb
  have hrange : ∀ {prev : Nat} {l : List Opt}, sortedFrom prev l → ∀ o ∈ l, o.delta < 65536 := by
    intro prev l
    induction l generalizing prev with
    | nil => simp
    | cons a l ih =>
      rintro ⟨h1, h2, h3, h4⟩ o ho
      rcases List.mem_cons.1 ho with rfl | ho
      · omega
      · exact ih h4 o ho
  intro o ho
  have hd := hdelta o ho
  have hr := hrange h.sorted o ho
  have hl := hlen o ho
  have hw := h.lens o ho
  refine ⟨?_, ?_⟩
  · unfold deltaOk; omega
  · unfold lenOk Opt.len
    rcases hl with hl | ⟨h1, h2⟩
    · exact Or.inl hl
    · exact Or.inr ⟨h1, hw, h2⟩

/-- example message with two options and a payload -/
def exPkt : Pkt :=
  { ver := 1, type := 0, code := 1, mid := 0x1234, token := [0xAA, 0xBB],
    opts := [⟨3, [0x68, 0x69], 3⟩, ⟨8, [0x74], 11⟩, ⟨49, [1, 2, 3], 60⟩], payload := [1, 2, 3] }

example : WellFormed exPkt := by constructor <;> decide
example : coapSerialize {} exPkt 64 = .ok
    [0x42, 1, 0x12, 0x34, 0xAA, 0xBB, 0x32, 0x68, 0x69, 0x81, 0x74, 0xD3, 36, 1, 2, 3, 0xFF, 1, 2, 3] := by
  decide +kernel
example : (coapSerialize {} exPkt 64 >>= coapDeserialize) = .ok exPkt := by decide +kernel

/-- A message whose first option is No-Response (258, RFC 7967). -/
def exNoResponse : Pkt :=
  { ver := 1, type := 0, code := 1, mid := 1, token := [], opts := [⟨258, [26], 258⟩], payload := [] }

/-- **C15 is false in general**: a No-Response option is written correctly but parsed back as
option 2 (the extended delta is truncated to 8 bits). -/
theorem C15_false_delta : WellFormed exNoResponse ∧
    (coapSerialize {} exNoResponse 64 >>= coapDeserialize)
      = .ok { exNoResponse with opts := [⟨2, [26], 2⟩] } := by
  refine ⟨by constructor <;> decide, by decide +kernel⟩

/-- **C15 is false in general**: an option of 256 bytes cannot be read back (its length is parsed as
0, and its value as further options). -/
theorem C15_false_length : ∃ (cfg : Cfg) (p : Pkt) (b : Bytes), WellFormed p ∧
    coapSerialize cfg p 1000 = .ok b ∧ coapDeserialize b ≠ .ok p := by
  refine ⟨{ eOptBuf := 400 }, { exNoResponse with opts := [⟨11, List.replicate 256 0xFF, 11⟩] },
    encPkt { exNoResponse with opts := [⟨11, List.replicate 256 0xFF, 11⟩] }, ?_, ?_, ?_⟩
  · constructor <;> decide +kernel
  · decide +kernel
  · decide +kernel

/-- **C15 is false in general**: 20 options fit the packet structure and are serialised, but the
parser accepts only 19. -/
theorem C15_false_count : WellFormed { exNoResponse with opts := List.replicate 20 ⟨0, [], 0⟩ } ∧
    (coapSerialize {} { exNoResponse with opts := List.replicate 20 ⟨0, [], 0⟩ } 64
      >>= coapDeserialize) = .err .too_many_options := by
  refine ⟨by constructor <;> decide, by decide +kernel⟩

/-! ## C16 -/

theorem optLoop_inside {inp : Bytes} {cap n i : Nat} {rest : Bytes} {num : Nat}
    {acc opts : List (Opt × Bytes)} {payload : Bytes}
    (h : optLoop inp cap n i rest num acc = .ok (opts, payload)) (hr : rest <:+ inp)
    (ha : ∀ x ∈ acc, x.1.value <:+: inp) :
    (∀ x ∈ opts, x.1.value <:+: inp) ∧ payload <:+ inp := by
  induction n generalizing i rest num acc with
  | zero =>
    unfold optLoop at h
    split at h
    · simp at h; obtain ⟨rfl, rfl⟩ := h; exact ⟨ha, List.nil_suffix⟩
    · split at h
      · split at h
        · simp at h
        · simp at h; obtain ⟨rfl, rfl⟩ := h; exact ⟨ha, List.drop_suffix _ _⟩
      · split at h
        · simp at h
        · simp only [R.bind_eq_ok] at h
          obtain ⟨⟨d, r1⟩, hd, ⟨l, r2⟩, hl, h⟩ := h
          simp only at h
          repeat' split at h
          all_goals simp at h
  | succ n ih =>
    unfold optLoop at h
    split at h
    · simp at h; obtain ⟨rfl, rfl⟩ := h; exact ⟨ha, List.nil_suffix⟩
    · split at h
      · split at h
        · simp at h
        · simp at h; obtain ⟨rfl, rfl⟩ := h; exact ⟨ha, List.drop_suffix _ _⟩
      · split at h
        · simp at h
        · rename_i hb r
          simp only [R.bind_eq_ok] at h
          obtain ⟨⟨d, r1⟩, hd, ⟨l, r2⟩, hl, h⟩ := h
          obtain ⟨e1, he1, _⟩ := parseDelta_ok hd
          obtain ⟨e2, he2, _⟩ := parseLen_ok hl
          have hr2 : r2 <:+ inp := by
            refine List.IsSuffix.trans ⟨hb :: e1 ++ e2, ?_⟩ hr
            simp only at he2
            rw [he1, he2]; simp
          simp only at h
          split at h
          · simp at h
          · split at h
            · simp at h
            · refine ih h ((List.drop_suffix _ _).trans hr2) ?_
              intro x hx
              rcases List.mem_append.1 hx with hx | hx
              · exact ha x hx
              · simp at hx; subst hx
                exact (List.take_prefix _ _).isInfix.trans hr2.isInfix

theorem coapDeserialize_shape {inp : Bytes} {p : Pkt} (h : coapDeserialize inp = .ok p) :
    ∃ hb c m1 m0 rest opts payload, inp = hb :: c :: m1 :: m0 :: rest ∧
      optionsParse (rest.drop (hb.toNat % 16)) maxOptionCount = .ok (opts, payload) ∧
      p = { ver := hb.toNat / 64, type := hb.toNat / 16 % 4, code := c,
            mid := m1.toNat * 256 + m0.toNat, token := rest.take (hb.toNat % 16),
            opts := opts.map Prod.fst, payload } := by
  unfold coapDeserialize coapParse at h
  match inp, h with
  | hb :: c :: m1 :: m0 :: rest, h =>
    simp only at h
    split at h
    · simp only [R.bind_eq_ok, R.pure_eq, R.ok.injEq] at h
      obtain ⟨⟨q, t⟩, ⟨⟨opts, payload⟩, ho, hq⟩, rfl⟩ := h
      simp only [Prod.mk.injEq] at hq
      exact ⟨hb, c, m1, m0, rest, opts, payload, rfl, ho, hq.1.symm⟩
    · simp at h

/-- **C16** (partial) Whenever `coap_deserialize` returns ok, for any input whatsoever, the token,
every option value and the payload it reports lie inside the input buffer and at most 19 options
were stored.  Missing: that the parser never leaves the buffer on its way, which is false (the
witnesses below). -/
theorem C16_reported_inside_partial (inp : Bytes) (p : Pkt) (h : coapDeserialize inp = .ok p) :
    p.token <:+: inp ∧ (∀ o ∈ p.opts, o.value <:+: inp) ∧ p.payload <:+ inp ∧
      p.opts.length ≤ 19 ∧ p.token.length ≤ 8 := by
  refine ⟨?_, ?_, ?_, (coapDeserialize_wf h).count, (coapDeserialize_wf h).token⟩
  all_goals
    obtain ⟨hb, c, m1, m0, rest, opts, payload, rfl, ho, rfl⟩ := coapDeserialize_shape h
    have hs : rest <:+ hb :: c :: m1 :: m0 :: rest := ⟨[hb, c, m1, m0], by simp⟩
  · exact (List.take_prefix _ _).isInfix.trans hs.isInfix
  · intro o hmem
    simp only [List.mem_map] at hmem
    obtain ⟨x, hx, rfl⟩ := hmem
    unfold optionsParse at ho
    split at ho
    · simp at ho; rw [ho.1] at hx; simp at hx
    · exact ((optLoop_inside ho List.suffix_rfl (by simp)).1 x hx).trans
        ((List.drop_suffix _ _).trans hs).isInfix
  · unfold optionsParse at ho
    split at ho
    · simp at ho; rw [ho.2]; exact List.nil_suffix
    · exact (optLoop_inside ho List.suffix_rfl (by simp)).2.trans ((List.drop_suffix _ _).trans hs)

/-- **C16** (partial) The fixed header and the token are always checked: short packets, reserved
token lengths and truncated tokens are rejected with an error. -/
theorem C16_header_safe (inp : Bytes) :
    (inp.length < 4 → coapDeserialize inp = .err .not_valid_input_packet) ∧
    (∀ h c m1 m0 rest, inp = h :: c :: m1 :: m0 :: rest →
      (8 < h.toNat % 16 ∨ rest.length < h.toNat % 16) →
      coapDeserialize inp = .err .oscore_inpkt_invalid_tkl) := by
  constructor
  · intro h
    unfold coapDeserialize coapParse
    match inp, h with
    | [], _ => rfl
    | [_], _ => rfl
    | [_, _], _ => rfl
    | [_, _, _], _ => rfl
  · rintro h c m1 m0 rest rfl hk
    unfold coapDeserialize coapParse
    simp only
    rw [if_neg (by omega)]; rfl

/-- **C16 is false**: an option header announcing an extension byte at the end of the packet is read
past the end. -/
theorem C16_false_ext : coapDeserialize [0x40, 1, 0, 1, 0xD0] = .ub := by decide +kernel

/-- **C16 is false**: an option value longer than the packet moves the read pointer past the end. -/
theorem C16_false_value : coapDeserialize [0x40, 1, 0, 1, 0x35, 0x61] = .ub := by decide +kernel

/-- **C16 is false**: the inner parser is called with a table of 10 options but accepts 19. -/
theorem C16_false_inner :
    optionsDeserialize (List.replicate 11 0) maxEOptionCount = .ub ∧
    optionsDeserialize (List.replicate 11 0) maxOptionCount
      = .ok (List.replicate 11 ⟨0, [], 0⟩, []) := by decide +kernel

/-! ## C32, the serialiser -/

/-- **C32** (partial) When `coap_serialize` returns ok it wrote at most the announced number of
bytes, and the length it reports is the number of bytes written.  Missing: in two cases it writes
before checking, see below. -/
theorem C32_serialize_fits_partial (cfg : Cfg) (p : Pkt) (cap : Nat) (b : Bytes)
    (h : coapSerialize cfg p cap = .ok b) : b.length ≤ cap := (coapSerialize_ok.1 h).2.1

/-- exact set of inputs on which `coap_serialize` succeeds -/
theorem coapSerialize_succeeds_iff (cfg : Cfg) (p : Pkt) (cap : Nat) :
    (∃ b, coapSerialize cfg p cap = .ok b) ↔
      (encPkt p).length ≤ cap ∧ optBytesLen p.opts ≤ cfg.maxCoapOptions := by
  constructor
  · rintro ⟨b, h⟩
    obtain ⟨rfl, h1, h2⟩ := coapSerialize_ok.1 h
    exact ⟨h1, h2⟩
  · rintro ⟨h1, h2⟩; exact ⟨_, coapSerialize_ok.2 ⟨rfl, h1, h2⟩⟩

/-- **C32 is false** when the announced buffer is shorter than the 4-byte header. -/
theorem C32_false_header (cfg : Cfg) (p : Pkt) : coapSerialize cfg p 3 = .ub := by
  simp [coapSerialize]

/-- **C32 is false** when the buffer ends exactly where the payload marker belongs. -/
theorem C32_false_marker : coapSerialize {} exPkt 16 = .ub := by decide +kernel

end Verif
