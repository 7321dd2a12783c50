import Verif.Model.Coap
import Verif.Lemmas.BytesLemmas
namespace Verif

/-! ### the parser loop without the 16-bit index -/

/-- `optLoop` when the index never wraps -/
def optLoopS (cap n : Nat) (rest : Bytes) (num : Nat) (acc : List (Opt × Bytes)) :
    R (List (Opt × Bytes) × Bytes) :=
  match rest with
  | [] => .ok (acc, [])
  | h :: r =>
    if h = 0xFF then
      if r.length = 0 then .err .not_valid_input_packet else .ok (acc, r)
    else do
      let (d, r1) ← parseDelta (h.toNat / 16) r
      let (l, r2) ← parseLen (h.toNat % 16) r1
      if acc.length ≥ cap then .ub
      else if r2.length < l then .ub
      else
        let num' := (num + d) % 65536
        let o : Opt := { delta := d, value := r2.take l, num := num' }
        match n with
        | 0 => .err .too_many_options
        | n + 1 => optLoopS cap n (r2.drop l) num' (acc ++ [(o, r2)])

theorem parseDelta_ok {nib : Nat} {r r1 : Bytes} {d : Nat} (h : parseDelta nib r = .ok (d, r1)) :
    ∃ e, r = e ++ r1 ∧ e.length = extLen nib := by
  unfold parseDelta at h
  unfold extLen
  split at h
  · rename_i h13
    cases r with
    | nil => simp at h
    | cons b r => simp at h; exact ⟨[b], by simp [h.2], by simp [h13]⟩
  · split at h
    · rename_i h13 h14
      match r, h with
      | b0 :: b1 :: r, h => simp at h; exact ⟨[b0, b1], by simp [h.2], by simp [h14]⟩
    · split at h
      · simp at h
      · rename_i h13 h14 _; simp at h; exact ⟨[], by simp [h.2], by simp [h13, h14]⟩

theorem parseLen_ok {nib : Nat} {r r1 : Bytes} {d : Nat} (h : parseLen nib r = .ok (d, r1)) :
    ∃ e, r = e ++ r1 ∧ e.length = extLen nib := by
  unfold parseLen at h
  unfold extLen
  split at h
  · rename_i h13
    cases r with
    | nil => simp at h
    | cons b r => simp at h; exact ⟨[b], by simp [h.2], by simp [h13]⟩
  · split at h
    · rename_i h13 h14
      match r, h with
      | b0 :: b1 :: r, h => simp at h; exact ⟨[b0, b1], by simp [h.2], by simp [h14]⟩
    · split at h
      · simp at h
      · rename_i h13 h14 _; simp at h; exact ⟨[], by simp [h.2], by simp [h13, h14]⟩

theorem optLoop_eq (inp : Bytes) (cap n : Nat) (pre rest : Bytes) (num : Nat) (acc : List (Opt × Bytes))
    (hinp : inp = pre ++ rest) (hlen : inp.length < 65536) :
    optLoop inp cap n pre.length rest num acc = optLoopS cap n rest num acc := by
  induction n generalizing pre rest num acc with
  | zero =>
    unfold optLoop optLoopS
    cases rest with
    | nil => simp [hinp]
    | cons h r =>
      have hl : inp.length = pre.length + (r.length + 1) := by simp [hinp]
      rw [if_neg (by omega)]
      have hget : inp[pre.length]? = some h := by simp [hinp]
      by_cases hff : h = 0xFF
      · have e1 : (pre.length + 1) % 65536 = pre.length + 1 := by omega
        simp only [hget, hff, if_true, e1]
        by_cases hr : r.length = 0
        · rw [if_pos (by omega), if_pos hr]
        · rw [if_neg (by omega), if_neg hr]
          simp [hinp]
      · have hne : ¬ (inp[pre.length]? = some 0xFF) := by rw [hget]; simpa using hff
        rw [if_neg hne]
        simp only [hff, if_false]
  | succ n ih =>
    unfold optLoop optLoopS
    cases rest with
    | nil => simp [hinp]
    | cons h r =>
      have hl : inp.length = pre.length + (r.length + 1) := by simp [hinp]
      rw [if_neg (by omega)]
      have hget : inp[pre.length]? = some h := by simp [hinp]
      by_cases hff : h = 0xFF
      · have e1 : (pre.length + 1) % 65536 = pre.length + 1 := by omega
        simp only [hget, hff, if_true, e1]
        by_cases hr : r.length = 0
        · rw [if_pos (by omega), if_pos hr]
        · rw [if_neg (by omega), if_neg hr]
          simp [hinp]
      · have hne : ¬ (inp[pre.length]? = some 0xFF) := by rw [hget]; simpa using hff
        rw [if_neg hne]
        simp only [hff, if_false]
        cases hd : parseDelta (h.toNat / 16) r with
        | err e => rfl
        | ub => rfl
        | ok dr =>
          obtain ⟨d, r1⟩ := dr
          simp only [R.ok_bind]
          cases hle : parseLen (h.toNat % 16) r1 with
          | err e => rfl
          | ub => rfl
          | ok lr =>
            obtain ⟨l, r2⟩ := lr
            simp only [R.ok_bind]
            split
            · rfl
            · split
              · rfl
              · rename_i hlt
                obtain ⟨e1, he1, hel1⟩ := parseDelta_ok hd
                obtain ⟨e2, he2, hel2⟩ := parseLen_ok hle
                have hll : inp.length = (pre ++ h :: (e1 ++ e2 ++ r2.take l)).length + (r2.drop l).length := by
                  simp [hinp, he1, he2]; omega
                have hi : (pre.length + (1 + extLen (h.toNat / 16) + extLen (h.toNat % 16)) + l) % 65536
                    = (pre ++ h :: (e1 ++ e2 ++ r2.take l)).length := by
                  have : (pre ++ h :: (e1 ++ e2 ++ r2.take l)).length =
                      pre.length + (1 + extLen (h.toNat / 16) + extLen (h.toNat % 16)) + l := by
                    simp [hel1, hel2]; omega
                  omega
                rw [hi]
                apply ih
                rw [hinp, he1, he2]
                simp

theorem optionsParse_eq {inp : Bytes} (cap : Nat) (hlen : inp.length < 65536) :
    optionsParse inp cap = optLoopS cap 19 inp 0 [] := by
  unfold optionsParse
  split
  · have : inp = [] := List.length_eq_zero_iff.1 (by assumption)
    subst this
    simp [optLoopS]
  · exact optLoop_eq inp cap 19 [] inp 0 [] rfl hlen

/-! ### serialisation -/

/-- the bytes of an option list -/
def encOpts : List Opt → Bytes
  | [] => []
  | o :: os => optHeader o ++ o.value ++ encOpts os

theorem optExt_length (d : Nat) : (optExt d).length = optExtraBytes d := by
  unfold optExt optExtraBytes; split <;> simp
  all_goals (rename_i h; revert h; repeat' split) <;> simp_all

theorem optHeader_length (o : Opt) :
    (optHeader o).length = 1 + optExtraBytes o.delta + optExtraBytes o.len := by
  simp [optHeader, optExt_length]; omega

theorem optExtra_le (d : Nat) : optExtraBytes d ≤ 2 := by
  unfold optExtraBytes; split
  · omega
  · split <;> omega

theorem optionsSerializeGo_ok {cap : Nat} {acc b : Bytes} {opts : List Opt} (h : acc.length ≤ cap) :
    optionsSerializeGo cap acc opts = .ok b ↔ b = acc ++ encOpts opts ∧ b.length ≤ cap := by
  induction opts generalizing acc with
  | nil =>
    simp only [optionsSerializeGo, encOpts, List.append_nil, R.ok.injEq]
    constructor
    · rintro rfl; exact ⟨rfl, h⟩
    · rintro ⟨rfl, _⟩; rfl
  | cons o os ih =>
    unfold optionsSerializeGo
    split
    · rename_i hgt
      simp only [reduceCtorEq, false_iff, not_and]
      rintro rfl
      simp [encOpts]; omega
    · rename_i hle
      rw [R.bind_eq_ok]
      constructor
      · rintro ⟨v, hv, hb⟩
        obtain ⟨rfl, hvl⟩ := memcpyS_ok.1 hv
        rw [ih (by simp; omega)] at hb
        simpa [encOpts] using hb
      · rintro ⟨rfl, hbl⟩
        have hvl : o.value.length ≤ cap - (acc.length + (optHeader o).length) := by
          simp [encOpts] at hbl; omega
        refine ⟨o.value, memcpyS_ok.2 ⟨rfl, hvl⟩, ?_⟩
        rw [ih (by simp; omega)]
        refine ⟨by simp [encOpts], hbl⟩

theorem optionsSerialize_ok {cap : Nat} {b : Bytes} {opts : List Opt} :
    optionsSerialize opts cap = .ok b ↔ b = encOpts opts ∧ b.length ≤ cap := by
  unfold optionsSerialize
  rw [optionsSerializeGo_ok (by simp)]; simp

theorem encOpts_length_le (opts : List Opt) : (encOpts opts).length ≤ optBytesLen opts := by
  induction opts with
  | nil => simp [encOpts, optBytesLen]
  | cons o os ih =>
    have := optHeader_length o
    have := optExtra_le o.delta
    have := optExtra_le o.len
    simp only [encOpts, List.length_append, optBytesLen, List.map_cons, List.sum_cons] at *
    unfold Opt.len at *
    omega

theorem encOpts_append (a b : List Opt) : encOpts (a ++ b) = encOpts a ++ encOpts b := by
  induction a with
  | nil => simp [encOpts]
  | cons o a ih => simp [encOpts, ih]

/-- the local option buffer of `coap_serialize` always suffices -/
theorem optionsSerialize_fits (opts : List Opt) :
    optionsSerialize opts (optBytesLen opts) = .ok (encOpts opts) :=
  optionsSerialize_ok.2 ⟨rfl, encOpts_length_le opts⟩

/-- bytes of a whole packet -/
def encPkt (p : Pkt) : Bytes :=
  coapHeaderBytes p ++ p.token ++ encOpts p.opts ++
    (if p.payload.length = 0 then [] else 0xFF :: p.payload)

theorem coapSerialize_ok {cfg : Cfg} {p : Pkt} {cap : Nat} {b : Bytes} :
    coapSerialize cfg p cap = .ok b ↔
      b = encPkt p ∧ b.length ≤ cap ∧ optBytesLen p.opts ≤ cfg.maxCoapOptions := by
  unfold coapSerialize
  have hh : (coapHeaderBytes p).length = 4 := rfl
  split
  · rename_i hc
    simp only [reduceCtorEq, false_iff, not_and]
    rintro rfl hlen
    simp [encPkt, hh] at hlen; omega
  · rename_i hc
    simp only [R.bind_eq_ok, optionsSerialize_fits, memcpyS_ok, R.ok.injEq, checkBufferSize_ok]
    constructor
    · rintro ⟨tok, ⟨rfl, ht⟩, u, hu, ob, rfl, ob', ⟨rfl, hob⟩, h⟩
      split at h
      · rename_i hp
        simp only [R.pure_eq, R.ok.injEq] at h
        subst h
        refine ⟨by simp [encPkt, hp], by simp [hh]; omega, hu⟩
      · rename_i hp
        split at h
        · simp at h
        · simp only [R.bind_eq_ok, memcpyS_ok, R.pure_eq, R.ok.injEq] at h
          obtain ⟨pl, ⟨rfl, hpl⟩, rfl⟩ := h
          refine ⟨by simp [encPkt, hp], by simp [hh]; omega, hu⟩
    · rintro ⟨rfl, hlen, hu⟩
      have hl2 : (encPkt p).length = 4 + p.token.length + (encOpts p.opts).length +
          (if p.payload.length = 0 then 0 else 1 + p.payload.length) := by
        unfold encPkt; split <;> simp [hh] <;> omega
      refine ⟨p.token, ⟨rfl, by omega⟩, (), hu, encOpts p.opts, rfl, encOpts p.opts, ⟨rfl, by omega⟩, ?_⟩
      split
      · rename_i hp; simp [encPkt, hp]
      · rename_i hp
        rw [if_neg hp] at hl2
        rw [if_neg (by omega)]
        simp only [R.bind_eq_ok, memcpyS_ok, R.pure_eq, R.ok.injEq]
        exact ⟨p.payload, ⟨rfl, by omega⟩, by simp [encPkt, hp]⟩

/-! ### parsing what was serialised -/

/-- option deltas that survive the parser -/
def deltaOk (d : Nat) : Prop := d < 256 ∨ (269 ≤ d ∧ d < 65536)

/-- option lengths that survive the parser -/
def lenOk (l : Nat) : Prop :=
  l < 256 ∨ (269 ≤ l ∧ l < 65536 ∧ ((l - 269) / 256 * 256 ||| ((l - 269) % 256 + 269)) = l)

instance (d) : Decidable (deltaOk d) := by unfold deltaOk; infer_instance
instance (d) : Decidable (lenOk d) := by unfold lenOk; infer_instance

/-- the option numbers are the running sums of the deltas (16-bit) -/
def numsOk : Nat → List Opt → Prop
  | _, [] => True
  | prev, o :: os => o.num = (prev + o.delta) % 65536 ∧ numsOk o.num os

instance : (n : Nat) → (l : List Opt) → Decidable (numsOk n l)
  | _, [] => isTrue trivial
  | n, o :: os =>
    have := instDecidableNumsOk o.num os
    by unfold numsOk; infer_instance

theorem optNibble_le (d : Nat) : optNibble d ≤ 14 := by
  unfold optNibble optExtraBytes
  by_cases h1 : d < 13
  · simp [h1]; omega
  · by_cases h2 : d < 269 <;> simp [h1, h2]

theorem parseDelta_enc {d : Nat} (h : deltaOk d) (r : Bytes) :
    parseDelta (optNibble d) (optExt d ++ r) = .ok (d, r) := by
  unfold deltaOk at h
  unfold parseDelta optNibble optExt optExtraBytes
  by_cases h1 : d < 13
  · have a1 : d ≠ 13 := by omega
    have a2 : d ≠ 14 := by omega
    have a3 : d ≠ 15 := by omega
    simp [h1, a1, a2, a3]
  · by_cases h2 : d < 269
    · simp only [h1, h2, if_true, if_false, List.singleton_append, R.ok.injEq, Prod.mk.injEq, and_true]
      rw [byte_toNat (by omega)]; omega
    · simp only [h1, h2, if_false]
      simp only [List.cons_append, List.nil_append, R.ok.injEq, Prod.mk.injEq, and_true,
        show ¬ ((14:Nat) = 13) by decide, if_false, if_true]
      rw [byte_toNat (by omega), byte_toNat (by omega)]; omega

theorem parseLen_enc {d : Nat} (h : lenOk d) (r : Bytes) :
    parseLen (optNibble d) (optExt d ++ r) = .ok (d, r) := by
  unfold lenOk at h
  unfold parseLen optNibble optExt optExtraBytes
  by_cases h1 : d < 13
  · have a1 : d ≠ 13 := by omega
    have a2 : d ≠ 14 := by omega
    have a3 : d ≠ 15 := by omega
    simp [h1, a1, a2, a3]
  · by_cases h2 : d < 269
    · simp only [h1, h2, if_true, if_false, List.singleton_append, R.ok.injEq, Prod.mk.injEq, and_true]
      rw [byte_toNat (by omega)]; omega
    · simp only [h1, h2, if_false]
      simp only [List.cons_append, List.nil_append, R.ok.injEq, Prod.mk.injEq, and_true,
        show ¬ ((14:Nat) = 13) by decide, if_false, if_true]
      rw [byte_toNat (by omega), byte_toNat (by omega)]
      have h3 : (d - 269) / 256 % 256 = (d - 269) / 256 := by omega
      rw [h3]
      rcases h with h | ⟨_, h4, h5⟩
      · omega
      · rw [h5]; omega

/-- every option of the list survives the parser -/
def OptsOk (opts : List Opt) : Prop := ∀ o ∈ opts, deltaOk o.delta ∧ lenOk o.len

/-- the options with what their value pointers reach, in `encOpts opts ++ tail` -/
def encT (tail : Bytes) : List Opt → List (Opt × Bytes)
  | [] => []
  | o :: os => (o, o.value ++ (encOpts os ++ tail)) :: encT tail os

@[simp] theorem encT_fst (tail : Bytes) (opts : List Opt) : (encT tail opts).map Prod.fst = opts := by
  induction opts with
  | nil => rfl
  | cons o os ih => simp [encT, ih]

theorem optLoopS_enc {cap n : Nat} {opts : List Opt} {num : Nat} {acc : List (Opt × Bytes)}
    {payload : Bytes}
    {tail : Bytes} (hok : OptsOk opts) (hnum : numsOk num opts)
    (hn : opts.length ≤ n) (hc : acc.length + opts.length ≤ cap)
    (htail : (tail = [] ∧ payload = []) ∨ (tail = 0xFF :: payload ∧ payload ≠ [])) :
    optLoopS cap n (encOpts opts ++ tail) num acc = .ok (acc ++ encT tail opts, payload) := by
  induction opts generalizing n num acc with
  | nil =>
    simp only [encOpts, encT, List.nil_append, List.append_nil]
    rcases htail with ⟨rfl, rfl⟩ | ⟨rfl, hp⟩
    · unfold optLoopS; rfl
    · unfold optLoopS
      have : payload.length ≠ 0 := by simpa using hp
      simp [hp]
  | cons o os ih =>
    obtain ⟨hd, hl⟩ := hok o (by simp)
    obtain ⟨hnum1, hnum2⟩ := hnum
    have hnd := optNibble_le o.delta
    have hnl := optNibble_le o.len
    cases n with
    | zero => simp at hn
    | succ n =>
      have hb : (byte (optNibble o.delta * 16 + optNibble o.len)).toNat
          = optNibble o.delta * 16 + optNibble o.len := byte_toNat (by omega)
      have hne : byte (optNibble o.delta * 16 + optNibble o.len) ≠ 0xFF := by
        intro hh
        have := congrArg UInt8.toNat hh
        rw [hb] at this
        simp at this
        omega
      have e1 : (optNibble o.delta * 16 + optNibble o.len) / 16 = optNibble o.delta := by omega
      have e2 : (optNibble o.delta * 16 + optNibble o.len) % 16 = optNibble o.len := by omega
      unfold optLoopS
      simp only [encOpts, optHeader, List.cons_append, List.append_assoc, hne, if_false, hb, e1, e2,
        parseDelta_enc hd, parseLen_enc hl, R.ok_bind]
      simp only [List.length_cons] at hn hc
      rw [if_neg (by omega), if_neg (by simp [Opt.len])]
      have ho : ({ delta := o.delta, value := (o.value ++ (encOpts os ++ tail)).take o.len,
                   num := (num + o.delta) % 65536 } : Opt) = o := by
        rw [← hnum1]; cases o; simp [Opt.len]
      have hdrop : (o.value ++ (encOpts os ++ tail)).drop o.len = encOpts os ++ tail := by
        simp [Opt.len]
      rw [ho, hdrop, ← hnum1]
      rw [ih (fun x hx => hok x (List.mem_cons_of_mem _ hx)) hnum2 (by omega) (by simp; omega)]
      simp [encT]

/-- a packet that `coap_serialize` and `coap_deserialize` treat symmetrically -/
structure PktOk (p : Pkt) : Prop where
  ver : p.ver < 4
  type : p.type < 4
  mid : p.mid < 65536
  token : p.token.length ≤ 8
  count : p.opts.length ≤ 19
  opts : OptsOk p.opts
  nums : numsOk 0 p.opts

/-- the bytes after the options -/
def payloadTail (p : Pkt) : Bytes := if p.payload.length = 0 then [] else 0xFF :: p.payload

theorem parse_encPkt {p : Pkt} (h : PktOk p) (hlen : (encPkt p).length < 65536) :
    coapParse (encPkt p) = .ok (p, encT (payloadTail p) p.opts) := by
  have htk := h.token
  have hv := h.ver
  have ht := h.type
  have hm := h.mid
  have hb : (byte (p.ver * 64 + p.type * 16 + p.token.length)).toNat
      = p.ver * 64 + p.type * 16 + p.token.length := byte_toNat (by omega)
  have ebytes : encPkt p = byte (p.ver * 64 + p.type * 16 + p.token.length) :: p.code ::
      byte (p.mid / 256) :: byte (p.mid % 256) :: (p.token ++ (encOpts p.opts ++
        (if p.payload.length = 0 then [] else 0xFF :: p.payload))) := by
    simp [encPkt, coapHeaderBytes]
  rw [ebytes] at hlen ⊢
  unfold coapParse payloadTail
  simp only [hb]
  have e0 : (p.ver * 64 + p.type * 16 + p.token.length) % 16 = p.token.length := by omega
  have e1 : (p.ver * 64 + p.type * 16 + p.token.length) / 64 = p.ver := by omega
  have e2 : (p.ver * 64 + p.type * 16 + p.token.length) / 16 % 4 = p.type := by omega
  rw [e0, e1, e2, if_pos (by right; simp; exact htk)]
  rw [List.drop_left, List.take_left]
  have hrest : optionsParse (encOpts p.opts ++
        (if p.payload.length = 0 then [] else 0xFF :: p.payload)) maxOptionCount
      = .ok (encT (if p.payload.length = 0 then [] else 0xFF :: p.payload) p.opts, p.payload) := by
    rw [optionsParse_eq _ (by simp at hlen ⊢; omega)]
    have := optLoopS_enc (cap := maxOptionCount) (n := 19) (acc := []) (payload := p.payload)
      (tail := if p.payload.length = 0 then [] else 0xFF :: p.payload) h.opts h.nums h.count
      (by have := h.count; simp [maxOptionCount]; omega)
      (by
        split
        · left; exact ⟨rfl, List.length_eq_zero_iff.1 (by assumption)⟩
        · right; refine ⟨rfl, ?_⟩; intro hh; simp_all)
    simpa using this
  rw [hrest]
  simp only [R.ok_bind, R.pure_eq, R.ok.injEq]
  rw [byte_toNat (by omega), byte_toNat (by omega)]
  have : p.mid / 256 * 256 + p.mid % 256 = p.mid := by omega
  rw [this, encT_fst]

theorem deserialize_encPkt {p : Pkt} (h : PktOk p) (hlen : (encPkt p).length < 65536) :
    coapDeserialize (encPkt p) = .ok p := by
  unfold coapDeserialize
  rw [parse_encPkt h hlen]; rfl

/-! ### what the parser produces -/

theorem parseDelta_lt {nib : Nat} {r r1 : Bytes} {d : Nat} (hn : nib < 16)
    (h : parseDelta nib r = .ok (d, r1)) : d < 65536 := by
  unfold parseDelta at h
  repeat' split at h
  all_goals simp at h
  all_goals omega

theorem parseLen_lt {nib : Nat} {r r1 : Bytes} {d : Nat} (hn : nib < 16)
    (h : parseLen nib r = .ok (d, r1)) : d < 65536 := by
  unfold parseLen at h
  repeat' split at h
  all_goals simp at h
  all_goals omega

/-- options as the parser produces them -/
def OptsRange (opts : List Opt) : Prop := ∀ o ∈ opts, o.delta < 65536 ∧ o.len < 65536

theorem numsOk_append {num : Nat} {a b : List Opt} :
    numsOk num (a ++ b) ↔ numsOk num a ∧ numsOk (a.foldl (fun n o => (n + o.delta) % 65536) num) b := by
  induction a generalizing num with
  | nil => simp [numsOk]
  | cons o a ih =>
    simp only [List.cons_append, numsOk, List.foldl_cons]
    rw [ih]
    constructor
    · rintro ⟨h1, h2, h3⟩; rw [h1] at *; exact ⟨⟨rfl, h2⟩, h3⟩
    · rintro ⟨⟨h1, h2⟩, h3⟩; rw [h1] at *; exact ⟨rfl, h2, h3⟩

theorem optLoop_wf {inp : Bytes} {cap n i : Nat} {rest : Bytes} {num : Nat} {acc opts : List (Opt × Bytes)}
    {payload : Bytes}
    (h : optLoop inp cap n i rest num acc = .ok (opts, payload)) :
    ∃ new, opts = acc ++ new ∧ numsOk num (new.map Prod.fst) ∧ new.length ≤ n ∧
      OptsRange (new.map Prod.fst) ∧ (new ≠ [] → opts.length ≤ cap) ∧
      (∀ x ∈ new, x.1.value.isPrefixOf x.2 = true) := by
  induction n generalizing i rest num acc with
  | zero =>
    unfold optLoop at h
    split at h
    · simp at h; exact ⟨[], by simp [h.1], by simp [numsOk], by simp, by simp [OptsRange], by simp, by simp⟩
    · split at h
      · split at h
        · simp at h
        · simp at h; exact ⟨[], by simp [h.1], by simp [numsOk], by simp, by simp [OptsRange], by simp, by simp⟩
      · split at h
        · simp at h
        · simp only [R.bind_eq_ok] at h
          obtain ⟨⟨d, r1⟩, hd, ⟨l, r2⟩, hl, h⟩ := h
          simp only at h
          split at h
          · simp at h
          · split at h
            · simp at h
            · simp at h
  | succ n ih =>
    unfold optLoop at h
    split at h
    · simp at h; exact ⟨[], by simp [h.1], by simp [numsOk], by simp, by simp [OptsRange], by simp, by simp⟩
    · split at h
      · split at h
        · simp at h
        · simp at h; exact ⟨[], by simp [h.1], by simp [numsOk], by simp, by simp [OptsRange], by simp, by simp⟩
      · split at h
        · simp at h
        · rename_i hb r
          simp only [R.bind_eq_ok] at h
          obtain ⟨⟨d, r1⟩, hd, ⟨l, r2⟩, hl, h⟩ := h
          simp only at h
          split at h
          · simp at h
          · rename_i hcap
            split at h
            · simp at h
            · rename_i hlt
              obtain ⟨new, rfl, hnum, hlen, hr, hc, hp⟩ := ih h
              have hb256 := toNat_lt256 hb
              have hd' := parseDelta_lt (by omega) hd
              have hl' := parseLen_lt (by omega) hl
              refine ⟨(⟨d, r2.take l, (num + d) % 65536⟩, r2) :: new, by simp, ⟨rfl, hnum⟩, by simp; omega, ?_, ?_, ?_⟩
              · intro o ho
                rcases List.mem_cons.1 ho with rfl | ho
                · refine ⟨hd', ?_⟩
                  simp only [Opt.len, List.length_take]
                  omega
                · exact hr o ho
              · intro _
                by_cases hne : new = []
                · subst hne; simp; omega
                · exact hc hne
              · intro x hx
                rcases List.mem_cons.1 hx with rfl | hx
                · exact List.isPrefixOf_iff_prefix.2 (List.take_prefix _ _)
                · exact hp x hx

theorem optionsParse_wf {inp : Bytes} {cap : Nat} {opts : List (Opt × Bytes)} {payload : Bytes}
    (h : optionsParse inp cap = .ok (opts, payload)) :
    numsOk 0 (opts.map Prod.fst) ∧ opts.length ≤ 19 ∧ opts.length ≤ cap ∧
      OptsRange (opts.map Prod.fst) ∧ (∀ x ∈ opts, x.1.value.isPrefixOf x.2 = true) := by
  unfold optionsParse at h
  split at h
  · simp at h; rw [h.1]; simp [numsOk, OptsRange]
  · obtain ⟨new, hnew, h1, h2, h3, h4, h5⟩ := optLoop_wf h
    simp at hnew
    subst hnew
    refine ⟨h1, h2, ?_, h3, h5⟩
    cases opts with
    | nil => simp
    | cons o os => exact h4 (by simp)

theorem optionsDeserialize_wf {inp : Bytes} {cap : Nat} {opts : List Opt} {payload : Bytes}
    (h : optionsDeserialize inp cap = .ok (opts, payload)) :
    numsOk 0 opts ∧ opts.length ≤ 19 ∧ opts.length ≤ cap ∧ OptsRange opts := by
  unfold optionsDeserialize at h
  simp only [R.bind_eq_ok, R.pure_eq, R.ok.injEq, Prod.mk.injEq] at h
  obtain ⟨⟨o, p⟩, ho, rfl, rfl⟩ := h
  obtain ⟨h1, h2, h3, h4, _⟩ := optionsParse_wf ho
  exact ⟨h1, by simpa using h2, by simpa using h3, h4⟩

/-- what every successfully parsed packet satisfies -/
structure PktRange (p : Pkt) : Prop where
  ver : p.ver < 4
  type : p.type < 4
  mid : p.mid < 65536
  token : p.token.length ≤ 8
  count : p.opts.length ≤ 19
  opts : OptsRange p.opts
  nums : numsOk 0 p.opts

theorem coapParse_wf {inp : Bytes} {p : Pkt} {t : List (Opt × Bytes)}
    (h : coapParse inp = .ok (p, t)) :
    PktRange p ∧ p.opts = t.map Prod.fst ∧ (∀ x ∈ t, x.1.value.isPrefixOf x.2 = true) := by
  unfold coapParse at h
  split at h
  · rename_i hb c m1 m0 rest
    simp only at h
    split at h
    · rename_i htkl
      simp only [R.bind_eq_ok, R.pure_eq, R.ok.injEq, Prod.mk.injEq] at h
      obtain ⟨⟨opts, payload⟩, ho, rfl, rfl⟩ := h
      obtain ⟨h1, h2, h3, h4, h5⟩ := optionsParse_wf ho
      have := toNat_lt256 hb
      have := toNat_lt256 m1
      have := toNat_lt256 m0
      refine ⟨?_, rfl, h5⟩
      constructor
      · simp only; omega
      · simp only; omega
      · simp only; omega
      · simp only [List.length_take]; omega
      · simpa using h2
      · exact h4
      · exact h1
    · simp at h
  · simp at h

theorem coapDeserialize_wf {inp : Bytes} {p : Pkt} (h : coapDeserialize inp = .ok p) : PktRange p := by
  unfold coapDeserialize at h
  simp only [R.bind_eq_ok, R.pure_eq, R.ok.injEq] at h
  obtain ⟨⟨q, t⟩, hq, rfl⟩ := h
  exact (coapParse_wf hq).1

end Verif
