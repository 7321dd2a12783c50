import Verif.Props.Merge
/-
What the receiver gets out of a successfully protected message.
-/
namespace Verif

theorem sub32_of_le {a b : Nat} (h : b ≤ a) (ha : a < 2 ^ 32) : sub32 a b = a - b := by
  unfold sub32; omega

/-- The plaintext of a successful `plaintext_setup`: code, inner options, payload – or, when the
announced length is too short by exactly the payload and its marker, code and inner options only. -/
theorem plaintextSetup_ok {cfg : Cfg} {p : Pkt} {e : List Opt} {eLen : Nat} {pt : Bytes}
    (h : plaintextSetup cfg p e (plaintextLen p eLen) = .ok pt)
    (hmax : cfg.maxPlaintext < 2 ^ 32) (hlen : plaintextLen p eLen ≤ cfg.maxPlaintext) :
    (encOpts e).length ≤ cfg.eOptBuf ∧
    ((pt = p.code :: (encOpts e ++ payloadTail p) ∧ (encOpts e).length = eLen) ∨
     (p.payload ≠ [] ∧ pt = p.code :: encOpts e ∧
       (encOpts e).length = eLen + p.payload.length + 1)) := by
  unfold plaintextSetup at h
  obtain ⟨ser, hser, h⟩ := R.bind_eq_ok.1 h
  obtain ⟨rfl, hcap⟩ := optionsSerialize_ok.1 hser
  obtain ⟨ser2, hser2, h⟩ := R.bind_eq_ok.1 h
  obtain ⟨rfl, hfit⟩ := memcpyS_ok.1 hser2
  refine ⟨hcap, ?_⟩
  unfold plaintextLen at *
  unfold payloadTail
  by_cases hp : p.payload.length = 0
  · simp only [hp, if_true] at *
    split at h
    · cases h
    · rename_i hle
      left
      have := R.ok.inj h
      subst this
      simp; omega
  · rw [if_neg hp] at h hlen hfit ⊢
    rw [if_neg hp] at h
    split at h
    · cases h
    · obtain ⟨pl, hpl, h⟩ := R.bind_eq_ok.1 h
      obtain ⟨rfl, hplen⟩ := memcpyS_ok.1 hpl
      simp only at h
      split at h
      · cases h
      · split at h
        · cases h
        · rename_i h1 h2 h3
          have := R.ok.inj h
          subst this
          simp only [List.length_append, List.length_cons, List.length_nil] at h2 h3
          by_cases hge : 1 + (encOpts e).length + 1 ≤ 1 + eLen + (1 + p.payload.length)
          · rw [sub32_of_le hge (by omega)] at hplen
            left
            refine ⟨?_, by omega⟩
            rw [List.take_of_length_le]
            · simp
            · simp; omega
          · right
            refine ⟨by intro hh; rw [hh] at hp; simp at hp, ?_, by omega⟩
            have e1 : 1 + eLen + (1 + p.payload.length) = (p.code :: encOpts e).length := by simp; omega
            rw [e1, List.append_assoc, List.take_left]

/-- length of one encoded option -/
theorem encOpts_cons_length (o : Opt) (l : List Opt) :
    (encOpts (o :: l)).length = 1 + (optExtraBytes o.delta + optExtraBytes o.len) + o.len +
      (encOpts l).length := by
  simp only [encOpts, List.length_append, optHeader_length]
  unfold Opt.len; omega

/-- the inner option made of `o` -/
def innerOf (req : Bool) (o : Opt) : Option Opt :=
  if o.num = optOBSERVE then some { o with value := if req then o.value else [] }
  else if isClassE o.num then some o else none

theorem innerOpts_cons (req : Bool) (o : Opt) (l : List Opt) :
    innerOpts req (o :: l) = (innerOf req o).toList ++ innerOpts req l := by
  unfold innerOpts
  rw [List.filterMap_cons]
  unfold innerOf
  split <;> simp_all

theorem inner_shortfall {req : Bool} {l : List Opt} {prev ePrev : Nat}
    (hs : Spec.sortedFrom prev l) (hE : ePrev ≤ prev) (hp : prev = ePrev ∨ prev ≤ 39) :
    (encOpts (redelta ePrev (innerOpts req l))).length ≤ eBytes req l + (innerOpts req l).length := by
  induction l generalizing prev ePrev with
  | nil => simp [innerOpts, redelta, encOpts, eBytes]
  | cons o l ih =>
    obtain ⟨h1, h2, h3, h4⟩ := hs
    rw [innerOpts_cons]
    unfold innerOf
    have hx : ∀ d d', d' ≤ d + 39 → optExtraBytes d' ≤ optExtraBytes d + 1 := by
      intro d d' hd; unfold optExtraBytes; repeat' split
      all_goals omega
    have hx0 : ∀ d, d < 13 → optExtraBytes d = 0 := by
      intro d hd; unfold optExtraBytes; rw [if_pos hd]
    by_cases ho : o.num = optOBSERVE
    · have := ih h4 (ePrev := o.num) (Nat.le_refl _) (.inl rfl)
      rw [if_pos ho]
      simp only [Option.toList, List.singleton_append, redelta, encOpts_cons_length, List.length_cons,
        eBytes, if_pos ho, Opt.len]
      have e0 := hx0 ((o.num + 65536 - ePrev) % 65536) (by unfold optOBSERVE at ho; omega)
      cases req
      · simp [hx0]; rw [e0]; omega
      · simp only [if_true]; rw [e0]; omega
    · rw [if_neg ho]
      by_cases hc : isClassE o.num = true
      · have := ih h4 (ePrev := o.num) (Nat.le_refl _) (.inl rfl)
        rw [if_pos hc]
        simp only [Option.toList, List.singleton_append, redelta, encOpts_cons_length, List.length_cons,
          eBytes, if_neg ho, if_pos hc, Opt.len]
        have := hx o.delta ((o.num + 65536 - ePrev) % 65536) (by omega)
        omega
      · rw [if_neg hc]
        simp only [Option.toList, List.nil_append, eBytes, if_neg ho, if_neg hc]
        have hle : o.num ≤ 39 := notClassE_le (by simpa using hc)
        have := ih h4 (ePrev := ePrev) (by omega) (.inr hle)
        omega

/-- without public options (Observe excepted) the announced length is exact -/
theorem inner_exact {req : Bool} {l : List Opt} {prev : Nat}
    (hs : Spec.sortedFrom prev l) (hk : keptOuter l = []) (h9 : ∀ o ∈ l, o.num ≠ 9) :
    (encOpts (redelta prev (innerOpts req l))).length = eBytes req l := by
  induction l generalizing prev with
  | nil => simp [innerOpts, redelta, encOpts, eBytes]
  | cons o l ih =>
    obtain ⟨h1, h2, h3, h4⟩ := hs
    have hkl : keptOuter l = [] := by
      unfold keptOuter outerOpts at *
      rw [List.filter_cons] at hk
      split at hk
      · rw [List.filter_cons] at hk
        split at hk
        · cases hk
        · exact hk
      · exact hk
    have ih' := ih h4 hkl (fun x hx => h9 x (List.mem_cons_of_mem _ hx))
    have hx0 : ∀ d, d < 13 → optExtraBytes d = 0 := by
      intro d hd; unfold optExtraBytes; rw [if_pos hd]
    rw [innerOpts_cons]
    unfold innerOf
    by_cases ho : o.num = optOBSERVE
    · rw [if_pos ho]
      simp only [Option.toList, List.singleton_append, redelta, encOpts_cons_length,
        eBytes, if_pos ho, Opt.len, ih']
      have e0 := hx0 ((o.num + 65536 - prev) % 65536) (by unfold optOBSERVE at ho; omega)
      have e1 := hx0 o.delta (by unfold optOBSERVE at ho; omega)
      cases req
      · simp [hx0]; rw [e0]
      · simp only [if_true]; rw [e0, e1]
    · rw [if_neg ho]
      have hc : isClassE o.num = true := by
        cases hcc : isClassE o.num with
        | true => rfl
        | false =>
          exfalso
          have hmem : o ∈ keptOuter (o :: l) := by
            unfold keptOuter outerOpts
            rw [List.mem_filter, List.mem_filter]
            have := h9 o (by simp)
            have h6 : o.num ≠ 6 := ho
            exact ⟨⟨by simp, by simp [hcc]⟩, by simp [optOSCORE, optOBSERVE, this, h6]⟩
          rw [hk] at hmem; cases hmem
      rw [if_pos hc]
      simp only [Option.toList, List.singleton_append, redelta, encOpts_cons_length,
        eBytes, if_neg ho, if_pos hc, Opt.len, ih']
      have : (o.num + 65536 - prev) % 65536 = o.delta := by omega
      rw [this]

theorem eBytes_le {req : Bool} {l : List Opt} (prev : Nat) :
    eBytes req l ≤ (encOpts (redelta prev (innerOpts req l))).length + 2 * (innerOpts req l).length := by
  induction l generalizing prev with
  | nil => simp [eBytes]
  | cons o l ih =>
    rw [innerOpts_cons]
    unfold innerOf
    have hx := optExtra_le o.delta
    by_cases ho : o.num = optOBSERVE
    · have := ih o.num
      rw [if_pos ho]
      simp only [Option.toList, List.singleton_append, redelta, encOpts_cons_length, List.length_cons,
        eBytes, if_pos ho, Opt.len]
      cases req <;> simp <;> omega
    · rw [if_neg ho]
      by_cases hc : isClassE o.num = true
      · have := ih o.num
        rw [if_pos hc]
        simp only [Option.toList, List.singleton_append, redelta, encOpts_cons_length, List.length_cons,
          eBytes, if_neg ho, if_pos hc, Opt.len]
        omega
      · have := ih prev
        rw [if_neg hc]
        simp only [Option.toList, List.nil_append, eBytes, if_neg ho, if_neg hc]
        omega

/-- The inner options survive the parser of the receiver. -/
structure InnerOk (cfg : Cfg) (p : Pkt) : Prop where
  sorted : Spec.sortedFrom 0 p.opts
  noOscore : ∀ o ∈ p.opts, o.num ≠ 9
  publicOnce : ((p.opts.filter (fun o => decide (PublicOption o.num ∧ o.num ≠ 6))).map Opt.num).Nodup
  inner : (innerOpts (isRequest p) p.opts).length ≤ 10
  total : (outerOpts p.opts).length + (innerOpts (isRequest p) p.opts).length ≤ 20
  outer : (outerOpts p.opts).length ≤ 18
  deltas : ∀ o ∈ redelta 0 (innerOpts (isRequest p) p.opts), o.delta < 256 ∨ 269 ≤ o.delta
  payload : p.payload = [] ∨ 10 ≤ p.payload.length ∨
    ∀ o ∈ p.opts, PublicOption o.num → o.num = 6
  bufs : cfg.eOptBuf ≤ 255 ∧ cfg.iOptBuf ≤ 255 ∧ cfg.maxPlaintext < 65000

theorem maxCoapOptions_le {cfg : Cfg} (h : cfg.eOptBuf ≤ 255 ∧ cfg.iOptBuf ≤ 255) :
    cfg.maxCoapOptions ≤ 255 := by
  unfold Cfg.maxCoapOptions; split <;> omega

theorem mem_encOpts_len {o : Opt} {l : List Opt} (h : o ∈ l) : o.len ≤ (encOpts l).length := by
  induction l with
  | nil => cases h
  | cons a l ih =>
    rw [encOpts_cons_length]
    rcases List.mem_cons.1 h with rfl | h
    · omega
    · have := ih h; omega

/-- The plaintext `coap2oscore` encrypts: code, inner options, payload. -/
theorem inner_plain_eq {cfg : Cfg} {p : Pkt} {pt : Bytes}
    (hset : plaintextSetup cfg p (redelta 0 (innerOpts (isRequest p) p.opts))
      (plaintextLen p (eBytes (isRequest p) p.opts % 65536)) = .ok pt)
    (hlenOk : plaintextLen p (eBytes (isRequest p) p.opts % 65536) ≤ cfg.maxPlaintext)
    (hi : InnerOk cfg p) :
    (pt = p.code :: (encOpts (redelta 0 (innerOpts (isRequest p) p.opts)) ++ payloadTail p) ∧
      (encOpts (redelta 0 (innerOpts (isRequest p) p.opts))).length = eBytes (isRequest p) p.opts) ∧
    (encOpts (redelta 0 (innerOpts (isRequest p) p.opts))).length ≤ cfg.eOptBuf ∧
    plaintextLen p (eBytes (isRequest p) p.opts) ≤ cfg.maxPlaintext := by
  obtain ⟨hcap, hcase⟩ := plaintextSetup_ok hset (by have := hi.bufs; omega) hlenOk
  generalize he : redelta 0 (innerOpts (isRequest p) p.opts) = e at *
  have hel : e.length = (innerOpts (isRequest p) p.opts).length := by rw [← he, redelta_length]
  have heb := eBytes_le (req := isRequest p) (l := p.opts) 0
  rw [he] at heb
  have hin := hi.inner
  have hbuf := hi.bufs
  have hmod : eBytes (isRequest p) p.opts % 65536 = eBytes (isRequest p) p.opts := by
    rw [Nat.mod_eq_of_lt]; omega
  rw [hmod] at hcase hlenOk
  refine ⟨?_, hcap, hlenOk⟩
  rcases hcase with hc | ⟨hne, hpt, hl⟩
  · exact hc
  · exfalso
    rcases hi.payload with hp | hp | hp
    · exact hne hp
    · have := inner_shortfall (req := isRequest p) hi.sorted (ePrev := 0) (by omega) (.inl rfl)
      rw [he] at this
      omega
    · have hk : keptOuter p.opts = [] := by
        unfold keptOuter
        rw [outerOpts_eq, List.filter_filter, List.filter_eq_nil_iff]
        intro o ho
        have h6 := hp o ho
        by_cases hpub : PublicOption o.num
        · simp [h6 hpub, optOBSERVE]
        · simp [hpub]
      have := inner_exact (req := isRequest p) hi.sorted hk hi.noOscore
      rw [he] at this
      omega

/-- The receiver's parser applied to code, inner options and payload. -/
theorem inner_parse {cfg : Cfg} {p : Pkt} (hnums : numsOk 0 p.opts) (hi : InnerOk cfg p)
    (hlens : ∀ o ∈ redelta 0 (innerOpts (isRequest p) p.opts), o.len < 256)
    (hsmall : (encOpts (redelta 0 (innerOpts (isRequest p) p.opts)) ++ payloadTail p).length < 65536) :
    payloadParser (p.code :: (encOpts (redelta 0 (innerOpts (isRequest p) p.opts)) ++ payloadTail p)) =
      .ok (p.code, redelta 0 (innerOpts (isRequest p) p.opts), p.payload) := by
  generalize he : redelta 0 (innerOpts (isRequest p) p.opts) = e at *
  have hel : e.length = (innerOpts (isRequest p) p.opts).length := by rw [← he, redelta_length]
  have hin := hi.inner
  unfold payloadParser optionsDeserialize
  simp only
  have hparse : optionsParse (encOpts e ++ payloadTail p) maxEOptionCount =
      .ok (encT (payloadTail p) e, p.payload) := by
    rw [optionsParse_eq _ hsmall]
    have := optLoopS_enc (cap := maxEOptionCount) (n := 19) (acc := []) (payload := p.payload)
      (tail := payloadTail p) (num := 0) (opts := e) ?_ ?_ (by omega) (by unfold maxEOptionCount; simp; omega) ?_
    · simpa using this
    · intro o ho
      refine ⟨?_, .inl (hlens o ho)⟩
      have hlt : o.delta < 65536 := by
        rw [← he] at ho
        have key : ∀ (l : List Opt) (prev : Nat), ∀ x ∈ redelta prev l, x.delta < 65536 := by
          intro l
          induction l with
          | nil => intro _ x hx; cases hx
          | cons a l ih =>
            intro prev x hx
            simp only [redelta] at hx
            rcases List.mem_cons.1 hx with rfl | hx
            · exact Nat.mod_lt _ (by omega)
            · exact ih _ x hx
        exact key _ _ o ho
      rcases hi.deltas o (by rw [he]; exact ho) with hd | hd
      · exact .inl hd
      · exact .inr ⟨hd, hlt⟩
    · rw [← he]
      apply redelta_numsOk (by omega)
      intro o ho
      unfold innerOpts at ho
      obtain ⟨x, hx, hx2⟩ := List.mem_filterMap.1 ho
      have hxlt := numsOk_lt hnums x hx
      split at hx2
      · simp only [Option.some.injEq] at hx2; subst hx2; exact hxlt
      · split at hx2
        · simp only [Option.some.injEq] at hx2; subst hx2; exact hxlt
        · cases hx2
    · unfold payloadTail
      split
      · left; exact ⟨rfl, List.length_eq_zero_iff.1 (by assumption)⟩
      · right; refine ⟨rfl, ?_⟩; intro hh; simp_all
  rw [hparse]
  simp

/-- The receiver's parser applied to the plaintext of a message. -/
theorem inner_plain {cfg : Cfg} {p : Pkt} {pt : Bytes}
    (hset : plaintextSetup cfg p (redelta 0 (innerOpts (isRequest p) p.opts))
      (plaintextLen p (eBytes (isRequest p) p.opts % 65536)) = .ok pt)
    (hlenOk : plaintextLen p (eBytes (isRequest p) p.opts % 65536) ≤ cfg.maxPlaintext)
    (hnums : numsOk 0 p.opts) (hi : InnerOk cfg p) :
    payloadParser pt = .ok (p.code, redelta 0 (innerOpts (isRequest p) p.opts), p.payload) ∧
    pt.length ≤ cfg.maxPlaintext := by
  obtain ⟨⟨hpt, hlen⟩, hcap, hlenOk⟩ := inner_plain_eq hset hlenOk hi
  have hbuf := hi.bufs
  have hptl : (payloadTail p).length ≤ 1 + p.payload.length := by
    unfold payloadTail; split <;> simp; omega
  refine ⟨?_, ?_⟩
  · rw [hpt]
    refine inner_parse hnums hi ?_ ?_
    · intro o ho
      have := mem_encOpts_len ho
      omega
    · unfold plaintextLen at hlenOk
      rw [List.length_append]
      split at hlenOk <;> omega
  · rw [hpt]
    unfold plaintextLen at hlenOk
    unfold payloadTail
    split at hlenOk <;> rename_i hz <;> simp [hz] <;> omega

/-- The receiver's parser applied to the plaintext that was encrypted. -/
theorem ProtOk.plain {cfg C nvmW p cap w b w' v} (h : ProtOk cfg C nvmW p cap w b w' v)
    (hi : InnerOk cfg p) :
    payloadParser v.pt = .ok (p.code, redelta 0 (innerOpts (isRequest p) p.opts), p.payload) ∧
    v.pt.length ≤ cfg.maxPlaintext := inner_plain h.pt h.lenOk h.range.nums hi

/-- The packet the receiver rebuilds. -/
theorem ProtOk.rebuilt {cfg C nvmW p cap w b w' v} (h : ProtOk cfg C nvmW p cap w b w' v)
    (hi : InnerOk cfg p) :
    oCoapPkgGenerate v.pt (oscorePkgGenerate p (redelta 0 (outerOpts p.opts)) v.ct v.opt) =
      .ok { p with opts := p.opts.map (recovered (isRequest p)) } := by
  unfold oCoapPkgGenerate
  rw [(h.plain hi).1]
  simp only [R.ok_bind]
  rw [oscorePkg_opts redelta_outer_le, split_merge_list _ _ _ hi.sorted hi.noOscore hi.publicOnce hi.total]
  simp only [R.ok_bind, R.pure_eq, R.ok.injEq]
  unfold oscorePkgGenerate
  rfl

end Verif
