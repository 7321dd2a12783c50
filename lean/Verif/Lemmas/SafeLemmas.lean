import Verif.Lemmas.FrameLemmas
import Verif.Lemmas.OuterLemmas
import Verif.Lemmas.SortLemmas
import Verif.Props.Interactions
import Verif.Props.OscoreOption
import Verif.Spec.FramedSpec
namespace Verif
namespace Safe

theorem bind_nub {α β : Type} {x : R α} {f : α → R β} (hx : x ≠ .ub) (hf : ∀ a, x = .ok a → f a ≠ .ub) :
    (x >>= f) ≠ .ub := by
  cases x with
  | ok a => exact hf a rfl
  | err e => intro h; cases h
  | ub => exact absurd rfl hx

theorem mbind_nub {σ α β : Type} {m : M σ α} {f : α → M σ β} {s : σ} (hm : (m s).1 ≠ .ub)
    (hf : ∀ a s', m s = (.ok a, s') → (f a s').1 ≠ .ub) : ((m >>= f) s).1 ≠ .ub := by
  rw [M.run_bind]
  rcases hms : m s with ⟨r, s'⟩
  rw [hms] at hm
  cases r with
  | ok a => exact hf a s' hms
  | err e => intro h; cases h
  | ub => exact absurd rfl hm

/-- a lifted computation followed by something -/
theorem mlift_nub {σ α β : Type} {x : R α} {f : α → M σ β} {s : σ} (hx : x ≠ .ub)
    (hf : ∀ a, x = .ok a → (f a s).1 ≠ .ub) : (((M.lift x : M σ α) >>= f) s).1 ≠ .ub :=
  mbind_nub (m := M.lift x) hx fun a s' h => by
    have h' : (x, s) = (R.ok a, s') := h
    simp only [Prod.mk.injEq] at h'
    obtain ⟨h1, rfl⟩ := h'
    exact hf a h1

theorem memcpyS_nub {a : Nat} {x : Bytes} : memcpyS a x ≠ .ub := by
  rw [memcpyS_eq]; split <;> (intro h; cases h)

theorem check_nub {a b : Nat} : checkBufferSize a b ≠ .ub := by
  unfold checkBufferSize; split <;> (intro h; cases h)

theorem cborOut_nub {cap : Nat} {e : Err} {b : Bytes} : cborOut cap e b ≠ .ub := by
  unfold cborOut; split <;> (intro h; cases h)

theorem ofLib_nub {α : Type} {x : Option α} : ofLib x ≠ .ub := by
  cases x <;> (intro h; cases h)

/-! ### parsing -/

theorem parseDelta_nub {nib : Nat} {d r : Bytes} (hd : d.length = Spec.extBytes nib) :
    parseDelta nib (d ++ r) ≠ .ub := by
  unfold parseDelta
  unfold Spec.extBytes at hd
  by_cases h13 : nib = 13
  · rw [if_pos h13] at hd
    match d, hd with
    | [b], _ => rw [if_pos h13]; intro h; cases h
  · rw [if_neg h13] at hd
    by_cases h14 : nib = 14
    · rw [if_pos h14] at hd
      match d, hd with
      | [b, c], _ => rw [if_neg h13, if_pos h14]; intro h; cases h
    · rw [if_neg h13, if_neg h14]
      split <;> (intro h; cases h)

theorem parseDelta_rest {nib : Nat} {d r r1 : Bytes} {x : Nat} (hd : d.length = Spec.extBytes nib)
    (h : parseDelta nib (d ++ r) = .ok (x, r1)) : r1 = r := by
  obtain ⟨e, he, hl⟩ := parseDelta_ok h
  have : e.length = d.length := by rw [hl, hd]; rfl
  exact (List.append_inj he.symm this).2

theorem or_eq {b : Nat} (h : b < 256) : (0 * 256 ||| (b + 269)) % 65536 = b + 269 := by
  rw [Nat.zero_mul, Nat.zero_or]; omega

/-- on complete options with a supported length the length is computed right -/
theorem parseLen_framed {nib : Nat} {l r : Bytes} (hl : l.length = Spec.extBytes nib) (hn : nib ≤ 14)
    (hok : Spec.extValue nib l ≤ 255 ∨ (269 ≤ Spec.extValue nib l ∧ Spec.extValue nib l ≤ 524)) :
    parseLen nib (l ++ r) = .ok (Spec.extValue nib l, r) := by
  unfold parseLen
  unfold Spec.extBytes at hl
  unfold Spec.extValue at *
  by_cases h13 : nib = 13
  · rw [if_pos h13] at hl
    match l, hl with
    | [b], _ =>
      rw [if_pos h13] at hok
      rw [if_pos h13, if_pos h13]
      have hb := toNat_lt256 b
      have e : beVal [b] = b.toNat := by simp [beVal]
      rw [e] at hok ⊢
      simp only [List.cons_append, List.nil_append]
      rw [show (b.toNat + 13) % 256 = 13 + b.toNat by omega]
  · rw [if_neg h13] at hl
    by_cases h14 : nib = 14
    · rw [if_pos h14] at hl
      match l, hl with
      | [b, c], _ =>
        rw [if_neg h13, if_pos h14] at hok
        rw [if_neg h13, if_pos h14, if_neg h13, if_pos h14]
        have hb := toNat_lt256 b
        have hc := toNat_lt256 c
        have e : beVal [b, c] = b.toNat * 256 + c.toNat := by simp [beVal]
        rw [e] at hok ⊢
        have hb0 : b.toNat = 0 := by omega
        simp only [List.cons_append, List.nil_append, hb0, or_eq hc]
        rw [show c.toNat + 269 = 269 + (0 * 256 + c.toNat) by omega]
    · rw [if_neg h14] at hl
      have : l = [] := List.length_eq_zero_iff.1 (by omega)
      subst this
      simp only [if_neg h13, if_neg h14]
      rw [if_neg (by omega)]
      simp

theorem optLoopS_nub {k : Nat} {rest : Bytes} (hf : Spec.Framed k rest) (cap n num : Nat)
    (acc : List (Opt × Bytes)) (hc : acc.length + min k (n + 1) ≤ cap) : optLoopS cap n rest num acc ≠ .ub := by
  induction hf generalizing n num acc with
  | done k => unfold optLoopS; intro h; cases h
  | payload k p =>
    unfold optLoopS
    simp only [if_true]
    split <;> (intro h; cases h)
  | reserved k h r hd =>
    unfold optLoopS
    simp only
    by_cases hff : h = 0xFF
    · rw [if_pos hff]
      split <;> (intro h; cases h)
    · rw [if_neg hff]
      have e : parseDelta (h.toNat / 16) r = .err .oscore_inpkt_invalid_option_delta := by
        unfold parseDelta; rw [hd]; simp
      rw [e]
      intro h; cases h
  | option k h d l v r hd hl hn hv hok hr ih =>
    unfold optLoopS
    simp only
    by_cases hff : h = 0xFF
    · subst hff
      exact absurd hn (by decide)
    · rw [if_neg hff]
      rw [show d ++ l ++ v ++ r = d ++ (l ++ (v ++ r)) by simp only [List.append_assoc]]
      refine bind_nub (parseDelta_nub hd) fun x hx => ?_
      obtain ⟨dv, r1⟩ := x
      have := parseDelta_rest hd hx
      subst this
      simp only
      rw [parseLen_framed hl hn (by rw [← hv]; exact hok)]
      simp only [R.ok_bind]
      have hk : ¬ acc.length ≥ cap := by omega
      rw [if_neg hk, if_neg (by rw [← hv]; simp)]
      cases n with
      | zero => intro h; cases h
      | succ n =>
        have hdrop : List.drop (Spec.extValue (h.toNat % 16) l) (v ++ r) = r := by
          rw [← hv]; simp
        simp only
        rw [hdrop]
        apply ih
        simp only [List.length_append, List.length_cons, List.length_nil]
        omega

theorem optionsParse_nub {k : Nat} {inp : Bytes} (hf : Spec.Framed k inp) (cap : Nat)
    (hc : min k 20 ≤ cap) (hlen : inp.length < 65536) : optionsParse inp cap ≠ .ub := by
  rw [optionsParse_eq cap hlen]
  exact optLoopS_nub hf cap 19 0 [] (by simpa using hc)

theorem coapParse_nub {inp : Bytes} (hf : Spec.FramedPacket inp) (hlen : inp.length < 65536) :
    coapParse inp ≠ .ub := by
  unfold coapParse
  split
  · rename_i h c m1 m0 rest
    simp only
    split
    · obtain ⟨k, hk⟩ := hf h c m1 m0 rest rfl
      refine bind_nub (optionsParse_nub hk _ ?_ ?_) fun x _ => by intro h; cases h
      · show min k 20 ≤ 20; omega
      · simp only [List.length_cons, List.length_drop] at *; omega
    · intro h; cases h
  · intro h; cases h

theorem payloadParser_nub {pt : Bytes} (h1 : pt ≠ []) (hf : Spec.Framed 10 pt.tail) (hlen : pt.length < 65536) :
    payloadParser pt ≠ .ub := by
  cases pt with
  | nil => exact absurd rfl h1
  | cons c r =>
    unfold payloadParser
    simp only
    refine bind_nub ?_ fun x _ => by intro h; cases h
    unfold optionsDeserialize
    refine bind_nub (optionsParse_nub hf _ ?_ ?_) fun x _ => by intro h; cases h
    · show min 10 20 ≤ 10; omega
    · simp only [List.length_cons, List.tail_cons] at hlen ⊢; omega

/-! ### the OSCORE option -/

/-- the parsed option reads as these fields -/
structure Reads (o : OscOpt) (piv kid : Bytes) : Prop where
  readPiv : o.piv.read = .ok piv
  readKid : o.kid.read = .ok kid
  pivLen : o.piv.len = piv.length
  kidLen : o.kid.len = kid.length

theorem fld_read {x r : Bytes} : (Fld.mk x.length (x ++ r)).read = .ok x := by simp [Fld.read]

theorem parse_fields {v piv kctx kid rest : Bytes} (hv : v.length ≤ 255) (h : Spec.OscoreFields v piv kctx kid) :
    ∃ o, parseOscoreValue v.length (v ++ rest) = .ok o ∧ Reads o piv kid := by
  cases h with
  | empty => exact ⟨_, rfl, rfl, rfl, rfl, rfl⟩
  | plain f piv r hn h5 hh =>
    simp only [List.length_cons, List.length_append] at hv
    unfold parseOscoreValue
    simp only [List.length_cons, List.length_append, List.cons_append]
    rw [if_neg (by omega), hn, if_neg (by omega), if_pos hh]
    refine ⟨_, rfl, ?_, ?_, ?_, ?_⟩
    · simp only
      split
      · rename_i h0; rw [List.length_eq_zero_iff.1 h0]; rfl
      · rw [List.append_assoc]; exact fld_read
    · simp only
      split
      · rfl
      · rw [List.append_assoc, List.drop_left]
        rw [show (if piv.length = 0 then piv.length + r.length + 1 - 1 else (piv.length + r.length + 1 + 255 - piv.length) % 256) =
          r.length by split <;> omega]
        exact fld_read
    · simp only
      split
      · rename_i h0; exact h0.symm
      · rfl
    · simp only
      split
      · rfl
      · simp only
        split <;> omega
  | context f piv s kctx r hn h5 hh hs =>
    simp only [List.length_cons, List.length_append] at hv
    unfold parseOscoreValue
    simp only [List.length_cons, List.length_append, List.cons_append]
    rw [if_neg (by omega), hn, if_neg (by omega), if_neg (by omega)]
    rw [List.append_assoc, List.drop_left]
    simp only [List.cons_append, hs]
    refine ⟨_, rfl, ?_, ?_, ?_, ?_⟩
    · simp only
      split
      · rename_i h0; rw [List.length_eq_zero_iff.1 h0]; rfl
      · exact fld_read
    · simp only
      split
      · rfl
      · rw [List.append_assoc, List.drop_left]
        rw [show ((if piv.length = 0 then piv.length + (kctx.length + r.length + 1) + 1 - 1
          else (piv.length + (kctx.length + r.length + 1) + 1 + 255 - piv.length) % 256) + 512 - (kctx.length + 1)) % 256 =
          r.length by split <;> omega]
        exact fld_read
    · simp only
      split
      · rename_i h0; exact h0.symm
      · rfl
    · simp only
      split
      · rfl
      · simp only
        split <;> omega

theorem parse_complete_nub {v rest : Bytes} (h : Spec.OscoreComplete v) : parseOscoreValue v.length (v ++ rest) ≠ .ub := by
  obtain ⟨hl, ⟨f, r, rfl, hn⟩ | ⟨piv, kctx, kid, hf⟩⟩ := h
  · unfold parseOscoreValue
    rw [if_neg (by simp)]
    simp only [List.cons_append]
    rw [if_pos (by omega)]
    intro h; cases h
  · obtain ⟨o, ho, _⟩ := parse_fields (rest := rest) hl hf
    rw [ho]; intro h; cases h

theorem parse_complete_ok {v rest : Bytes} {o : OscOpt} (h : Spec.OscoreComplete v)
    (ho : parseOscoreValue v.length (v ++ rest) = .ok o) :
    ∃ piv kctx kid, Spec.OscoreFields v piv kctx kid ∧ Reads o piv kid := by
  obtain ⟨hl, ⟨f, r, rfl, hn⟩ | ⟨piv, kctx, kid, hf⟩⟩ := h
  · unfold parseOscoreValue at ho
    rw [if_neg (by simp)] at ho
    simp only [List.cons_append] at ho
    rw [if_pos (by have := toNat_lt256 f; omega)] at ho
    cases ho
  · obtain ⟨o', ho', hr⟩ := parse_fields (rest := rest) hl hf
    rw [ho'] at ho
    cases ho
    exact ⟨piv, kctx, kid, hf, hr⟩

theorem parserGo_safe {t : List (Opt × Bytes)}
    (hall : ∀ x ∈ t, x.1.num = 9 → Spec.OscoreComplete x.1.value)
    (hpre : ∀ x ∈ t, x.1.value.isPrefixOf x.2 = true) (acc : Option OscOpt) :
    oscoreOptionParserGo acc t ≠ .ub ∧
    ∀ o, oscoreOptionParserGo acc t = .ok o → acc = some o ∨
      ∃ x ∈ t, x.1.num = 9 ∧ ∃ piv kctx kid, Spec.OscoreFields x.1.value piv kctx kid ∧ Reads o piv kid := by
  induction t generalizing acc with
  | nil =>
    cases acc with
    | none => exact ⟨by simp [oscoreOptionParserGo], by intro o h; simp [oscoreOptionParserGo] at h⟩
    | some a => exact ⟨by simp [oscoreOptionParserGo], by intro o h; simp [oscoreOptionParserGo] at h; exact Or.inl (by rw [h])⟩
  | cons x t ih =>
    obtain ⟨o, tail⟩ := x
    have ih' := ih (fun x hx => hall x (List.mem_cons_of_mem _ hx)) (fun x hx => hpre x (List.mem_cons_of_mem _ hx))
    have hgo : oscoreOptionParserGo acc ((o, tail) :: t) =
        if o.num = optOSCORE then (parseOscoreValue o.len tail >>= fun v => oscoreOptionParserGo (some v) t)
        else oscoreOptionParserGo acc t := by
      cases acc <;> rfl
    rw [hgo]
    by_cases ho : o.num = optOSCORE
    · rw [if_pos ho]
      have hc := hall _ (List.mem_cons_self ..) ho
      have hp := hpre _ (List.mem_cons_self ..)
      rw [List.isPrefixOf_iff_prefix] at hp
      obtain ⟨rest, hrest⟩ := hp
      simp only at hrest hc
      subst hrest
      refine ⟨bind_nub (parse_complete_nub hc) fun v _ => (ih' _).1, ?_⟩
      intro o' h
      obtain ⟨v, hv, hgo'⟩ := R.bind_eq_ok.1 h
      rcases (ih' (some v)).2 o' hgo' with h1 | ⟨x, hx, h9, h⟩
      · cases h1
        obtain ⟨piv, kctx, kid, hf, hr⟩ := parse_complete_ok hc hv
        exact Or.inr ⟨_, List.mem_cons_self .., ho, piv, kctx, kid, hf, hr⟩
      · exact Or.inr ⟨x, List.mem_cons_of_mem _ hx, h9, h⟩
    · rw [if_neg ho]
      refine ⟨(ih' acc).1, ?_⟩
      intro o' h
      rcases (ih' acc).2 o' h with h1 | ⟨x, hx, h9, h⟩
      · exact Or.inl h1
      · exact Or.inr ⟨x, List.mem_cons_of_mem _ hx, h9, h⟩

/-! ### the rest -/

theorem createNonce_nub {id piv iv : Bytes} (h1 : id.length ≤ 7) (h2 : piv.length ≤ 5) (h3 : iv.length ≤ 13) :
    createNonce id piv iv ≠ .ub := by
  unfold createNonce leftPad
  rw [if_neg (by omega), if_neg (by omega)]
  simp only [R.ok_bind]
  rw [if_neg (by omega)]
  intro h; cases h

theorem readWrapper_nub {t : Table} {ty : MsgType} {tok : Bytes} {x : R (Bytes × Bytes)}
    (h : (ty = .response ∨ ty = .notification) ∨ x ≠ .ub) : readWrapper t ty tok x ≠ .ub := by
  unfold readWrapper
  split
  · refine bind_nub ?_ fun r _ => by intro h; cases h
    unfold Table.get
    split
    · intro h; cases h
    · split <;> (intro h; cases h)
  · rcases h with h | h
    · contradiction
    · exact h

theorem tableSet_nub {cfg : Cfg} {t : Table} {r : Rec} : t.set cfg r ≠ .ub := by
  unfold Table.set
  simp only
  repeat' split
  all_goals (intro h; cases h)

theorem tableRemove_nub {t : Table} {tok : Bytes} : t.remove tok ≠ .ub := by
  unfold Table.remove
  repeat' split
  all_goals (intro h; cases h)

theorem updateWrapper_nub {cfg : Cfg} {t : Table} {ty : MsgType} {tok uri piv kid : Bytes} :
    updateWrapper cfg t ty tok uri piv kid ≠ .ub := by
  unfold updateWrapper
  simp only
  generalize (if ty = .cancellation then MsgType.registration else ty) = ty'
  by_cases h1 : ty' = .request ∨ ty' = .registration
  · rw [if_pos h1]
    exact bind_nub memcpyS_nub fun _ _ => bind_nub memcpyS_nub fun _ _ => bind_nub memcpyS_nub fun _ _ =>
      bind_nub memcpyS_nub fun _ _ => tableSet_nub
  · rw [if_neg h1]
    by_cases h2 : ty' = .response
    · rw [if_pos h2]; exact tableRemove_nub
    · rw [if_neg h2]; intro h; cases h

theorem uriPathCreate_nub {opts : List Opt} {max : Nat} (hmax : 0 < max) (h : Spec.uriPathRoom opts ≠ max) :
    uriPathCreate opts max ≠ .ub := by
  obtain ⟨h1, h2⟩ := C33_uri_path_partial opts max hmax
  by_cases hl : Spec.uriPathRoom opts < max
  · rw [h1 hl]; intro h; cases h
  · rw [h2 (by omega)]; intro h; cases h

theorem aad_nub {kid piv : Bytes} : createAad kid piv ≠ .ub := cborOut_nub
theorem encStructure_nub {aad : Bytes} : encStructure aad ≠ .ub :=
  bind_nub check_nub fun _ _ => cborOut_nub
theorem coseDecrypt_nub {C : Crypto} {ct n a k : Bytes} : coseDecrypt C ct n a k ≠ .ub :=
  bind_nub encStructure_nub fun _ _ => ofLib_nub
theorem coseEncrypt_nub {C : Crypto} {ct n a k : Bytes} : coseEncrypt C ct n a k ≠ .ub :=
  bind_nub encStructure_nub fun _ _ => ofLib_nub

theorem coapSerialize_nub {cfg : Cfg} {p : Pkt} {cap : Nat} (h : 4 + p.token.length + cfg.maxCoapOptions < cap) :
    coapSerialize cfg p cap ≠ .ub := by
  unfold coapSerialize
  rw [if_neg (by omega)]
  refine bind_nub memcpyS_nub fun tok htok => bind_nub check_nub fun _ hc => ?_
  obtain ⟨rfl, _⟩ := memcpyS_ok.1 htok
  have hc := checkBufferSize_ok.1 hc
  rw [optionsSerialize_fits]
  simp only [R.ok_bind]
  refine bind_nub memcpyS_nub fun ob hob => ?_
  obtain ⟨rfl, _⟩ := memcpyS_ok.1 hob
  have := encOpts_length_le p.opts
  split
  · intro h; cases h
  · rw [if_neg (by omega)]
    exact bind_nub memcpyS_nub fun _ _ => by intro h; cases h

end Safe
end Verif
