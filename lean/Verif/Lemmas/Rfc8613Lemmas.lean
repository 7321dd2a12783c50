import Verif.Spec.Rfc8613
import Verif.Props.Exchange
import Verif.Lemmas.CheckedLemmas
import Verif.Props.Coap
import Verif.Props.OscoreKeys
/-
The messages of Spec/Rfc8613.lean in the library's packet structure.
-/
namespace Verif.Rfc8613
open Verif Verif.Spec

/-- number and value of an option -/
def nv (o : Opt) : Nat × Bytes := (o.num, o.value)

/-- the message in the library's packet structure -/
def Msg.pkt (m : Msg) : Pkt :=
  { ver := m.ver, type := m.type, code := m.code, mid := m.mid, token := m.token,
    opts := redelta 0 (m.opts.map fun o => { delta := 0, value := o.2, num := o.1 }), payload := m.payload }

theorem pkt_opts (m : Msg) : m.pkt.opts.map nv = m.opts := by
  unfold nv Msg.pkt
  rw [redelta_num, List.map_map]
  rw [List.map_congr_left (g := id)]
  · exact List.map_id _
  · intro o _; rfl

/-- The option deltas avoid 256..268, which the library's parser does not represent (`C15_false_delta`). -/
def gapsFrom : Nat → List (Nat × Bytes) → Prop
  | _, [] => True
  | prev, (n, _) :: os => (n - prev < 256 ∨ 269 ≤ n - prev) ∧ gapsFrom n os

instance : (n : Nat) → (l : List (Nat × Bytes)) → Decidable (gapsFrom n l)
  | _, [] => isTrue trivial
  | prev, (n, _) :: os =>
    have := instDecidableGapsFrom n os
    by unfold gapsFrom; infer_instance

/-- What the library can carry: a CoAP message with its options in ascending order, short option values, and not more
options than its tables hold; without an OSCORE option, without a repeated class U option, and with a payload that
`coap2oscore` does not drop (`C22_false_payload_lost`).  Each limit is needed: see `C15_false_*`, `C22_false_*`. -/
structure Msg.Fits (cfg : Cfg) (m : Msg) : Prop where
  ver : m.ver < 4
  type : m.type < 4
  mid : m.mid < 65536
  token : m.token.length ≤ 8
  sorted : m.opts.Pairwise (fun a b => a.1 ≤ b.1)
  nums : ∀ o ∈ m.opts, o.1 < 65536 ∧ o.1 ≠ 9
  gaps : gapsFrom 0 m.opts
  innerGaps : gapsFrom 0 m.inner
  once : ((m.opts.filter (fun o => decide (classU o.1))).map Prod.fst).Nodup
  count : m.opts.length ≤ 19
  inner : m.inner.length ≤ 10
  outer : m.outer.length ≤ 18
  total : m.outer.length + m.inner.length ≤ 20
  room : (m.opts.map (fun o => 5 + o.2.length)).sum ≤ cfg.maxCoapOptions
  payload : m.payload = [] ∨ 10 ≤ m.payload.length ∨ ∀ o ∈ m.opts, ¬classU o.1
  bufs : cfg.eOptBuf ≤ 255 ∧ cfg.iOptBuf ≤ 255 ∧ cfg.maxPlaintext < 65000
  plain : m.plaintext.length ≤ cfg.maxPlaintext
  small : m.wire.length < 65536

theorem isRequest_pkt (m : Msg) : isRequest m.pkt = decide m.isReq := by
  have : isRequest m.pkt = decide (m.code.toNat < 32) := by
    unfold isRequest
    rw [Bool.eq_iff_iff, beq_iff_eq, decide_eq_true_eq]
    show m.code.toNat / 32 = 0 ↔ _
    omega
  exact this

theorem isClassE_iff (n : Nat) : isClassE n = true ↔ ¬classU n := by
  unfold isClassE classU optURI_HOST optURI_PORT optOSCORE optPROXY_URI optPROXY_SCHEME optEDHOC
  simp only [Bool.and_eq_true, bne_iff_ne]
  omega

theorem public_classU (n : Nat) : PublicOption n ↔ classU n ∨ n = 6 := by
  unfold PublicOption classU; omega

theorem innerOpts_nv (P : Prop) [Decidable P] (l : List Opt) :
    (innerOpts (decide P) l).map nv = (l.map nv).filterMap (innerOption P) := by
  unfold innerOpts
  rw [List.map_filterMap, List.filterMap_map]
  congr 1
  funext o
  simp only [Function.comp, innerOption, nv, optOBSERVE, decide_eq_true_eq]
  by_cases h6 : o.num = 6
  · simp [h6, nv]
  · by_cases hc : isClassE o.num = true
    · have hu := (isClassE_iff _).1 hc
      simp [h6, hc, hu, nv]
    · have hu : classU o.num := Classical.byContradiction fun h => hc ((isClassE_iff _).2 h)
      simp [h6, hc, hu]

theorem outerOpts_nv (l : List Opt) :
    (outerOpts l).map nv = (l.map nv).filter (fun o => decide (classU o.1 ∨ o.1 = 6)) := by
  rw [outerOpts_eq, List.filter_map]
  have : (fun o : Opt => decide (PublicOption o.num)) = (fun o => decide (classU o.1 ∨ o.1 = 6)) ∘ nv := by
    funext o
    rw [Bool.eq_iff_iff]
    exact ⟨fun h => decide_eq_true ((public_classU _).1 (of_decide_eq_true h)),
      fun h => decide_eq_true ((public_classU _).2 (of_decide_eq_true h))⟩
  rw [this]

theorem inner_pkt (m : Msg) : (innerOpts (isRequest m.pkt) m.pkt.opts).map nv = m.inner := by
  rw [isRequest_pkt, innerOpts_nv, pkt_opts]; rfl

theorem outer_pkt (m : Msg) : (outerOpts m.pkt.opts).map nv = m.outer := by
  rw [outerOpts_nv, pkt_opts]; rfl

theorem numSorted_nv {l : List Opt} (h : (l.map nv).Pairwise (fun a b => a.1 ≤ b.1)) : NumSorted l := by
  have := List.pairwise_map.1 h
  exact this

theorem pairwise_filterMap_inner {P : Prop} [Decidable P] {l : List (Nat × Bytes)}
    (h : l.Pairwise (fun a b => a.1 ≤ b.1)) :
    (l.filterMap (innerOption P)).Pairwise (fun a b => a.1 ≤ b.1) := by
  have hn : ∀ a b, innerOption P a = some b → b.1 = a.1 := by
    intro a b hab
    unfold innerOption at hab
    split at hab
    · rename_i h6; simp only [Option.some.injEq] at hab; subst hab; exact h6.symm
    · split at hab
      · cases hab
      · simp only [Option.some.injEq] at hab; subst hab; rfl
  rw [List.pairwise_filterMap]
  refine h.imp ?_
  intro a b hab x hx y hy
  rw [hn _ _ hx, hn _ _ hy]; exact hab

theorem gaps_delta {prev : Nat} {l : List Opt} (hg : gapsFrom prev (l.map nv)) (hs : NumSorted l)
    (hp : ∀ o ∈ l, prev ≤ o.num) (hlt : ∀ o ∈ l, o.num < 65536) :
    ∀ o ∈ redelta prev l, o.delta < 256 ∨ 269 ≤ o.delta := by
  induction l generalizing prev with
  | nil => intro o ho; cases ho
  | cons a l ih =>
    intro o ho
    simp only [redelta] at ho
    have h := List.pairwise_cons.1 hs
    have ha := hp a (by simp)
    have hl := hlt a (by simp)
    simp only [List.map_cons, nv, gapsFrom] at hg
    rcases List.mem_cons.1 ho with rfl | ho
    · have e : (a.num + 65536 - prev) % 65536 = a.num - prev := by omega
      simp only [e]
      exact hg.1
    · exact ih hg.2 h.2 h.1 (fun x hx => hlt x (List.mem_cons_of_mem _ hx)) o ho

theorem redelta_id {prev : Nat} {l : List Opt} (h : sortedFrom prev l) : redelta prev l = l := by
  induction l generalizing prev with
  | nil => rfl
  | cons o l ih =>
    obtain ⟨h1, h2, h3, h4⟩ := h
    simp only [redelta, ih h4]
    have : (o.num + 65536 - prev) % 65536 = o.delta := by omega
    rw [this]

section
variable {cfg : Cfg} {m : Msg}

theorem base_sorted (h : m.Fits cfg) :
    NumSorted (m.opts.map fun o => ({ delta := 0, value := o.2, num := o.1 } : Opt)) :=
  List.pairwise_map.2 h.sorted

theorem Msg.Fits.sortedFrom (h : m.Fits cfg) : sortedFrom 0 m.pkt.opts := by
  unfold Msg.pkt
  refine sortedFrom_redelta (base_sorted h) (by simp) ?_
  intro o ho
  obtain ⟨x, hx, rfl⟩ := List.mem_map.1 ho
  exact (h.nums x hx).1

theorem mem_pkt {o : Opt} (ho : o ∈ m.pkt.opts) : nv o ∈ m.opts := by
  rw [← pkt_opts m]; exact List.mem_map_of_mem ho

theorem Msg.Fits.maxLen (h : m.Fits cfg) : ∀ o ∈ m.opts, 5 + o.2.length ≤ 255 := by
  have h3 := maxCoapOptions_le ⟨h.bufs.1, h.bufs.2.1⟩
  have hr := h.room
  have key : ∀ (l : List (Nat × Bytes)), ∀ o ∈ l, 5 + o.2.length ≤ (l.map (fun o => 5 + o.2.length)).sum := by
    intro l
    induction l with
    | nil => intro o ho; cases ho
    | cons a l ih =>
      intro o ho
      simp only [List.map_cons, List.sum_cons]
      rcases List.mem_cons.1 ho with rfl | ho
      · omega
      · have := ih o ho; omega
  intro o ho
  have := key _ o ho
  omega

theorem Msg.Fits.pktLen (h : m.Fits cfg) : ∀ o ∈ m.pkt.opts, 5 + o.value.length ≤ 255 :=
  fun _ ho => h.maxLen _ (mem_pkt ho)

theorem innerOpts_len {req : Bool} {l : List Opt} {n : Nat} (h : ∀ o ∈ l, o.value.length ≤ n) :
    ∀ o ∈ innerOpts req l, o.value.length ≤ n := by
  intro o ho
  unfold innerOpts at ho
  obtain ⟨x, hx, hx2⟩ := List.mem_filterMap.1 ho
  have hxl := h x hx
  split at hx2
  · simp only [Option.some.injEq] at hx2
    subst hx2
    simp only
    split
    · exact hxl
    · simp
  · split at hx2
    · simp only [Option.some.injEq] at hx2; subst hx2; exact hxl
    · cases hx2

theorem redelta_len {prev : Nat} {l : List Opt} {n : Nat} (h : ∀ o ∈ l, o.value.length ≤ n) :
    ∀ o ∈ redelta prev l, o.value.length ≤ n := by
  intro o ho
  obtain ⟨x, hx, _, hv⟩ := mem_redelta ho
  rw [← hv]; exact h x hx

theorem innerSorted (h : m.Fits cfg) : NumSorted (innerOpts (isRequest m.pkt) m.pkt.opts) := by
  apply numSorted_nv
  rw [inner_pkt]
  exact pairwise_filterMap_inner h.sorted

theorem innerNums (h : m.Fits cfg) : ∀ o ∈ innerOpts (isRequest m.pkt) m.pkt.opts, o.num < 65536 := by
  intro o ho
  unfold innerOpts at ho
  obtain ⟨x, hx, hx2⟩ := List.mem_filterMap.1 ho
  have hxl := (h.nums _ (mem_pkt hx)).1
  split at hx2
  · simp only [Option.some.injEq] at hx2; subst hx2; exact hxl
  · split at hx2
    · simp only [Option.some.injEq] at hx2; subst hx2; exact hxl
    · cases hx2

theorem innerFrom (h : m.Fits cfg) : sortedFrom 0 (redelta 0 (innerOpts (isRequest m.pkt) m.pkt.opts)) :=
  sortedFrom_redelta (innerSorted h) (by simp) (innerNums h)

/-- the message on the wire is what the library writes -/
theorem wire_pkt (h : m.Fits cfg) : m.wire = encPkt m.pkt := by
  have hw : WellFormed m.pkt :=
    ⟨h.ver, h.type, h.mid, h.token, by
      have := h.count
      have e : m.pkt.opts.length = m.opts.length := by rw [← pkt_opts m, List.length_map]
      omega, h.sortedFrom, fun o ho => by have := h.pktLen o ho; omega⟩
  rw [← wire_eq hw]
  unfold Msg.wire
  have : (m.pkt.opts.map fun o => (o.num, o.value)) = m.opts := pkt_opts m
  rw [this]
  rfl

/-- the plaintext of the RFC is what the library encrypts -/
theorem plaintext_pkt (h : m.Fits cfg) :
    m.plaintext = m.pkt.code :: (encOpts (redelta 0 (innerOpts (isRequest m.pkt) m.pkt.opts)) ++ payloadTail m.pkt) := by
  unfold Msg.plaintext payloadTail
  have e := wireOpts_eq (innerFrom h) (fun o ho => by
    have := redelta_len (n := 250) (innerOpts_len (fun x hx => by have := h.pktLen x hx; omega)) o ho
    omega)
  rw [redelta_num] at e
  have e2 : (innerOpts (isRequest m.pkt) m.pkt.opts).map (fun o => (o.num, o.value)) = m.inner := inner_pkt m
  rw [e2] at e
  rw [e]
  simp only [List.length_eq_zero_iff]
  rfl

theorem takeWhile_nv (l : List Opt) : (l.takeWhile (fun o => decide (o.num ≤ optOSCORE))).map nv =
    (l.map nv).takeWhile (fun o => decide (o.1 ≤ 9)) := by
  rw [List.takeWhile_map]; rfl

theorem dropWhile_nv (l : List Opt) : (l.dropWhile (fun o => decide (o.num ≤ optOSCORE))).map nv =
    (l.map nv).dropWhile (fun o => decide (o.1 ≤ 9)) := by
  rw [List.dropWhile_map]; rfl

theorem protectedOpts_nv (u : List Opt) (v : Bytes) :
    (protectedOpts u v).map nv = insertOscore v (u.map nv) := by
  unfold protectedOpts insertOscore
  rw [List.map_append, List.map_append, takeWhile_nv, dropWhile_nv]
  rfl

theorem observes_pkt (m : Msg) : isObserve (redelta 0 (outerOpts m.pkt.opts)) = decide m.observes := by
  rw [isObserve_redelta, isObserve_outer]
  unfold isObserve optOBSERVE
  rw [Bool.eq_iff_iff, List.any_eq_true, decide_eq_true_eq]
  unfold Msg.observes
  constructor
  · rintro ⟨o, ho, h⟩
    exact ⟨nv o, mem_pkt ho, (by simpa using h : o.num = 6)⟩
  · rintro ⟨o, ho, h⟩
    rw [← pkt_opts m] at ho
    obtain ⟨x, hx, rfl⟩ := List.mem_map.1 ho
    exact ⟨x, hx, by simpa [nv] using h⟩

theorem numSorted_append_insert {l : List Opt} {v : Bytes} (h : NumSorted l) : NumSorted (protectedOpts l v) := by
  unfold protectedOpts
  induction l with
  | nil => simp [NumSorted]
  | cons a l ih =>
    have ha := List.pairwise_cons.1 h
    by_cases h9 : a.num ≤ optOSCORE
    · rw [List.takeWhile_cons, List.dropWhile_cons]
      simp only [h9, decide_true, if_true, List.cons_append]
      refine List.pairwise_cons.2 ⟨?_, ih ha.2⟩
      intro x hx
      have hx' : x ∈ protectedOpts l v := hx
      rcases mem_protectedOpts.1 hx' with hx' | rfl
      · exact ha.1 x hx'
      · exact h9
    · rw [List.takeWhile_cons, List.dropWhile_cons]
      simp only [h9, decide_false, Bool.false_eq_true, if_false, List.nil_append, List.singleton_append]
      refine List.pairwise_cons.2 ⟨?_, h⟩
      intro x hx
      simp only [Nat.not_le] at h9
      rcases List.mem_cons.1 hx with rfl | hx
      · exact Nat.le_of_lt h9
      · exact Nat.le_trans (Nat.le_of_lt h9) (ha.1 x hx)

/-- the OSCORE message of the RFC is the one the library builds -/
theorem outer_wire (h : m.Fits cfg) {v ct : Bytes} (hv : v.length < 65536) :
    (m.outerMsg v ct).wire = encPkt (oscorePkgGenerate m.pkt (redelta 0 (outerOpts m.pkt.opts)) ct v) := by
  have ho := oscorePkg_opts (p := m.pkt) (u := redelta 0 (outerOpts m.pkt.opts)) (ct := ct) (v := v) redelta_outer_le
  have hsu : NumSorted (redelta 0 (outerOpts m.pkt.opts)) := by
    apply numSorted_nv
    have : (redelta 0 (outerOpts m.pkt.opts)).map nv = m.outer := by
      rw [← outer_pkt m]; exact redelta_num _ _
    rw [this]
    exact h.sorted.filter _
  have hfrom : sortedFrom 0 (redelta 0 (protectedOpts (redelta 0 (outerOpts m.pkt.opts)) v)) := by
    refine sortedFrom_redelta (numSorted_append_insert hsu) (by simp) ?_
    intro o hm
    rcases mem_protectedOpts.1 hm with h1 | rfl
    · have := redelta_outer_le o h1; omega
    · show optOSCORE < 65536; decide
  have hlen : ∀ o ∈ redelta 0 (protectedOpts (redelta 0 (outerOpts m.pkt.opts)) v), o.value.length < 65536 := by
    intro o hm
    obtain ⟨x, hx, _, hv2⟩ := mem_redelta hm
    rw [← hv2]
    rcases mem_protectedOpts.1 hx with h1 | rfl
    · obtain ⟨y, hy, _, hv3⟩ := mem_redelta h1
      rw [← hv3]
      rw [outerOpts_eq] at hy
      have := h.pktLen y (List.mem_filter.1 hy).1
      omega
    · exact hv
  have e := wireOpts_eq hfrom hlen
  rw [redelta_num] at e
  have e2 : (protectedOpts (redelta 0 (outerOpts m.pkt.opts)) v).map (fun o => (o.num, o.value)) =
      insertOscore v m.outer := by
    have := protectedOpts_nv (redelta 0 (outerOpts m.pkt.opts)) v
    have e3 : (redelta 0 (outerOpts m.pkt.opts)).map nv = m.outer := by
      rw [← outer_pkt m]; exact redelta_num _ _
    rw [e3] at this
    exact this
  rw [e2] at e
  unfold encPkt
  rw [ho, ← e]
  unfold Msg.wire Spec.wire Msg.outerMsg coapHeaderBytes
  have hcode : (oscorePkgGenerate m.pkt (redelta 0 (outerOpts m.pkt.opts)) ct v).code = m.outerCode := by
    unfold oscorePkgGenerate Msg.outerCode
    simp only [observes_pkt, isRequest_pkt, decide_eq_true_eq]
  rw [hcode]
  have hpl : (oscorePkgGenerate m.pkt (redelta 0 (outerOpts m.pkt.opts)) ct v).payload = ct := rfl
  have hve : (oscorePkgGenerate m.pkt (redelta 0 (outerOpts m.pkt.opts)) ct v).ver = m.ver := rfl
  have hty : (oscorePkgGenerate m.pkt (redelta 0 (outerOpts m.pkt.opts)) ct v).type = m.type := rfl
  have hmi : (oscorePkgGenerate m.pkt (redelta 0 (outerOpts m.pkt.opts)) ct v).mid = m.mid := rfl
  have hto : (oscorePkgGenerate m.pkt (redelta 0 (outerOpts m.pkt.opts)) ct v).token = m.token := rfl
  rw [hpl, hve, hty, hmi, hto]
  simp only [List.length_eq_zero_iff]
  have e4 : 64 * m.ver + 16 * m.type + m.token.length = m.ver * 64 + m.type * 16 + m.token.length := by omega
  rw [e4]

theorem Msg.Fits.pktOk (h : m.Fits cfg) : PktOk m.pkt := by
  refine ⟨h.ver, h.type, h.mid, h.token, ?_, ?_, numsOk_of_sorted h.sortedFrom⟩
  · have e : m.pkt.opts.length = m.opts.length := by rw [← pkt_opts m, List.length_map]
    rw [e]; exact h.count
  · intro o ho
    have hl := h.pktLen o ho
    refine ⟨?_, .inl (by unfold Opt.len; omega)⟩
    have hg : gapsFrom 0 ((m.opts.map fun o => ({ delta := 0, value := o.2, num := o.1 } : Opt)).map nv) := by
      have : (m.opts.map fun o => ({ delta := 0, value := o.2, num := o.1 } : Opt)).map nv = m.opts := by
        rw [List.map_map, List.map_congr_left (g := id)]
        · exact List.map_id _
        · intro o _; rfl
      rw [this]; exact h.gaps
    have hnum : ∀ o ∈ m.opts.map (fun o => ({ delta := 0, value := o.2, num := o.1 } : Opt)), o.num < 65536 := by
      intro o ho
      obtain ⟨x, hx, rfl⟩ := List.mem_map.1 ho
      exact (h.nums x hx).1
    have := gaps_delta hg (base_sorted h) (by simp) hnum o ho
    have hs := h.sortedFrom
    rcases this with hd | hd
    · exact .inl hd
    · refine .inr ⟨hd, ?_⟩
      have key : ∀ (l : List Opt) (prev : Nat), ∀ x ∈ redelta prev l, x.delta < 65536 := by
        intro l
        induction l with
        | nil => intro _ x hx; cases hx
        | cons a l ih =>
          intro prev x hx
          simp only [redelta] at hx
          rcases List.mem_cons.1 hx with rfl | hx
          · exact Nat.mod_lt _ (by omega)
          · exact ih _ x hx
      exact key _ _ o ho

theorem parse_wire (h : m.Fits cfg) : coapDeserialize m.wire = .ok m.pkt := by
  have hs := h.small
  rw [wire_pkt h] at hs ⊢
  exact deserialize_encPkt h.pktOk hs

theorem Msg.Fits.innerOk (h : m.Fits cfg) : InnerOk cfg m.pkt := by
  refine ⟨h.sortedFrom, fun o ho => (h.nums _ (mem_pkt ho)).2, ?_, ?_, ?_, ?_, ?_, ?_, h.bufs⟩
  · have e : ((m.pkt.opts.filter (fun o => decide (PublicOption o.num ∧ o.num ≠ 6))).map Opt.num) =
        ((m.opts.filter (fun o => decide (classU o.1))).map Prod.fst) := by
      rw [← pkt_opts m, List.filter_map, List.map_map]
      have : m.pkt.opts.filter (fun o => decide (PublicOption o.num ∧ o.num ≠ 6)) =
          m.pkt.opts.filter ((fun o => decide (classU o.1)) ∘ nv) := by
        apply List.filter_congr
        intro o _
        rw [Bool.eq_iff_iff]
        have key : (PublicOption o.num ∧ o.num ≠ 6) ↔ classU (nv o).1 := by
          show _ ↔ classU o.num
          unfold PublicOption classU; omega
        exact ⟨fun h => decide_eq_true (key.1 (of_decide_eq_true h)),
          fun h => decide_eq_true (key.2 (of_decide_eq_true h))⟩
      rw [this]
      rfl
    rw [e]; exact h.once
  · have := congrArg List.length (inner_pkt m)
    rw [List.length_map] at this
    rw [this]; exact h.inner
  · have e1 := congrArg List.length (inner_pkt m)
    have e2 := congrArg List.length (outer_pkt m)
    rw [List.length_map] at e1 e2
    rw [e1, e2]; exact h.total
  · have e2 := congrArg List.length (outer_pkt m)
    rw [List.length_map] at e2
    rw [e2]; exact h.outer
  · refine gaps_delta ?_ (innerSorted h) (by simp) (innerNums h)
    rw [inner_pkt]; exact h.innerGaps
  · rcases h.payload with hp | hp | hp
    · exact .inl hp
    · exact .inr (.inl hp)
    · refine .inr (.inr ?_)
      intro o ho hpub
      have := hp _ (mem_pkt ho)
      rcases (public_classU _).1 hpub with hc | hc
      · exact absurd hc this
      · exact hc

theorem Msg.Fits.optBytes (h : m.Fits cfg) : optBytesLen m.pkt.opts ≤ cfg.maxCoapOptions := by
  have : optBytesLen m.pkt.opts = (m.opts.map (fun o => 5 + o.2.length)).sum := by
    rw [← pkt_opts m]
    unfold optBytesLen
    rw [List.map_map]
    rfl
  rw [this]; exact h.room

theorem Msg.Fits.carriable (h : m.Fits cfg) : Carriable cfg m.pkt := by
  refine ⟨h.innerOk, ?_, h.optBytes, ?_⟩
  · intro o ho
    rcases (h.pktOk.opts o ho).1 with hd | hd
    · exact .inl hd
    · exact .inr hd.1
  · rw [← wire_pkt h]; exact h.small

theorem nonce_def {id piv iv : Bytes} (hid : id.length ≤ 7) (hp : piv.length ≤ 5) (hiv : iv.length = 13) :
    createNonce id piv iv = .ok (nonce id piv iv) := by
  have : ∃ n, createNonce id piv iv = .ok n := by
    refine ⟨_, createNonce_ok.2 ⟨hid, hp, by omega, rfl⟩⟩
  obtain ⟨n, hn⟩ := this
  rw [hn, nonce_eq hiv hn]

/-- AEAD of the library = AEAD of the RFC -/
theorem cose_eq {C : Crypto} {kid piv a pt n key ct : Bytes} (ha : createAad kid piv = .ok a)
    (h : coseEncrypt C pt n a key = .ok ct) : C.aeadEnc key n (aad kid piv) 8 pt = some ct := by
  unfold coseEncrypt at h
  obtain ⟨s, hs, h⟩ := R.bind_eq_ok.1 h
  rw [(C25_aad_rfc8613 ha hs).2] at h
  unfold ofLib at h
  unfold aad
  cases hx : C.aeadEnc key n (Cbor.enc (Cbor.oscoreEncStructure kid piv)) tagLen pt with
  | none => rw [hx] at h; cases h
  | some c => rw [hx] at h; rw [← R.ok.inj h]; exact hx

end

end Verif.Rfc8613
