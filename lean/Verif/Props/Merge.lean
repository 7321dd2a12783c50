import Verif.Lemmas.SortLemmas
import Verif.Lemmas.ProtectOk
import Verif.Spec.CoapSpec
import Verif.Props.Wire
/-
C18: merging outer and inner options.
-/
namespace Verif

/-! ### what the merge does to arbitrary option lists -/

theorem numSorted_of_map {l m : List Opt} (h : l.map Opt.num = m.map Opt.num) (hl : NumSorted l) :
    NumSorted m := by
  unfold NumSorted at *
  have h1 : (l.map Opt.num).Pairwise (· ≤ ·) := List.pairwise_map.2 hl
  rw [h] at h1
  exact List.pairwise_map.1 h1

theorem redelta_nums (prev : Nat) (l : List Opt) : (redelta prev l).map Opt.num = l.map Opt.num := by
  have := congrArg (List.map Prod.fst) (redelta_num prev l)
  simpa [List.map_map, Function.comp_def] using this

theorem sortedFrom_redelta {prev : Nat} {l : List Opt} (hs : NumSorted l) (hp : ∀ o ∈ l, prev ≤ o.num)
    (hlt : ∀ o ∈ l, o.num < 65536) : Spec.sortedFrom prev (redelta prev l) := by
  induction l generalizing prev with
  | nil => trivial
  | cons o os ih =>
    have ho := hp o (by simp)
    have hl := hlt o (by simp)
    have h := List.pairwise_cons.1 hs
    simp only [redelta, Spec.sortedFrom]
    exact ⟨ho, hl, by omega, ih h.2 h.1 (fun x hx => hlt x (List.mem_cons_of_mem _ hx))⟩

/-- **C18** (any option lists): when the merge succeeds, the result contains exactly the outer
options other than OSCORE and Observe together with all inner options – nothing lost, nothing
invented, values unchanged –, in ascending order of the option numbers with the right deltas. -/
theorem C18_merge (u e l : List Opt) (h : optionsReorder u e = .ok l)
    (hu : ∀ o ∈ u, o.num < 65536) (he : ∀ o ∈ e, o.num < 65536) :
    (l.map (fun o => (o.num, o.value))).Perm
      ((u.filter (fun o => decide (o.num ≠ 9 ∧ o.num ≠ 6)) ++ e).map (fun o => (o.num, o.value))) ∧
    Spec.sortedFrom 0 l := by
  unfold optionsReorder at h
  obtain ⟨_, _, h⟩ := R.bind_eq_ok.1 h
  have := R.ok.inj h
  subst this
  have hf : u.filter (fun o => o.num != optOSCORE && o.num != optOBSERVE) =
      u.filter (fun o => decide (o.num ≠ 9 ∧ o.num ≠ 6)) := by
    apply List.filter_congr
    intro o _
    simp only [optOSCORE, optOBSERVE, bne]
    by_cases h1 : o.num = 9 <;> by_cases h2 : o.num = 6 <;> simp [h1, h2]
  rw [hf]
  refine ⟨?_, ?_⟩
  · rw [redelta_num]
    exact (exSort_perm _ _).map _
  · refine sortedFrom_redelta (exSort_sorted _ _ (Nat.le_refl _)) (by simp) ?_
    intro o ho
    have := (exSort_perm _ _).subset ho
    rcases List.mem_append.1 this with h1 | h1
    · exact hu o (List.mem_filter.1 h1).1
    · exact he o h1

/-! ### splitting and merging -/

/-- what a receiver can recover of an option: the Observe value of a response is not protected -/
def recovered (req : Bool) (o : Opt) : Opt :=
  if o.num = 6 ∧ req = false then { o with value := [] } else o

theorem recovered_num (req : Bool) (o : Opt) : (recovered req o).num = o.num := by
  unfold recovered; split <;> rfl
theorem recovered_delta (req : Bool) (o : Opt) : (recovered req o).delta = o.delta := by
  unfold recovered; split <;> rfl

theorem withNum_map_strip (k : Nat) (l : List Opt) : withNum k (l.map strip) = (withNum k l).map strip := by
  induction l with
  | nil => rfl
  | cons o l ih =>
    rw [List.map_cons, withNum_cons, withNum_cons]
    have : (strip o).num = o.num := rfl
    rw [this, ih]
    split <;> rfl

theorem inner_withNum (req : Bool) (k : Nat) (l : List Opt) (hk : isClassE k = true ∨ k = 6) :
    withNum k (innerOpts req l) = withNum k (l.map (recovered req)) := by
  induction l with
  | nil => rfl
  | cons o l ih =>
    rw [List.map_cons, withNum_cons, recovered_num]
    unfold innerOpts at ih ⊢
    rw [List.filterMap_cons]
    by_cases h6 : o.num = optOBSERVE
    · simp only [if_pos h6]
      rw [withNum_cons, ih]
      have : (if req = true then o.value else []) = (recovered req o).value := by
        unfold recovered; unfold optOBSERVE at h6
        cases req <;> simp [h6]
      have e : ({ o with value := if req = true then o.value else [] } : Opt) = recovered req o := by
        rw [this]
        unfold recovered; split <;> rfl
      rw [e, recovered_num]
    · by_cases hc : isClassE o.num = true
      · simp only [if_neg h6, if_pos hc]
        rw [withNum_cons, ih]
        have : recovered req o = o := by
          unfold recovered; unfold optOBSERVE at h6; rw [if_neg (by simp [h6])]
        rw [this]
      · simp only [if_neg h6, if_neg hc]
        rw [ih, if_neg]
        intro e
        rcases hk with hk | hk
        · rw [e] at hc; exact hc hk
        · exact h6 (e.trans hk)

theorem inner_withNum_nil (req : Bool) (k : Nat) (l : List Opt) (hk : ¬(isClassE k = true ∨ k = 6)) :
    withNum k (innerOpts req l) = [] := by
  apply withNum_nil_of
  intro o ho e
  unfold innerOpts at ho
  obtain ⟨x, _, hx⟩ := List.mem_filterMap.1 ho
  split at hx
  · rename_i h6
    simp only [Option.some.injEq] at hx
    subst hx
    exact hk (.inr (by rw [← e]; exact h6))
  · split at hx
    · rename_i hc
      simp only [Option.some.injEq] at hx
      subst hx
      rw [e] at hc
      exact hk (.inl hc)
    · cases hx

/-- the outer options a receiver keeps -/
def keptOuter (l : List Opt) : List Opt :=
  (outerOpts l).filter (fun o => o.num != optOSCORE && o.num != optOBSERVE)

theorem kept_withNum_nil (k : Nat) (l : List Opt) (hk : isClassE k = true ∨ k = 6) :
    withNum k (keptOuter l) = [] := by
  apply withNum_nil_of
  intro o ho e
  unfold keptOuter outerOpts at ho
  rw [List.mem_filter, List.mem_filter] at ho
  obtain ⟨⟨_, h1⟩, h2⟩ := ho
  rw [e] at h1 h2
  simp only [optOBSERVE, optOSCORE, Bool.and_eq_true, bne_iff_ne, Bool.or_eq_true, beq_iff_eq,
    Bool.not_eq_true'] at h1 h2
  rcases hk with hk | hk
  · rw [hk] at h1; rcases h1 with h1 | h1
    · exact h2.2 h1
    · cases h1
  · exact h2.2 hk

theorem kept_withNum (req : Bool) (k : Nat) (l : List Opt) (hk : ¬(isClassE k = true ∨ k = 6)) (h9 : k ≠ 9) :
    withNum k (keptOuter l) = withNum k (l.map (recovered req)) := by
  induction l with
  | nil => rfl
  | cons o l ih =>
    rw [List.map_cons, withNum_cons, recovered_num]
    unfold keptOuter outerOpts at ih ⊢
    rw [List.filter_cons]
    by_cases e : o.num = k
    · have h6 : o.num ≠ 6 := fun h => hk (.inr (e ▸ h))
      have hc : isClassE o.num = false := by
        cases h : isClassE o.num with
        | false => rfl
        | true => exact absurd (.inl (e ▸ h)) hk
      have c1 : (o.num == optOBSERVE || !isClassE o.num) = true := by rw [hc]; simp
      have c2 : (o.num != optOSCORE && o.num != optOBSERVE) = true := by
        have : o.num ≠ 9 := e ▸ h9
        simp [optOSCORE, optOBSERVE, h6, this]
      rw [if_pos c1, List.filter_cons, if_pos c2, withNum_cons, if_pos e, if_pos e, ih]
      have : recovered req o = o := by unfold recovered; rw [if_neg (by simp [h6])]
      rw [this]
    · rw [if_neg e]
      split
      · rw [List.filter_cons]
        split
        · rw [withNum_cons, if_neg e, ih]
        · exact ih
      · exact ih

theorem kept_protected (l : List Opt) (v : Bytes) :
    ((redelta 0 (protectedOpts (redelta 0 (outerOpts l)) v)).filter
      (fun o => o.num != optOSCORE && o.num != optOBSERVE)).map strip = (keptOuter l).map strip := by
  have key : ∀ m : List Opt, (m.filter (fun o => o.num != optOSCORE && o.num != optOBSERVE)).map strip =
      (m.map strip).filter (fun o => o.num != optOSCORE && o.num != optOBSERVE) := by
    intro m
    rw [List.filter_map]
    rfl
  rw [key, strip_redelta]
  unfold keptOuter
  rw [key, ← strip_redelta 0 (outerOpts l)]
  generalize redelta 0 (outerOpts l) = u
  unfold protectedOpts
  simp only [List.map_append, List.map_cons, List.map_nil, List.filter_append]
  have h9 : ([strip ⟨0, v, optOSCORE⟩]).filter (fun o => o.num != optOSCORE && o.num != optOBSERVE) = [] := by
    simp [strip, optOSCORE]
  rw [h9, List.append_nil, ← List.filter_append, ← List.map_append, List.takeWhile_append_dropWhile]

theorem numSorted_of_sortedFrom {prev : Nat} {l : List Opt} (h : Spec.sortedFrom prev l) :
    NumSorted l ∧ ∀ o ∈ l, prev ≤ o.num := by
  induction l generalizing prev with
  | nil => exact ⟨.nil, by simp⟩
  | cons o l ih =>
    obtain ⟨h1, _, _, h4⟩ := h
    obtain ⟨i1, i2⟩ := ih h4
    refine ⟨List.pairwise_cons.2 ⟨i2, i1⟩, ?_⟩
    intro x hx
    rcases List.mem_cons.1 hx with rfl | hx
    · exact h1
    · have := i2 x hx; omega

theorem redelta_sortedFrom {prev : Nat} {l : List Opt} (h : Spec.sortedFrom prev l) : redelta prev l = l := by
  induction l generalizing prev with
  | nil => rfl
  | cons o l ih =>
    obtain ⟨h1, h2, h3, h4⟩ := h
    simp only [redelta, ih h4]
    have : (o.num + 65536 - prev) % 65536 = o.delta := by omega
    rw [this]

theorem sortedFrom_recovered {prev : Nat} {l : List Opt} (req : Bool) (h : Spec.sortedFrom prev l) :
    Spec.sortedFrom prev (l.map (recovered req)) := by
  induction l generalizing prev with
  | nil => trivial
  | cons o l ih =>
    obtain ⟨h1, h2, h3, h4⟩ := h
    simp only [List.map_cons, Spec.sortedFrom, recovered_num, recovered_delta]
    exact ⟨h1, h2, h3, ih h4⟩

theorem sortedFrom_numsOk {prev : Nat} {l : List Opt} (h : Spec.sortedFrom prev l) : numsOk prev l := by
  induction l generalizing prev with
  | nil => trivial
  | cons o l ih =>
    obtain ⟨h1, h2, h3, h4⟩ := h
    exact ⟨by omega, ih h4⟩

theorem split_merge_list (req : Bool) (l : List Opt) (v : Bytes) (hs : Spec.sortedFrom 0 l)
    (h9 : ∀ o ∈ l, o.num ≠ 9)
    (hnd : ((l.filter (fun o => decide (PublicOption o.num ∧ o.num ≠ 6))).map Opt.num).Nodup)
    (hcount : (outerOpts l).length + (innerOpts req l).length ≤ 20) :
    optionsReorder (redelta 0 (protectedOpts (redelta 0 (outerOpts l)) v)) (redelta 0 (innerOpts req l)) =
      .ok (l.map (recovered req)) := by
  unfold optionsReorder checkBufferSize
  rw [redelta_length, protectedOpts_length, redelta_length, redelta_length, if_neg (by unfold maxOptionCount; omega)]
  simp only [R.ok_bind, R.pure_eq, R.ok.injEq]
  generalize hL : (redelta 0 (protectedOpts (redelta 0 (outerOpts l)) v)).filter
      (fun o => o.num != optOSCORE && o.num != optOBSERVE) ++ redelta 0 (innerOpts req l) = L
  have hLs : L.map strip = (keptOuter l).map strip ++ (innerOpts req l).map strip := by
    rw [← hL, List.map_append, kept_protected, strip_redelta]
  rw [← redelta_strip, ← exSort_strip]
  have hT : exSort L.length (L.map strip) = (l.map (recovered req)).map strip := by
    have hkept : keptOuter l = l.filter (fun o => decide (PublicOption o.num ∧ o.num ≠ 6)) := by
      unfold keptOuter
      rw [outerOpts_eq, List.filter_filter]
      apply List.filter_congr
      intro o ho
      have := h9 o ho
      by_cases h1 : PublicOption o.num <;> by_cases h2 : o.num = 6 <;>
        simp [optOSCORE, optOBSERVE, h1, h2, this]
    have hsorted := (numSorted_of_sortedFrom hs).1
    have hinner : NumSorted (innerOpts req l) := by
      unfold innerOpts
      unfold NumSorted at hsorted ⊢
      rw [List.pairwise_filterMap]
      refine hsorted.imp ?_
      intro a b hab a' ha b' hb
      have key : ∀ {x y : Opt}, (if x.num = optOBSERVE then some { x with value := if req = true then x.value else [] }
          else if isClassE x.num = true then some x else none) = some y → y.num = x.num := by
        intro x y h
        split at h
        · simp only [Option.some.injEq] at h; subst h; rfl
        · split at h
          · simp only [Option.some.injEq] at h; subst h; rfl
          · cases h
      rw [key ha, key hb]
      exact hab
    have stripNums : ∀ m : List Opt, (m.map strip).map Opt.num = m.map Opt.num := by
      intro m; rw [List.map_map]; rfl
    have htp : TwoPart ((keptOuter l).map strip) ((innerOpts req l).map strip) := by
      refine ⟨by rw [stripNums, hkept]; exact hnd, numSorted_of_map (stripNums _).symm hinner, ?_⟩
      intro x hx y hy e
      obtain ⟨x', hx', rfl⟩ := List.mem_map.1 hx
      obtain ⟨y', hy', rfl⟩ := List.mem_map.1 hy
      have e' : x'.num = y'.num := e
      by_cases hk : isClassE x'.num = true ∨ x'.num = 6
      · have := kept_withNum_nil x'.num l hk
        rw [withNum, List.filter_eq_nil_iff] at this
        exact this x' hx' (by simp)
      · have := inner_withNum_nil req x'.num l hk
        rw [withNum, List.filter_eq_nil_iff] at this
        exact this y' hy' (by simp [e'])
    rw [hLs]
    have hlen : L.length = ((keptOuter l).map strip ++ (innerOpts req l).map strip).length := by
      rw [← hLs, List.length_map]
    refine sorted_ext ?_ ?_ ?_
    · exact exSort_sorted _ _ (by omega)
    · refine numSorted_of_map (stripNums _).symm (numSorted_of_map ?_ hsorted)
      rw [List.map_map]
      apply List.map_congr_left
      intro o _
      exact (recovered_num req o).symm
    · intro k
      rw [exSort_withNum htp, withNum_append, withNum_map_strip, withNum_map_strip, withNum_map_strip]
      by_cases hk : isClassE k = true ∨ k = 6
      · rw [kept_withNum_nil k l hk, inner_withNum req k l hk]; rfl
      · rw [inner_withNum_nil req k l hk]
        by_cases hk9 : k = 9
        · subst hk9
          have e1 : withNum 9 (keptOuter l) = [] := by
            apply withNum_nil_of
            intro o ho e
            unfold keptOuter at ho
            have := (List.mem_filter.1 ho).2
            simp [optOSCORE, e] at this
          have e2 : withNum 9 (l.map (recovered req)) = [] := by
            apply withNum_nil_of
            intro o ho e
            obtain ⟨o', h1, rfl⟩ := List.mem_map.1 ho
            rw [recovered_num] at e
            exact h9 o' h1 e
          rw [e1, e2]; rfl
        · rw [kept_withNum req k l hk hk9]; simp
  rw [hT, redelta_strip]
  exact redelta_sortedFrom (sortedFrom_recovered req hs)

/-- **C18** Splitting the options of a message into inner and outer ones (sender), wrapping the outer
ones with an OSCORE option, and merging both parts again (receiver) gives back exactly the original
option list – same numbers, values, order and deltas –, except that the Observe value of a response
comes back empty.  Needs: options in order, no OSCORE option in the input, at most one option of each
public number, at most 20 options in both parts together. -/
theorem C18_split_merge_partial (p : Pkt) (s : Split) (ct v : Bytes) (h : optionSplit p = .ok s)
    (hs : Spec.sortedFrom 0 p.opts) (h9 : ∀ o ∈ p.opts, o.num ≠ 9)
    (hnd : ((p.opts.filter (fun o => decide (PublicOption o.num ∧ o.num ≠ 6))).map Opt.num).Nodup)
    (hcount : s.u.length + s.e.length ≤ 20) :
    optionsReorder (oscorePkgGenerate p s.u ct v).opts s.e =
      .ok (p.opts.map (recovered (isRequest p))) := by
  obtain ⟨_, hseq⟩ := optionSplit_ok (sortedFrom_numsOk hs) h
  subst hseq
  simp only [redelta_length] at hcount
  rw [oscorePkg_opts redelta_outer_le]
  exact split_merge_list _ _ v hs h9 hnd hcount

/-- For requests nothing at all is lost. -/
theorem C18_split_merge_request (p : Pkt) (s : Split) (ct v : Bytes) (h : optionSplit p = .ok s)
    (hr : isRequest p = true)
    (hs : Spec.sortedFrom 0 p.opts) (h9 : ∀ o ∈ p.opts, o.num ≠ 9)
    (hnd : ((p.opts.filter (fun o => decide (PublicOption o.num ∧ o.num ≠ 6))).map Opt.num).Nodup)
    (hcount : s.u.length + s.e.length ≤ 20) :
    optionsReorder (oscorePkgGenerate p s.u ct v).opts s.e = .ok p.opts := by
  rw [C18_split_merge_partial p s ct v h hs h9 hnd hcount, hr]
  have : p.opts.map (recovered true) = p.opts := by
    rw [List.map_congr_left (g := id)]
    · exact List.map_id _
    · intro o _; unfold recovered; simp
  rw [this]

/-- a request with Uri-Host, Observe, Uri-Path and Proxy-Scheme options -/
def exMergePkt : Pkt := ⟨1, 0, 1, 7, [1], [⟨3, [104], 3⟩, ⟨3, [0], 6⟩, ⟨5, [97], 11⟩, ⟨28, [99], 39⟩], []⟩

example : ∃ s, optionSplit exMergePkt = .ok s ∧ isRequest exMergePkt = true ∧
    Spec.sortedFrom 0 exMergePkt.opts ∧ (∀ o ∈ exMergePkt.opts, o.num ≠ 9) ∧
    ((exMergePkt.opts.filter (fun o => decide (PublicOption o.num ∧ o.num ≠ 6))).map Opt.num).Nodup ∧
    s.u.length + s.e.length ≤ 20 ∧
    optionsReorder (oscorePkgGenerate exMergePkt s.u [] [9, 0]).opts s.e = .ok exMergePkt.opts :=
  ⟨_, rfl, by decide +kernel, by decide +kernel, by decide +kernel, by decide +kernel, by decide +kernel,
    by decide +kernel⟩

/-- a request with Uri-Path "x" and two Proxy-Uri options -/
def exDupPkt : Pkt := ⟨1, 0, 1, 7, [1], [⟨11, [120], 11⟩, ⟨24, [1], 35⟩, ⟨0, [2], 35⟩], []⟩

/-- **C18 does not hold without the "at most one option of each public number" hypothesis**: two
Proxy-Uri options come back in the opposite order when a smaller inner option follows them in the
array (the exchange sort of `options_reorder` is not stable). -/
theorem C18_false_duplicate_outer :
    ∃ p s, optionSplit p = .ok s ∧ isRequest p = true ∧ Spec.sortedFrom 0 p.opts ∧
      (∀ o ∈ p.opts, o.num ≠ 9) ∧
      ∃ l, optionsReorder (oscorePkgGenerate p s.u [] [9, 0]).opts s.e = .ok l ∧
        l.map Opt.value = [[120], [2], [1]] ∧ p.opts.map Opt.value = [[120], [1], [2]] :=
  ⟨exDupPkt, splitGo true 0 0 0 0 exDupPkt.opts, by rfl, by decide +kernel, by decide +kernel,
    by decide +kernel,
    (optionsReorder (oscorePkgGenerate exDupPkt (splitGo true 0 0 0 0 exDupPkt.opts).u [] [9, 0]).opts
      (splitGo true 0 0 0 0 exDupPkt.opts).e).getD [],
    R.eq_getD _ (by decide +kernel), by decide +kernel, by decide +kernel⟩

end Verif
