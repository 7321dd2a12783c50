import Verif.Lemmas.CoapLemmas
import Verif.Lemmas.UnprotectLemmas
namespace Verif

/-- Options that go to the plaintext: class E options, and a copy of Observe (empty in responses). -/
def innerOpts (req : Bool) (opts : List Opt) : List Opt :=
  opts.filterMap (fun o =>
    if o.num = optOBSERVE then some { o with value := if req then o.value else [] }
    else if isClassE o.num then some o else none)

/-- Options that stay outside. -/
def outerOpts (opts : List Opt) : List Opt :=
  opts.filter (fun o => o.num == optOBSERVE || !isClassE o.num)

/-- the length of the inner options as counted from the original deltas -/
def eBytes (req : Bool) : List Opt → Nat
  | [] => 0
  | o :: os =>
    (if o.num = optOBSERVE then
      (if req then 1 + (optExtraBytes o.delta + optExtraBytes o.len) + o.len else 1)
    else if isClassE o.num then 1 + (optExtraBytes o.delta + optExtraBytes o.len) + o.len
    else 0) + eBytes req os

theorem splitGo_eq {req : Bool} {opts : List Opt} {nr eSum uSum eLen : Nat}
    (hn : numsOk nr opts) (hE : eSum < 65536) (hU : uSum < 65536) (hL : eLen < 65536) :
    splitGo req nr eSum uSum eLen opts =
      { e := redelta eSum (innerOpts req opts), u := redelta uSum (outerOpts opts),
        eLen := (eLen + eBytes req opts) % 65536 } := by
  induction opts generalizing nr eSum uSum eLen with
  | nil => simp [splitGo, innerOpts, outerOpts, redelta, eBytes]; omega
  | cons o os ih =>
    obtain ⟨h1, h2⟩ := hn
    have hlt : o.num < 65536 := by rw [h1]; omega
    have hsum : ∀ s, s < 65536 → (s + (o.num + 65536 - s) % 65536) % 65536 = o.num := by
      intro s hs; omega
    unfold splitGo
    simp only [← h1]
    by_cases ho : o.num = optOBSERVE
    · simp only [if_pos ho]
      rw [hsum eSum hE, hsum uSum hU]
      rw [ih h2 hlt hlt (by split <;> exact Nat.mod_lt _ (by omega))]
      simp only [innerOpts, outerOpts, List.filterMap_cons, List.filter_cons, if_pos ho, eBytes,
        redelta]
      have : (o.num == optOBSERVE || !isClassE o.num) = true := by simp [ho]
      rw [if_pos this]
      simp only [redelta]
      congr 1
      split <;> omega
    · simp only [if_neg ho]
      by_cases hc : isClassE o.num = true
      · simp only [if_pos hc]
        rw [hsum eSum hE]
        rw [ih h2 hlt hU (Nat.mod_lt _ (by omega))]
        have : ¬ (o.num == optOBSERVE || !isClassE o.num) = true := by simp [ho, hc]
        simp only [innerOpts, outerOpts, List.filterMap_cons, List.filter_cons, if_neg ho, if_pos hc,
          eBytes, redelta, if_neg this]
        congr 1
        omega
      · simp only [if_neg hc]
        rw [hsum uSum hU]
        rw [ih h2 hE hlt hL]
        have : (o.num == optOBSERVE || !isClassE o.num) = true := by simp [hc]
        simp only [innerOpts, outerOpts, List.filterMap_cons, List.filter_cons, if_neg ho, if_neg hc,
          eBytes, redelta, if_pos this]
        congr 1
        omega

theorem optionSplit_ok {p : Pkt} {s : Split} (hn : numsOk 0 p.opts) (h : optionSplit p = .ok s) :
    p.opts.length ≤ 20 ∧ s = ⟨redelta 0 (innerOpts (isRequest p) p.opts),
      redelta 0 (outerOpts p.opts), eBytes (isRequest p) p.opts % 65536⟩ := by
  unfold optionSplit at h
  split at h
  · cases h
  · rename_i hl
    have := R.ok.inj h
    rw [← this, splitGo_eq hn (by omega) (by omega) (by omega)]
    unfold maxOptionCount at hl
    exact ⟨by omega, by simp⟩

theorem redelta_num (prev : Nat) (l : List Opt) :
    (redelta prev l).map (fun o => (o.num, o.value)) = l.map (fun o => (o.num, o.value)) := by
  induction l generalizing prev with
  | nil => rfl
  | cons o os ih => simp [redelta, ih]

theorem mem_redelta {prev : Nat} {l : List Opt} {o : Opt} (h : o ∈ redelta prev l) :
    ∃ o' ∈ l, o'.num = o.num ∧ o'.value = o.value := by
  have : (o.num, o.value) ∈ (redelta prev l).map (fun o => (o.num, o.value)) :=
    List.mem_map.2 ⟨o, h, rfl⟩
  rw [redelta_num] at this
  obtain ⟨o', h1, h2⟩ := List.mem_map.1 this
  simp only [Prod.mk.injEq] at h2
  exact ⟨o', h1, h2.1, h2.2⟩

theorem redelta_length (prev : Nat) (l : List Opt) : (redelta prev l).length = l.length := by
  induction l generalizing prev with
  | nil => rfl
  | cons o os ih => simp [redelta, ih]

end Verif
