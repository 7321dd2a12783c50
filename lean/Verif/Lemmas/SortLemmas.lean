import Verif.Lemmas.OuterLemmas
/-
The exchange sort of `options_reorder` (oscore2coap.c:172-188).
-/
namespace Verif

/-- non-decreasing option numbers -/
def NumSorted (l : List Opt) : Prop := l.Pairwise (fun a b => a.num ≤ b.num)

theorem exPass_perm (x : Opt) (l : List Opt) : ((exPass x l).1 :: (exPass x l).2).Perm (x :: l) := by
  induction l generalizing x with
  | nil => exact .refl _
  | cons y ys ih =>
    unfold exPass
    split
    · have h := ih y
      exact ((List.Perm.swap _ _ _).trans (h.cons x))
    · have h := ih x
      exact (List.Perm.swap _ _ _).trans ((h.cons y).trans (List.Perm.swap _ _ _))

theorem exPass_min (x : Opt) (l : List Opt) :
    (exPass x l).1.num ≤ x.num ∧ ∀ y ∈ (exPass x l).2, (exPass x l).1.num ≤ y.num := by
  induction l generalizing x with
  | nil => exact ⟨Nat.le_refl _, by simp [exPass]⟩
  | cons y ys ih =>
    unfold exPass
    split
    · rename_i hlt
      have h := ih y
      refine ⟨by simp only; omega, ?_⟩
      intro z hz
      rcases List.mem_cons.1 hz with rfl | hz
      · simp only; omega
      · exact h.2 z hz
    · rename_i hle
      have h := ih x
      refine ⟨h.1, ?_⟩
      intro z hz
      rcases List.mem_cons.1 hz with rfl | hz
      · simp only; omega
      · exact h.2 z hz

theorem exPass_length (x : Opt) (l : List Opt) : (exPass x l).2.length = l.length := by
  have := (exPass_perm x l).length_eq
  simpa using this

theorem exSort_perm (n : Nat) (l : List Opt) : (exSort n l).Perm l := by
  induction n generalizing l with
  | zero => exact .refl _
  | succ n ih =>
    cases l with
    | nil => exact .refl _
    | cons x xs => exact ((ih _).cons _).trans (exPass_perm x xs)

theorem exSort_sorted (n : Nat) (l : List Opt) (h : l.length ≤ n) : NumSorted (exSort n l) := by
  induction n generalizing l with
  | zero =>
    have : l = [] := List.length_eq_zero_iff.1 (by omega)
    subst this; exact .nil
  | succ n ih =>
    cases l with
    | nil => exact .nil
    | cons x xs =>
      unfold exSort
      simp only
      unfold NumSorted
      rw [List.pairwise_cons]
      refine ⟨?_, ih _ (by rw [exPass_length]; simpa using h)⟩
      intro y hy
      exact (exPass_min x xs).2 y ((exSort_perm n _).subset hy)

theorem exPass_append (x : Opt) (a b : List Opt) :
    exPass x (a ++ b) = ((exPass (exPass x a).1 b).1, (exPass x a).2 ++ (exPass (exPass x a).1 b).2) := by
  induction a generalizing x with
  | nil => rfl
  | cons y ys ih =>
    simp only [List.cons_append]
    simp only [exPass]
    split
    · simp only [ih]; simp [exPass]
    · simp only [ih]; simp [exPass]

theorem exPass_sorted {x : Opt} {b : List Opt} (h : ∀ y ∈ b, x.num ≤ y.num) : exPass x b = (x, b) := by
  induction b with
  | nil => rfl
  | cons y ys ih =>
    unfold exPass
    have := h y (by simp)
    rw [if_neg (by omega), ih (fun z hz => h z (List.mem_cons_of_mem _ hz))]

/-- options with one number -/
def withNum (n : Nat) (l : List Opt) : List Opt := l.filter (fun o => o.num == n)

theorem withNum_append (n : Nat) (a b : List Opt) : withNum n (a ++ b) = withNum n a ++ withNum n b :=
  List.filter_append ..
theorem withNum_cons (n : Nat) (o : Opt) (l : List Opt) :
    withNum n (o :: l) = (if o.num = n then o :: withNum n l else withNum n l) := by
  unfold withNum; rw [List.filter_cons]; simp
theorem withNum_nil_of {n : Nat} {l : List Opt} (h : ∀ o ∈ l, o.num ≠ n) : withNum n l = [] := by
  unfold withNum; rw [List.filter_eq_nil_iff]; intro o ho; simpa using h o ho

theorem withNum_nodup {n : Nat} {l : List Opt} (h : (l.map Opt.num).Nodup) : (withNum n l).length ≤ 1 := by
  induction l with
  | nil => simp [withNum]
  | cons o l ih =>
    rw [List.map_cons, List.nodup_cons] at h
    rw [withNum_cons]
    split
    · rename_i he
      rw [withNum_nil_of]
      · simp
      · intro x hx hxe
        exact h.1 (List.mem_map.2 ⟨x, hx, by rw [hxe, he]⟩)
    · exact ih h.2

theorem perm_short {l m : List Opt} (h : l.Perm m) (hl : l.length ≤ 1) : l = m := by
  match l, m, h, hl with
  | [], m, h, _ => exact h.nil_eq
  | [a], m, h, _ => exact (List.perm_singleton.1 h.symm).symm

/-- first part with distinct numbers, second part sorted, no common number -/
structure TwoPart (a b : List Opt) : Prop where
  nodup : (a.map Opt.num).Nodup
  sorted : NumSorted b
  disj : ∀ x ∈ a, ∀ y ∈ b, x.num ≠ y.num

theorem exPass_twoPart {x : Opt} {xs a b : List Opt} (hl : x :: xs = a ++ b) (h : TwoPart a b) :
    ∃ a' b', (exPass x xs).2 = a' ++ b' ∧ TwoPart a' b' ∧
      ∀ n, withNum n ((exPass x xs).1 :: (exPass x xs).2) = withNum n (x :: xs) := by
  cases a with
  | nil =>
    simp only [List.nil_append] at hl
    subst hl
    have hs := List.pairwise_cons.1 h.sorted
    rw [exPass_sorted hs.1]
    exact ⟨[], xs, rfl, ⟨List.nodup_nil, hs.2, by simp⟩, fun n => rfl⟩
  | cons a0 a =>
    simp only [List.cons_append, List.cons.injEq] at hl
    obtain ⟨rfl, rfl⟩ := hl
    rw [exPass_append]
    generalize hm : (exPass x a).1 = m
    generalize hA : (exPass x a).2 = A
    have hperm : (m :: A).Perm (x :: a) := by rw [← hm, ← hA]; exact exPass_perm x a
    have hnd : ((m :: A).map Opt.num).Nodup := (hperm.map Opt.num).nodup_iff.2 h.nodup
    have hdj : ∀ z ∈ m :: A, ∀ y ∈ b, z.num ≠ y.num := fun z hz y hy => h.disj z (hperm.subset hz) y hy
    have hwn : ∀ n, withNum n (m :: A) = withNum n (x :: a) := by
      intro n
      exact perm_short (hperm.filter _) (withNum_nodup hnd)
    cases b with
    | nil =>
      refine ⟨A, [], by simp [exPass], ⟨(List.nodup_cons.1 hnd).2, .nil, by simp⟩, ?_⟩
      intro n
      simpa [exPass] using hwn n
    | cons b0 b =>
      have hs := List.pairwise_cons.1 h.sorted
      by_cases hlt : m.num > b0.num
      · have e : exPass m (b0 :: b) = (b0, m :: b) := by
          unfold exPass
          rw [if_pos hlt, exPass_sorted hs.1]
        rw [e]
        refine ⟨A ++ [m], b, by simp, ⟨?_, hs.2, ?_⟩, ?_⟩
        · have : (A ++ [m]).Perm (m :: A) := List.perm_append_singleton m A
          exact (this.map Opt.num).nodup_iff.2 hnd
        · intro z hz y hy
          have : z ∈ m :: A := (List.perm_append_singleton m A).subset hz
          exact hdj z this y (List.mem_cons_of_mem _ hy)
        · intro n
          simp only
          rw [withNum_cons, withNum_append, withNum_cons n m]
          have hr : withNum n (x :: (a ++ b0 :: b)) = withNum n (m :: A) ++ withNum n (b0 :: b) := by
            rw [hwn, ← withNum_append]; rfl
          rw [hr]
          by_cases hb : b0.num = n
          · have hn : withNum n (m :: A) = [] := withNum_nil_of (fun z hz => by
              have := hdj z hz b0 (by simp); rw [hb] at this; exact this)
            have hmn : m.num ≠ n := by have := hdj m (by simp) b0 (by simp); rw [hb] at this; exact this
            have hAn : withNum n A = [] := withNum_nil_of (fun z hz => by
              have := hdj z (List.mem_cons_of_mem _ hz) b0 (by simp); rw [hb] at this; exact this)
            rw [hn, if_pos hb, if_neg hmn, hAn, withNum_cons, if_pos hb]
            rfl
          · rw [if_neg hb, withNum_cons n b0, if_neg hb, withNum_cons n m]
            by_cases hmn : m.num = n
            · have hAn : withNum n A = [] := withNum_nil_of (fun z hz hzn =>
                (List.nodup_cons.1 hnd).1 (List.mem_map.2 ⟨z, hz, by rw [hzn, hmn]⟩))
              simp [hmn, hAn]
            · simp [hmn]
      · have hall : ∀ y ∈ b0 :: b, m.num ≤ y.num := by
          intro y hy
          rcases List.mem_cons.1 hy with rfl | hy
          · omega
          · have := hs.1 y hy; omega
        rw [exPass_sorted hall]
        refine ⟨A, b0 :: b, rfl, ⟨(List.nodup_cons.1 hnd).2, h.sorted, ?_⟩, ?_⟩
        · intro z hz y hy; exact hdj z (List.mem_cons_of_mem _ hz) y hy
        · intro n
          have := hwn n
          have e1 : withNum n (m :: (A ++ b0 :: b)) = withNum n (m :: A) ++ withNum n (b0 :: b) := by
            rw [← withNum_append]; rfl
          have e2 : withNum n (x :: (a ++ b0 :: b)) = withNum n (x :: a) ++ withNum n (b0 :: b) := by
            rw [← withNum_append]; rfl
          rw [e1, e2, this]

theorem exSort_withNum {n : Nat} {a b : List Opt} (h : TwoPart a b) (k : Nat) :
    withNum k (exSort n (a ++ b)) = withNum k (a ++ b) := by
  induction n generalizing a b with
  | zero => rfl
  | succ n ih =>
    generalize hl : a ++ b = l
    cases l with
    | nil => rfl
    | cons x xs =>
      obtain ⟨a', b', h1, h2, h3⟩ := exPass_twoPart hl.symm h
      unfold exSort
      simp only
      rw [← h3 k, withNum_cons, withNum_cons]
      rw [h1, ih h2]

theorem sorted_ext {l m : List Opt} (hl : NumSorted l) (hm : NumSorted m)
    (h : ∀ n, withNum n l = withNum n m) : l = m := by
  induction l generalizing m with
  | nil =>
    cases m with
    | nil => rfl
    | cons b m => have := h b.num; rw [withNum_cons, if_pos rfl] at this; cases this
  | cons a l ih =>
    cases m with
    | nil => have := h a.num; rw [withNum_cons, if_pos rfl] at this; cases this
    | cons b m =>
      have ha := List.pairwise_cons.1 hl
      have hb := List.pairwise_cons.1 hm
      have hab : a.num = b.num := by
        have h1 := h a.num
        have h2 := h b.num
        rw [withNum_cons, if_pos rfl] at h1
        have m1 : a ∈ withNum a.num (b :: m) := by rw [← h1]; simp
        have m2 : b ∈ withNum b.num (a :: l) := by rw [h2, withNum_cons, if_pos rfl]; simp
        have m1' := (List.mem_filter.1 m1).1
        have m2' := (List.mem_filter.1 m2).1
        rcases List.mem_cons.1 m1' with e | e1
        · rw [e]
        · rcases List.mem_cons.1 m2' with e | e2
          · rw [e]
          · have := hb.1 a e1
            have := ha.1 b e2
            omega
      have hh := h a.num
      rw [withNum_cons, withNum_cons, if_pos rfl, if_pos hab.symm] at hh
      obtain ⟨rfl, _⟩ := List.cons.inj hh
      rw [ih ha.2 hb.2]
      intro n
      have := h n
      rw [withNum_cons, withNum_cons] at this
      split at this
      · exact (List.cons.inj this).2
      · exact this

/-! deltas do not matter for sorting -/

/-- forget the delta -/
def strip (o : Opt) : Opt := { o with delta := 0 }

theorem exPass_strip (x : Opt) (l : List Opt) :
    exPass (strip x) (l.map strip) = (strip (exPass x l).1, (exPass x l).2.map strip) := by
  induction l generalizing x with
  | nil => rfl
  | cons y ys ih =>
    simp only [List.map_cons]
    simp only [exPass]
    have : ((strip x).num > (strip y).num) = (x.num > y.num) := rfl
    simp only [this]
    split
    · simp [ih]
    · simp [ih]

theorem exSort_strip (n : Nat) (l : List Opt) : exSort n (l.map strip) = (exSort n l).map strip := by
  induction n generalizing l with
  | zero => rfl
  | succ n ih =>
    cases l with
    | nil => rfl
    | cons x xs => simp only [List.map_cons, exSort, exPass_strip, ih]

theorem redelta_strip (prev : Nat) (l : List Opt) : redelta prev (l.map strip) = redelta prev l := by
  induction l generalizing prev with
  | nil => rfl
  | cons o l ih =>
    simp only [List.map_cons, redelta]
    have : (strip o).num = o.num := rfl
    rw [this, ih]
    rfl

theorem strip_redelta (prev : Nat) (l : List Opt) : (redelta prev l).map strip = l.map strip := by
  induction l generalizing prev with
  | nil => rfl
  | cons o l ih => simp only [redelta, List.map_cons, ih]; rfl

end Verif
