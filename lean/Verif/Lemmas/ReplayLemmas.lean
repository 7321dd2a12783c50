import Verif.Model.Replay
import Verif.Spec.ReplaySpec
namespace Verif
open Spec

/-- order of window entries: strictly increasing, zeros (unused) first -/
def wlt (a b : Nat) : Prop := a < b ∨ (a = 0 ∧ b = 0)

/-- sorted insertion -/
def ins (n : Nat) : List Nat → List Nat
  | [] => [n]
  | b :: l => if n < b then n :: b :: l else b :: ins n l

theorem mem_ins {x n : Nat} {l : List Nat} : x ∈ ins n l ↔ x = n ∨ x ∈ l := by
  induction l with
  | nil => simp [ins]
  | cons b l ih =>
    unfold ins; split
    · simp
    · simp [ih]; grind

theorem length_ins {n : Nat} {l : List Nat} : (ins n l).length = l.length + 1 := by
  induction l with
  | nil => simp [ins]
  | cons b l ih => unfold ins; split <;> simp [ih]

theorem pairwise_ins {n : Nat} {l : List Nat} (h : l.Pairwise wlt) (hn : n ∉ l) (h0 : n ≠ 0) :
    (ins n l).Pairwise wlt := by
  induction l with
  | nil => simp [ins]
  | cons b l ih =>
    rw [List.pairwise_cons] at h
    unfold ins; split
    · rename_i hb
      rw [List.pairwise_cons, List.pairwise_cons]
      refine ⟨?_, h⟩
      intro y hy
      rcases List.mem_cons.1 hy with rfl | hy
      · exact Or.inl hb
      · have := h.1 y hy; unfold wlt at *; omega
    · rename_i hb
      rw [List.pairwise_cons]
      refine ⟨?_, ih h.2 (fun hh => hn (List.mem_cons_of_mem _ hh))⟩
      intro y hy
      rw [mem_ins] at hy
      have hne : n ≠ b := fun hh => hn (by simp [hh])
      rcases hy with rfl | hy
      · unfold wlt; omega
      · exact h.1 y hy

theorem windowInsert_eq {a n : Nat} {l : List Nat} (h : (a :: l).Pairwise wlt) (ha : a < n)
    (hn : n ∉ l) : windowInsert (a :: l) n (insertIndex (a :: l) n) = ins n l := by
  induction l generalizing a with
  | nil => simp [windowInsert, insertIndex, ins]
  | cons b l ih =>
    have hb : n ≠ b := fun hh => hn (by simp [hh])
    unfold insertIndex ins
    by_cases hbn : n < b
    · rw [if_pos ⟨ha, hbn⟩, if_pos hbn]; simp [windowInsert]
    · rw [if_neg (by omega), if_neg hbn]
      have := ih (List.pairwise_cons.1 h).2 (by omega) (fun hh => hn (List.mem_cons_of_mem _ hh))
      rw [← this]
      simp [windowInsert]

/-- Relation between a window of size `W` and the list of all accepted numbers. -/
structure WInv (W : Nat) (w : ReplayWindow) (seen : List Nat) : Prop where
  pos : 0 < W
  len : w.window.length = W
  sorted : w.window.Pairwise wlt
  sub : ∀ x ∈ w.window, x ≠ 0 → x ∈ seen
  cov : ∀ s ∈ seen, s ≠ 0 → s ∈ w.window ∨ s < wget w.window 0
  zero : w.zeroReceived = true ↔ 0 ∈ seen
  nodup : seen.Nodup

theorem WInv.init {W : Nat} (h : 0 < W) : WInv W (ReplayWindow.init W) [] where
  pos := h
  len := by simp [ReplayWindow.init]
  sorted := by
    simp only [ReplayWindow.init]
    rw [List.pairwise_replicate]; right; exact Or.inr ⟨rfl, rfl⟩
  sub := by
    intro x hx h0
    simp [ReplayWindow.init] at hx
    exact absurd hx.2 h0
  cov := by simp
  zero := by simp [ReplayWindow.init]
  nodup := List.nodup_nil

theorem le_last {l : List Nat} (hs : l.Pairwise wlt) : ∀ x ∈ l, x ≤ wget l (l.length - 1) := by
  induction l with
  | nil => simp
  | cons a l ih =>
    rw [List.pairwise_cons] at hs
    intro x hx
    cases l with
    | nil => simp at hx; simp [wget, hx]
    | cons b l =>
      have e : wget (a :: b :: l) ((a :: b :: l).length - 1) = wget (b :: l) ((b :: l).length - 1) := by
        simp [wget]
      rw [e]
      rcases List.mem_cons.1 hx with rfl | hx
      · have := ih hs.2 b (by simp)
        have := hs.1 b (by simp)
        unfold wlt at this; omega
      · exact ih hs.2 x hx

theorem head_le {a : Nat} {l : List Nat} (hs : (a :: l).Pairwise wlt) : ∀ x ∈ a :: l, a ≤ x := by
  rw [List.pairwise_cons] at hs
  intro x hx
  rcases List.mem_cons.1 hx with rfl | hx
  · omega
  · have := hs.1 x hx; unfold wlt at this; omega

theorem nodup_of_pos {l : List Nat} (hs : l.Pairwise wlt) (h : ∀ x ∈ l, x ≠ 0) : l.Nodup := by
  refine List.Pairwise.imp_of_mem ?_ hs
  intro a b ha hb hab
  have := h a ha
  unfold wlt at hab; omega

theorem exists_cons {W : Nat} {w : ReplayWindow} {seen} (h : WInv W w seen) :
    ∃ a l, w.window = a :: l ∧ l.length + 1 = W := by
  have := h.len; have := h.pos
  cases hw : w.window with
  | nil => simp [hw] at *; omega
  | cons a l => exact ⟨a, l, rfl, by simp [hw] at *; omega⟩

theorem nodup_length_le {l m : List Nat} (hn : l.Nodup) (h : ∀ x ∈ l, x ∈ m) :
    l.length ≤ m.length := by
  induction l generalizing m with
  | nil => simp
  | cons a l ih =>
    rw [List.nodup_cons] at hn
    have ha : a ∈ m := h a (by simp)
    have := ih hn.2 (m := m.erase a) (by
      intro x hx
      have hxa : x ≠ a := fun hh => hn.1 (hh ▸ hx)
      exact (List.mem_erase_of_ne hxa).2 (h x (List.mem_cons_of_mem _ hx)))
    rw [List.length_erase_of_mem ha] at this
    have := List.length_pos_of_mem ha
    simp; omega

theorem valid_nonzero {w : ReplayWindow} {a : Nat} {l : List Nat} {n : Nat}
    (hw : w.window = a :: l) (hs : w.window.Pairwise wlt) (h0 : n ≠ 0) :
    w.valid n = true ↔ a < n ∧ n ∉ a :: l := by
  unfold ReplayWindow.valid
  rw [if_neg h0]
  have hlast := le_last hs
  rw [hw] at hlast hs ⊢
  have hhead : wget (a :: l) 0 = a := by simp [wget]
  rw [hhead]
  split
  · rename_i hgt
    simp only [true_iff]
    refine ⟨by have := hlast a (by simp); omega, fun hm => ?_⟩
    have := hlast n hm
    omega
  · split
    · rename_i hlt
      simp only [Bool.false_eq_true, false_iff, not_and]
      omega
    · rename_i hge
      simp only [Bool.not_eq_eq_eq_not, Bool.not_true, List.any_eq_false, beq_iff_eq]
      constructor
      · intro h
        have hm : n ∉ a :: l := fun hm => h n hm rfl
        refine ⟨?_, hm⟩
        have : n ≠ a := fun hh => hm (by simp [hh])
        omega
      · intro h x hx hh
        exact h.2 (hh ▸ hx)

theorem valid_iff {W : Nat} {w : ReplayWindow} {seen : List Nat} (h : WInv W w seen) (n : Nat) :
    w.valid n = true ↔ accepts W seen n := by
  obtain ⟨a, l, hw, hl⟩ := exists_cons h
  have hs := h.sorted
  have hcov := h.cov
  have hsub := h.sub
  rw [hw] at hs hcov hsub
  have hhead : wget (a :: l) 0 = a := by simp [wget]
  rw [hhead] at hcov
  unfold accepts
  by_cases h0 : n = 0
  · subst h0
    unfold ReplayWindow.valid
    simp only [if_true, hw, hhead, Bool.and_eq_true, Bool.not_eq_eq_eq_not, Bool.not_true, beq_iff_eq]
    have hz : w.zeroReceived = false ↔ 0 ∉ seen := by
      rw [← h.zero]; simp
    rw [hz]
    apply and_congr_right
    intro hz'
    constructor
    · intro ha
      subst ha
      have : (seen.filter (fun s => 0 < s)).length ≤ l.length := by
        apply nodup_length_le (h.nodup.filter _)
        intro x hx
        rw [List.mem_filter] at hx
        have hx0 : x ≠ 0 := by simp at hx; omega
        rcases hcov x hx.1 hx0 with hh | hh
        · rcases List.mem_cons.1 hh with hh | hh
          · exact absurd hh hx0
          · exact hh
        · omega
      omega
    · intro hlt
      apply Decidable.byContradiction
      intro ha
      have hpos : ∀ x ∈ a :: l, x ≠ 0 := by
        intro x hx; have := head_le hs x hx; omega
      have : (a :: l).length ≤ (seen.filter (fun s => 0 < s)).length := by
        apply nodup_length_le (nodup_of_pos hs hpos)
        intro x hx
        rw [List.mem_filter]
        have := hpos x hx
        exact ⟨hsub x hx this, by simp; omega⟩
      simp at this
      omega
  · rw [valid_nonzero hw h.sorted h0]
    constructor
    · rintro ⟨han, hnm⟩
      have hns : n ∉ seen := by
        intro hm
        rcases hcov n hm h0 with hh | hh
        · exact hnm hh
        · omega
      refine ⟨hns, ?_⟩
      have : (seen.filter (fun s => n < s)).length ≤ l.length := by
        apply nodup_length_le (h.nodup.filter _)
        intro x hx
        rw [List.mem_filter] at hx
        have hxn : n < x := by simpa using hx.2
        rcases hcov x hx.1 (by omega) with hh | hh
        · rcases List.mem_cons.1 hh with hh | hh
          · omega
          · exact hh
        · omega
      omega
    · rintro ⟨hns, hlt⟩
      have hnm : n ∉ a :: l := fun hm => hns (hsub n hm h0)
      refine ⟨?_, hnm⟩
      apply Decidable.byContradiction
      intro ha
      have hne : n ≠ a := fun hh => hnm (by simp [hh])
      have hpos : ∀ x ∈ a :: l, x ≠ 0 := by
        intro x hx; have := head_le hs x hx; omega
      have : (a :: l).length ≤ (seen.filter (fun s => n < s)).length := by
        apply nodup_length_le (nodup_of_pos hs hpos)
        intro x hx
        rw [List.mem_filter]
        have := hpos x hx
        have := head_le hs x hx
        exact ⟨hsub x hx (hpos x hx), by simp; omega⟩
      simp at this
      omega

theorem WInv.update {W : Nat} {w : ReplayWindow} {seen : List Nat} (h : WInv W w seen) {n : Nat}
    (hv : w.valid n = true) : WInv W (w.update n).2 (n :: seen) := by
  have hacc := (valid_iff h n).1 hv
  obtain ⟨a, l, hw, hl⟩ := exists_cons h
  unfold ReplayWindow.update
  rw [if_neg (by simp [hv])]
  by_cases h0 : n = 0
  · subst h0
    simp only [if_true]
    exact {
      pos := h.pos, len := h.len, sorted := h.sorted
      sub := fun x hx hx0 => List.mem_cons_of_mem _ (h.sub x hx hx0)
      cov := by
        intro s hs hs0
        rcases List.mem_cons.1 hs with rfl | hs
        · exact absurd rfl hs0
        · exact h.cov s hs hs0
      zero := by simp
      nodup := List.nodup_cons.2 ⟨hacc.1, h.nodup⟩ }
  · rw [if_neg h0]
    obtain ⟨han, hnm⟩ := (valid_nonzero hw h.sorted h0).1 hv
    have hs := h.sorted
    have hcov := h.cov
    have hsub := h.sub
    rw [hw] at hs hcov hsub
    have hnl : n ∉ l := fun hh => hnm (List.mem_cons_of_mem _ hh)
    have heq := windowInsert_eq hs han hnl
    have hhead : wget (a :: l) 0 = a := by simp [wget]
    simp only [hw, heq]
    have hp := pairwise_ins (List.pairwise_cons.1 hs).2 hnl h0
    exact {
      pos := h.pos
      len := by simp [length_ins]; omega
      sorted := hp
      sub := by
        intro x hx hx0
        rw [mem_ins] at hx
        rcases hx with rfl | hx
        · simp
        · exact List.mem_cons_of_mem _ (hsub x (List.mem_cons_of_mem _ hx) hx0)
      cov := by
        intro s hs' hs0
        rcases List.mem_cons.1 hs' with rfl | hs'
        · left; rw [mem_ins]; simp
        · rcases hcov s hs' hs0 with hh | hh
          · rcases List.mem_cons.1 hh with rfl | hh
            · right
              -- the dropped head is below the new head
              cases l with
              | nil => simp [ins, wget]; omega
              | cons b l =>
                have hb := (List.pairwise_cons.1 hs).1 b (by simp)
                unfold ins; split
                · simp [wget]; omega
                · simp [wget]; unfold wlt at hb; omega
            · left; rw [mem_ins]; right; exact hh
          · right
            rw [hhead] at hh
            cases l with
            | nil => simp [ins, wget]; omega
            | cons b l =>
              have hb := (List.pairwise_cons.1 hs).1 b (by simp)
              unfold ins; split
              · simp [wget]; omega
              · simp [wget]; unfold wlt at hb; omega
      zero := by
        simp only [List.mem_cons]
        rw [h.zero]
        constructor
        · exact Or.inr
        · rintro (hh | hh)
          · exact absurd hh.symm h0
          · exact hh
      nodup := List.nodup_cons.2 ⟨hacc.1, h.nodup⟩ }

theorem mem_reinitList {n cur x : Nat} :
    x ∈ reinitList n cur → x ≤ cur := by
  induction n generalizing cur with
  | zero => simp [reinitList]
  | succ n ih =>
    unfold reinitList
    simp only [List.mem_append, List.mem_singleton]
    rintro (h | rfl)
    · have := ih h; split at this <;> omega
    · omega

theorem length_reinitList {n cur : Nat} : (reinitList n cur).length = n := by
  induction n generalizing cur with
  | zero => simp [reinitList]
  | succ n ih => simp [reinitList, ih]

theorem pairwise_reinitList {n cur : Nat} : (reinitList n cur).Pairwise wlt := by
  induction n generalizing cur with
  | zero => simp [reinitList]
  | succ n ih =>
    unfold reinitList
    rw [List.pairwise_append]
    refine ⟨ih, by simp, ?_⟩
    intro a ha b hb
    have := mem_reinitList ha
    simp at hb
    subst hb
    unfold wlt
    split at this <;> omega

theorem reinit_cov {n cur s : Nat} (hn : 0 < n) (hs : s ≤ cur) :
    s ∈ reinitList n cur ∨ s < wget (reinitList n cur) 0 := by
  induction n generalizing cur with
  | zero => omega
  | succ n ih =>
    unfold reinitList
    by_cases hc : s = cur
    · left; simp [hc]
    · cases n with
      | zero => right; simp [reinitList, wget]; omega
      | succ n =>
        rw [if_pos (by omega)]
        rcases ih (by omega) (cur := cur - 1) (by omega) with h | h
        · left; simp [h]
        · right
          have hl : 0 < (reinitList (n+1) (cur-1)).length := by rw [length_reinitList]; omega
          have : wget (reinitList (n+1) (cur-1) ++ [cur]) 0 = wget (reinitList (n+1) (cur-1)) 0 := by
            unfold wget
            cases hr : reinitList (n+1) (cur-1) with
            | nil => simp [hr] at hl
            | cons x xs => simp
          rw [this]; exact h

/-- after re-initialisation at `cur` the window stands for "everything up to `cur` was seen" -/
theorem WInv.reinit {W : Nat} {w : ReplayWindow} (hW : 0 < W) (hl : w.window.length = W) (cur : Nat) :
    WInv W (w.reinit cur) (List.range (cur + 1)) where
  pos := hW
  len := by simp [ReplayWindow.reinit, length_reinitList, hl]
  sorted := by simp only [ReplayWindow.reinit]; exact pairwise_reinitList
  sub := by
    intro x hx _
    simp only [ReplayWindow.reinit] at hx
    have := mem_reinitList hx
    simp; omega
  cov := by
    intro s hs _
    simp only [ReplayWindow.reinit]
    rw [hl]
    simp at hs
    exact reinit_cov hW (by omega)
  zero := by simp [ReplayWindow.reinit]
  nodup := List.nodup_range

end Verif
