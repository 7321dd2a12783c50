import Verif.Model.PivThreads
import Verif.Props.PivNonce
/-
C72: calls for different security contexts do not influence each other.
-/
namespace Verif

/-- what thread `i` has done so far is right, given that nobody else wrote to the array -/
def PivThread.Right (ssn : Nat) (tmp : Bytes) : PivThread → Prop
  | .fill s len => pivDigitsLE 5 ssn = tmp.take len ++ pivDigitsLE (5 - len) s ∧ len ≤ 5 ∧ s < 256 ^ (5 - len)
  | .copy len out => pivDigitsLE 5 ssn = tmp.take len ∧ 0 < len ∧ len ≤ 5 ∧ out.length ≤ len ∧
      out = (pivDigitsLE 5 ssn).reverse.take out.length
  | .done out => ssn2piv ssn = .ok out

theorem pivDigitsLE_zero (k : Nat) : pivDigitsLE k 0 = [] := by cases k <;> rfl

theorem PivThread.step_right {ssn : Nat} {tmp : Bytes} {t : PivThread} (hs : ssn ≤ maxPivValue)
    (hl : tmp.length = 5) (h : t.Right ssn tmp) :
    (t.step tmp).1.Right ssn (t.step tmp).2 ∧ (t.step tmp).2.length = 5 := by
  cases t with
  | done out => exact ⟨h, hl⟩
  | fill s len =>
    obtain ⟨h1, h2, h3⟩ := h
    unfold PivThread.step; dsimp only
    by_cases hp : s > 0
    · rw [if_pos hp]
      have hlen : len < 5 := by
        rcases Nat.lt_or_ge len 5 with h | h
        · exact h
        · have : 5 - len = 0 := by omega
          rw [this] at h3; simp at h3; omega
      obtain ⟨k, hk⟩ : ∃ k, 5 - len = k + 1 := ⟨4 - len, by omega⟩
      refine ⟨⟨?_, by omega, ?_⟩, by simp [hl]⟩
      · rw [h1, hk]
        have : 5 - (len + 1) = k := by omega
        rw [this, pivDigitsLE, if_pos hp]
        have hset : (tmp.set len (byte (s % 256))).take (len + 1) = tmp.take len ++ [byte (s % 256)] := by
          rw [List.take_add_one, List.take_set_of_le (Nat.le_refl _)]
          simp [hl, hlen]
        rw [hset, List.append_assoc]; rfl
      · have : 5 - (len + 1) = k := by omega
        rw [this]
        rw [hk, Nat.pow_succ] at h3
        exact Nat.div_lt_of_lt_mul (by omega)
    · rw [if_neg hp]
      have h0 : s = 0 := by omega
      subst h0
      rw [pivDigitsLE_zero, List.append_nil] at h1
      by_cases hz : len = 0
      · rw [if_pos hz]
        refine ⟨?_, hl⟩
        show ssn2piv ssn = .ok [0]
        unfold ssn2piv
        rw [if_neg (by omega), h1, hz]
        rfl
      · rw [if_neg hz]
        exact ⟨⟨h1, by omega, h2, by simp, by simp⟩, hl⟩
  | copy len out =>
    obtain ⟨h1, h0, h2, h3, h4⟩ := h
    unfold PivThread.step; dsimp only
    have hd : (pivDigitsLE 5 ssn).length = len := by rw [h1]; simp [hl]; omega
    by_cases hp : out.length < len
    · rw [if_pos hp]
      refine ⟨⟨h1, h0, h2, by simp; omega, ?_⟩, hl⟩
      have hv : tmp.getD (len - 1 - out.length) 0 = (pivDigitsLE 5 ssn).reverse[out.length]'(by simp [hd]; exact hp) := by
        rw [List.getElem_reverse]
        have e : (pivDigitsLE 5 ssn)[(pivDigitsLE 5 ssn).length - 1 - out.length]'(by omega) =
            (pivDigitsLE 5 ssn).getD ((pivDigitsLE 5 ssn).length - 1 - out.length) 0 := by
          rw [List.getD_eq_getElem?_getD, List.getElem?_eq_getElem (by omega)]; rfl
        rw [e, hd, h1, List.getD_eq_getElem?_getD, List.getD_eq_getElem?_getD, List.getElem?_take_of_lt (by omega)]
      rw [List.length_append, hv]
      show out ++ _ = List.take (out.length + 1) _
      rw [List.take_add_one, List.getElem?_eq_getElem (by simp [hd]; exact hp), ← h4]
      rfl
    · rw [if_neg hp]
      refine ⟨?_, hl⟩
      have : out.length = len := by omega
      show ssn2piv ssn = .ok out
      unfold ssn2piv
      rw [if_neg (by omega)]
      simp only
      rw [if_neg (by omega), h4, this, List.take_of_length_le (by simp [hd])]

/-- steps left, at most -/
def PivThread.rank : PivThread → Nat
  | .fill _ len => 13 - len
  | .copy len out => len - out.length + 1
  | .done _ => 0

theorem PivThread.step_rank {ssn : Nat} {tmp : Bytes} {t : PivThread} (h : t.Right ssn tmp) :
    (t.step tmp).1.rank ≤ t.rank - 1 := by
  cases t with
  | done out => simp [PivThread.step, rank]
  | fill s len =>
    unfold PivThread.step; dsimp only
    split
    · simp only [rank]; omega
    · split
      · simp only [rank]; omega
      · simp only [rank, List.length_nil]
        have := h.2.1; omega
  | copy len out =>
    unfold PivThread.step; dsimp only
    split
    · simp only [rank, List.length_append, List.length_cons, List.length_nil]; omega
    · simp only [rank]; omega

/-- a thread that is not in the loop that writes to the array -/
def PivThread.NoWriter : PivThread → Prop
  | .fill _ _ => False
  | _ => True

theorem PivThread.step_noWriter {t : PivThread} (h : t.NoWriter) (tmp : Bytes) :
    (t.step tmp).1.NoWriter ∧ (t.step tmp).2 = tmp := by
  cases t with
  | fill _ _ => exact h.elim
  | copy len out => unfold PivThread.step; dsimp only; split <;> exact ⟨trivial, rfl⟩
  | done out => exact ⟨trivial, rfl⟩

theorem run_right {ssn i : Nat} (hs : ssn ≤ maxPivValue) (sched : List Nat) :
    ∀ (s : PivSys) (t : PivThread), s.tmp.length = 5 → s.threads[i]? = some t → t.Right ssn s.tmp →
      (∀ j u, j ≠ i → s.threads[j]? = some u → u.NoWriter) →
      ∃ t', (s.run sched).threads[i]? = some t' ∧ t'.Right ssn (s.run sched).tmp ∧
        t'.rank ≤ t.rank - sched.count i := by
  induction sched with
  | nil => intro s t _ ht hr _; exact ⟨t, ht, hr, by simp⟩
  | cons j sched ih =>
    intro s t hl ht hr ho
    show ∃ t', ((s.step j).run sched).threads[i]? = some t' ∧ t'.Right ssn ((s.step j).run sched).tmp ∧ _
    by_cases hj : j = i
    · subst hj
      have hst : s.step j = ⟨s.threads.set j (t.step s.tmp).1, (t.step s.tmp).2⟩ := by
        unfold PivSys.step; rw [ht]
      obtain ⟨r1, r2⟩ := PivThread.step_right hs hl hr
      have hlt : j < s.threads.length := (List.getElem?_eq_some_iff.1 ht).1
      obtain ⟨t', e1, e2, e3⟩ := ih (s.step j) (t.step s.tmp).1 (by rw [hst]; exact r2)
        (by rw [hst]; simp [hlt]) (by rw [hst]; exact r1) (by
          intro k u hk hu
          rw [hst] at hu
          simp only at hu
          rw [List.getElem?_set_ne (by omega)] at hu
          exact ho k u hk hu)
      refine ⟨t', e1, e2, ?_⟩
      have := PivThread.step_rank hr
      rw [List.count_cons_self]; omega
    · have hc : List.count i (j :: sched) = List.count i sched := List.count_cons_of_ne (by simpa using hj)
      rw [hc]
      cases hu : s.threads[j]? with
      | none =>
        have hst : s.step j = s := by unfold PivSys.step; rw [hu]
        rw [hst]; exact ih s t hl ht hr ho
      | some u =>
        obtain ⟨n1, n2⟩ := PivThread.step_noWriter (ho j u hj hu) s.tmp
        have hst : s.step j = ⟨s.threads.set j (u.step s.tmp).1, s.tmp⟩ := by
          unfold PivSys.step; rw [hu]; simp only [n2]
        rw [hst]
        refine ih _ t hl (by simp only; rw [List.getElem?_set_ne hj]; exact ht) hr ?_
        intro k v hk hv
        simp only at hv
        by_cases hkj : k = j
        · subst hkj
          rw [List.getElem?_set_self (List.getElem?_eq_some_iff.1 hu).1] at hv
          cases hv; exact n1
        · rw [List.getElem?_set_ne (fun h => hkj h.symm)] at hv
          exact ho k v hk hv

/-- C72, calls one after the other: whatever an earlier call - for this or any other security context -
left in the static array, a call that is not interrupted returns the PIV of its own sequence number after
at most 13 steps, and leaves the other threads as they are. -/
theorem C72_sequential (ssn : Nat) (hs : ssn ≤ 2 ^ 40 - 1) (s : PivSys) (i : Nat) (hl : s.tmp.length = 5)
    (hi : s.threads[i]? = some (.fill ssn 0)) (k : Nat) (hk : 13 ≤ k) :
    (∃ out, (s.run (List.replicate k i)).threads[i]? = some (.done out) ∧ ssn2piv ssn = .ok out) ∧
    ∀ j, j ≠ i → (s.run (List.replicate k i)).threads[j]? = s.threads[j]? := by
  have key : ∀ (k : Nat) (s : PivSys) (j : Nat), j ≠ i →
      (s.run (List.replicate k i)).threads[j]? = s.threads[j]? := by
    intro k
    induction k with
    | zero => intros; rfl
    | succ k ih =>
      intro s j hj
      rw [List.replicate_succ]
      show ((s.step i).run _).threads[j]? = _
      rw [ih _ j hj]
      unfold PivSys.step
      cases s.threads[i]? with
      | none => rfl
      | some t => simp only; rw [List.getElem?_set_ne (fun h => hj h.symm)]
  refine ⟨?_, fun j hj => key k s j hj⟩
  -- remove the other threads: they make no step
  have alone : ∀ (k : Nat) (s : PivSys) (t : PivThread), s.tmp.length = 5 → s.threads[i]? = some t →
      t.Right ssn s.tmp → ∃ t', (s.run (List.replicate k i)).threads[i]? = some t' ∧
        t'.Right ssn (s.run (List.replicate k i)).tmp ∧ t'.rank ≤ t.rank - k := by
    intro k
    induction k with
    | zero => intro s t _ ht hr; exact ⟨t, ht, hr, by simp⟩
    | succ k ih =>
      intro s t hl ht hr
      rw [List.replicate_succ]
      have hst : s.step i = ⟨s.threads.set i (t.step s.tmp).1, (t.step s.tmp).2⟩ := by
        unfold PivSys.step; rw [ht]
      obtain ⟨r1, r2⟩ := PivThread.step_right (by unfold maxPivValue; exact hs) hl hr
      have hlt : i < s.threads.length := (List.getElem?_eq_some_iff.1 ht).1
      obtain ⟨t', e1, e2, e3⟩ := ih (s.step i) (t.step s.tmp).1 (by rw [hst]; exact r2)
        (by rw [hst]; simp [hlt]) (by rw [hst]; exact r1)
      refine ⟨t', e1, e2, ?_⟩
      have := PivThread.step_rank hr
      omega
  obtain ⟨t', e1, e2, e3⟩ := alone k s (.fill ssn 0) hl hi ⟨by simp, by omega, by
    have : (256 : Nat) ^ (5 - 0) = 2 ^ 40 := by decide
    omega⟩
  have hr : t'.rank = 0 := by
    have h13 : (PivThread.fill ssn 0).rank = 13 := rfl
    rw [h13] at e3
    omega
  cases t' with
  | fill s len => obtain ⟨_, h2, _⟩ := e2; simp only [PivThread.rank] at hr; omega
  | copy len out => simp only [PivThread.rank] at hr; omega
  | done out => exact ⟨out, e1, e2⟩

/-- C72, calls at the same time: for any number of threads and every schedule, a call returns the right PIV
if no other thread is in (or enters) the loop that writes to the array while the call runs; and it returns
once it was given 13 steps.  Missing from the full property: schedules with two writers, see
C72_false_piv. -/
theorem C72_threads_partial (ssn : Nat) (hs : ssn ≤ 2 ^ 40 - 1) (s : PivSys) (i : Nat) (hl : s.tmp.length = 5)
    (hi : s.threads[i]? = some (.fill ssn 0))
    (ho : ∀ j ssn' len, j ≠ i → s.threads[j]? ≠ some (.fill ssn' len)) (sched : List Nat) :
    (∀ out, (s.run sched).threads[i]? = some (.done out) → ssn2piv ssn = .ok out) ∧
    (13 ≤ sched.count i → ∃ out, (s.run sched).threads[i]? = some (.done out) ∧ ssn2piv ssn = .ok out) := by
  obtain ⟨t', e1, e2, e3⟩ := run_right (by unfold maxPivValue; exact hs) sched s (.fill ssn 0) hl hi
    ⟨by simp, by omega, by
      have : (256 : Nat) ^ (5 - 0) = 2 ^ 40 := by decide
      omega⟩ (by
      intro j u hj hu
      cases u with
      | fill a b => exact ho j a b hj hu
      | copy _ _ => trivial
      | done _ => trivial)
  refine ⟨fun out h => ?_, fun hc => ?_⟩
  · rw [e1] at h; cases h; exact e2
  · have hr : t'.rank = 0 := by
      have h13 : (PivThread.fill ssn 0).rank = 13 := rfl
      rw [h13] at e3
      omega
    cases t' with
    | fill s len => obtain ⟨_, h2, _⟩ := e2; simp only [PivThread.rank] at hr; omega
    | copy len out => simp only [PivThread.rank] at hr; omega
    | done out => exact ⟨out, e1, e2⟩

/-- hypotheses met: thread 0 encodes 0x010203 while thread 1 is still copying an older result -/
example : (PivSys.run ⟨[.fill 0x010203 0, .copy 2 []], [9, 8, 7, 6, 5]⟩
    [0, 1, 0, 0, 1, 0, 0, 1, 0, 0, 0, 0, 0, 0, 0, 0]).threads[0]? = some (.done [1, 2, 3]) := by decide

/-- C72 is false: two threads, two security contexts, sequence numbers 5 and 9.  Thread 1 writes to the
array between thread 0's write and its copy: thread 0's packet gets the PIV 9. -/
theorem C72_false_piv :
    (PivSys.run ⟨[.fill 5 0, .fill 9 0], [0, 0, 0, 0, 0]⟩ [0, 1, 0, 0, 0, 1, 1, 1]).threads =
      [.done [9], .done [9]] ∧ ssn2piv 5 = .ok [5] := by
  decide

/-- The consequence: the context of thread 0 sends PIV 9 now, and again (with another message) when its own
sequence number gets to 9: the same Partial IV, hence the same nonce, twice under one Sender Key. -/
theorem C72_false_nonce_reuse (senderId commonIv : Bytes) :
    ∃ p5 p9, (PivSys.run ⟨[.fill 5 0, .fill 9 0], [0, 0, 0, 0, 0]⟩ [0, 1, 0, 0, 0, 1, 1, 1]).threads[0]? =
        some (.done p5) ∧
      (PivSys.run ⟨[.fill 9 0], [9, 0, 0, 0, 0]⟩ [0, 0, 0, 0]).threads[0]? = some (.done p9) ∧
      createNonce senderId p5 commonIv = createNonce senderId p9 commonIv :=
  ⟨[9], [9], by decide, by decide, rfl⟩

/-- ... and numbers of different lengths give a PIV that belongs to neither context. -/
example : (PivSys.run ⟨[.fill 0x0102 0, .fill 9 0], [0, 0, 0, 0, 0]⟩ [0, 0, 1, 0, 0, 0, 0, 0]).threads[0]? =
    some (.done [1, 9]) := by decide

end Verif
