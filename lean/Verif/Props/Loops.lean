import Verif.Model.Loops
/-
C83: every call returns.
-/
namespace Verif.Loops

/-! ### the loop in general -/

section
variable {σ ρ : Type} {W n : Nat} {body : Nat → σ → Ctl σ ρ} {done : Nat → σ → ρ}

/-- one iteration agrees with the intended result `P` -/
def Agrees (P : Nat → σ → ρ) (Inv : Nat → σ → Prop) (i : Nat) (s : σ) : Ctl σ ρ → Prop
  | .stop r => P i s = r
  | .next s' => P i s = P (i + 1) s' ∧ Inv (i + 1) s'

/-- A loop whose bound fits the counter ends, with the result `P` that every iteration preserves. -/
theorem cfor_returns (hn : n < 2 ^ W) (P : Nat → σ → ρ) (Inv : Nat → σ → Prop)
    (hbody : ∀ i s, i < n → Inv i s → Agrees P Inv i s (body i s)) (hdone : ∀ s, Inv n s → P n s = done n s)
    (k i : Nat) (s : σ) (hk : i + k = n) (hi : Inv i s) (fuel : Nat) (hf : k < fuel) :
    cfor W n body done fuel i s = some (P i s) := by
  induction k generalizing i s fuel with
  | zero =>
    obtain ⟨fuel, rfl⟩ : ∃ f, fuel = f + 1 := ⟨fuel - 1, by omega⟩
    have : i = n := by omega
    subst this
    simp [cfor, hdone s hi]
  | succ k ih =>
    obtain ⟨fuel, rfl⟩ : ∃ f, fuel = f + 1 := ⟨fuel - 1, by omega⟩
    have hlt : i < n := by omega
    have hb := hbody i s hlt hi
    unfold cfor
    rw [if_pos hlt]
    cases h : body i s with
    | stop r => rw [h] at hb; simp only [Agrees] at hb; rw [hb]
    | next s' =>
      rw [h] at hb
      simp only
      rw [Nat.mod_eq_of_lt (by omega), ih (i + 1) s' (by omega) hb.2 fuel (by omega), hb.1]

theorem cfor_ends (hn : n < 2 ^ W) (P : Nat → σ → ρ) (Inv : Nat → σ → Prop)
    (hbody : ∀ i s, i < n → Inv i s → Agrees P Inv i s (body i s)) (hdone : ∀ s, Inv n s → P n s = done n s)
    (s : σ) (hi : Inv 0 s) : Returns (fun fuel => cfor W n body done fuel 0 s) (P 0 s) :=
  ⟨n + 1, fun more hm => cfor_returns hn P Inv hbody hdone n 0 s (by omega) hi more (by omega)⟩

/-- A loop whose bound does not fit the counter never ends, unless the body leaves it. -/
theorem cfor_forever (hn : 2 ^ W ≤ n) (hbody : ∀ i s, i < 2 ^ W → ∃ s', body i s = .next s') (fuel i : Nat) (s : σ)
    (hi : i < 2 ^ W) : cfor W n body done fuel i s = none := by
  induction fuel generalizing i s with
  | zero => rfl
  | succ fuel ih =>
    obtain ⟨s', h⟩ := hbody i s hi
    unfold cfor
    rw [if_pos (by omega), h]
    exact ih _ s' (Nat.mod_lt _ (Nat.two_pow_pos W))

end

/-! ### the replay window -/

theorem wget_eq {l : List Nat} {i : Nat} (h : i < l.length) : l.drop i = wget l i :: l.drop (i + 1) := by
  unfold wget
  rw [List.getD_eq_getElem?_getD, List.getElem?_eq_getElem h]
  exact List.drop_eq_getElem_cons h

theorem validC_returns (w : ReplayWindow) (n : Nat) (hw : w.window.length ≤ 255) : Returns (validC w n) (w.valid n) := by
  unfold validC ReplayWindow.valid
  split
  · exact ⟨0, fun _ _ => rfl⟩
  split
  · exact ⟨0, fun _ _ => rfl⟩
  split
  · exact ⟨0, fun _ _ => rfl⟩
  refine cfor_ends (by omega) (fun i _ => !(w.window.drop i).any (fun x => n == x)) (fun _ _ => True) ?_ ?_ () trivial
  · intro i _ hi _
    have hd := wget_eq hi
    by_cases h : n = wget w.window i
    · simp only [if_pos h, Agrees]; rw [hd]; simp [← h]
    · simp only [if_neg h, Agrees]; rw [hd]; simp [h]
  · intro _ _; simp

theorem reinitC_returns (w : ReplayWindow) (cur : Nat) (hw : w.window.length ≤ 255) :
    Returns (reinitC w cur) (w.reinit cur) := by
  have h := cfor_ends (W := 8) (n := w.window.length)
    (body := fun j (s : List Nat × Nat) =>
      .next (s.1.set (w.window.length - 1 - j) s.2, if s.2 > 0 then s.2 - 1 else s.2))
    (done := fun _ s => ({ window := s.1, zeroReceived := true } : ReplayWindow)) (by omega)
    (fun j s => { window := reinitList (w.window.length - j) s.2 ++ s.1.drop (w.window.length - j), zeroReceived := true })
    (fun _ s => s.1.length = w.window.length)
    (by
      intro j s hj hs
      refine ⟨?_, by simpa using hs⟩
      obtain ⟨m, hm⟩ : ∃ m, w.window.length - j = m + 1 := ⟨w.window.length - j - 1, by omega⟩
      have hm' : w.window.length - (j + 1) = m := by omega
      have hm'' : w.window.length - 1 - j = m := by omega
      simp only [hm, hm', hm'', reinitList, List.append_assoc, List.singleton_append]
      rw [List.drop_eq_getElem_cons (l := s.1.set m s.2) (i := m) (by simp; omega)]
      rw [List.getElem_set_self, List.drop_set_of_lt (by omega)])
    (by intro s hs; simp [reinitList])
    (w.window, cur) rfl
  unfold reinitC ReplayWindow.reinit
  simpa using h

theorem insertIndex_drop {l : List Nat} {i n : Nat} (h : i < l.length - 1) :
    insertIndex (l.drop i) n = if wget l i < n ∧ wget l (i + 1) > n then 0 else insertIndex (l.drop (i + 1)) n + 1 := by
  rw [wget_eq (by omega : i < l.length), wget_eq (by omega : i + 1 < l.length)]
  rfl

theorem updateC_returns (w : ReplayWindow) (n : Nat) (hw : w.window.length ≤ 255) : Returns (updateC w n) (w.update n) := by
  obtain ⟨f, hf⟩ := validC_returns w n hw
  unfold updateC ReplayWindow.update
  cases hv : w.valid n with
  | false => exact ⟨f, fun m hm => by simp only [hf m hm, hv]; rfl⟩
  | true =>
    by_cases h0 : n = 0
    · exact ⟨f, fun m hm => by simp only [hf m hm, hv, if_pos h0]; rfl⟩
    · obtain ⟨g, hg⟩ := cfor_ends (W := 16) (n := w.window.length - 1)
        (body := fun i (_ : Unit) => if wget w.window i < n ∧ wget w.window (i + 1) > n then
          .stop (true, { w with window := windowInsert w.window n i }) else .next ())
        (done := fun i _ => (true, { w with window := windowInsert w.window n i })) (by omega)
        (fun i _ => (true, { w with window := windowInsert w.window n (i + insertIndex (w.window.drop i) n) }))
        (fun _ _ => True)
        (by
          intro i s hi _
          by_cases hc : wget w.window i < n ∧ wget w.window (i + 1) > n
          · simp only [if_pos hc, Agrees]; rw [insertIndex_drop hi, if_pos hc]; rfl
          · simp only [if_neg hc, Agrees]; rw [insertIndex_drop hi, if_neg hc]
            refine ⟨?_, trivial⟩
            rw [show i + (insertIndex (w.window.drop (i + 1)) n + 1) = i + 1 + insertIndex (w.window.drop (i + 1)) n by omega])
        (by
          intro s _
          have : insertIndex (w.window.drop (w.window.length - 1)) n = 0 := by
            have hl : (w.window.drop (w.window.length - 1)).length ≤ 1 := by simp; omega
            match w.window.drop (w.window.length - 1), hl with
            | [], _ => rfl
            | [_], _ => rfl
          rw [this]; rfl)
        () trivial
      refine ⟨max f g, fun m hm => ?_⟩
      simp only [hf m (by omega), hv, if_neg h0]
      have hg' := hg m (by omega)
      simp only [List.drop_zero, Nat.zero_add] at hg'
      rw [hg']
      rfl

/-- **C83 (replay window).**  For windows of at most 255 numbers the three functions of the replay window end for every
window and every number, with the result the model of C01 - C04 gives. -/
theorem C83_window_partial (w : ReplayWindow) (n : Nat) (hw : w.window.length ≤ 255) :
    Returns (validC w n) (w.valid n) ∧ Returns (updateC w n) (w.update n) ∧ Returns (reinitC w n) (w.reinit n) :=
  ⟨validC_returns w n hw, updateC_returns w n hw, reinitC_returns w n hw⟩

/-- **C83 is false for larger windows (1)**: with OSCORE_SERVER_REPLAY_WINDOW_SIZE of 256 and more, setting up the window from
an Echo request never ends, whatever the window and the number. -/
theorem C83_false_reinit (w : ReplayWindow) (n : Nat) (hw : 256 ≤ w.window.length) : Forever (reinitC w n) := by
  intro fuel
  exact cfor_forever hw (fun _ _ _ => ⟨_, rfl⟩) fuel 0 _ (by omega)

/-- **C83 is false for larger windows (2)**: the check of a number inside the window that is not among its 256 lowest numbers
never ends - any new request that arrives late, among others. -/
theorem C83_false_valid (w : ReplayWindow) (n : Nat) (hw : 256 ≤ w.window.length) (h0 : n ≠ 0)
    (hhi : n ≤ wget w.window (w.window.length - 1)) (hlo : wget w.window 0 ≤ n) (hnew : ∀ i < 256, n ≠ wget w.window i) :
    Forever (validC w n) := by
  intro fuel
  unfold validC
  rw [if_neg h0, if_neg (by omega), if_neg (by omega)]
  exact cfor_forever hw (fun i _ hi => ⟨(), if_neg (hnew i hi)⟩) fuel 0 _ (by omega)

/-- a window of 256 numbers that has received 1, 3 and 4: checking 2 never ends -/
example : Forever (validC { window := List.replicate 253 0 ++ [1, 3, 4], zeroReceived := true } 2) :=
  C83_false_valid _ _ (by decide +kernel) (by decide) (by decide +kernel) (by decide +kernel)
    (by decide +kernel)

/-! ### interactions and byte strings -/

theorem getD_cons {α : Type} {l : List α} {i : Nat} {d : α} (h : i < l.length) : l.drop i = l.getD i d :: l.drop (i + 1) := by
  rw [List.getD_eq_getElem?_getD, List.getElem?_eq_getElem h]
  exact List.drop_eq_getElem_cons h

theorem findC_returns (t : Table) (p : Option Rec → Bool) (ht : t.length < 2 ^ 32) : Returns (findC t p) (t.findIdx p) := by
  have h := cfor_ends (W := 32) (n := t.length)
    (body := fun i (_ : Unit) => if p (t.getD i none) then .stop i else .next ()) (done := fun i _ => i) ht
    (fun i _ => i + (t.drop i).findIdx p) (fun _ _ => True)
    (by
      intro i s hi _
      by_cases hp : p (t.getD i none) = true
      · simp only [if_pos hp, Agrees]; rw [getD_cons (d := none) hi, List.findIdx_cons, hp]; rfl
      · simp only [if_neg hp, Agrees]
        rw [getD_cons (d := none) hi, List.findIdx_cons, eq_false_of_ne_true hp]
        refine ⟨?_, trivial⟩
        simp only [cond_false]
        omega)
    (by intro s _; simp) () trivial
  simp only [List.drop_zero, Nat.zero_add] at h
  exact h

/-- **C83 (interactions).**  The three searches of the table of interactions end for every table and every search, with the
index the model of C29 uses (the number of interactions is a 32-bit constant). -/
theorem C83_interactions (t : Table) (ht : t.length < 2 ^ 32) (uri token : Bytes) (ty : MsgType) :
    Returns (findC t (fun r => r.isNone)) t.findFree ∧
    Returns (findC t (fun r => match r with | none => false | some r => r.reqType == ty && r.uri == uri)) (t.findRes uri ty) ∧
    Returns (findC t (fun r => match r with | none => false | some r => r.token == token)) (t.findTok token) :=
  ⟨findC_returns t _ ht, findC_returns t _ ht, findC_returns t _ ht⟩

theorem go_cons (a b : UInt8) (l r : Bytes) :
    arrayEquals.go (a :: l) (b :: r) = if a ≠ b then false else arrayEquals.go l r := rfl

/-- **C83 (byte strings).**  Comparing two byte strings ends with the model's answer; xor ends with the model's result
(lengths are 32-bit numbers). -/
theorem C83_bytes (l r out : Bytes) (hl : l.length < 2 ^ 32) :
    Returns (equalsC l r) (arrayEquals l r) ∧
    (l.length = r.length → out.length = l.length → Returns (xorC l r out) (Edhoc.xorBytes l r)) := by
  refine ⟨?_, ?_⟩
  · unfold equalsC arrayEquals
    split
    · rename_i h
      exact ⟨0, fun _ _ => by simp [h]⟩
    · rename_i h
      have h' : l.length = r.length := by omega
      have hh := cfor_ends (W := 32) (n := l.length)
        (body := fun i (_ : Unit) => if l.getD i 0 ≠ r.getD i 0 then .stop false else .next ()) (done := fun _ _ => true) hl
        (fun i _ => arrayEquals.go (l.drop i) (r.drop i)) (fun _ _ => True)
        (by
          intro i s hi _
          by_cases hp : l.getD i 0 ≠ r.getD i 0
          · simp only [if_pos hp, Agrees]
            rw [getD_cons (d := 0) hi, getD_cons (l := r) (d := 0) (h' ▸ hi), go_cons, if_pos hp]
          · simp only [if_neg hp, Agrees]
            rw [getD_cons (d := 0) hi, getD_cons (l := r) (d := 0) (h' ▸ hi), go_cons, if_neg hp]
            exact ⟨rfl, trivial⟩)
        (by intro s _; simp [arrayEquals.go]) () trivial
      simpa [h'] using hh
  · intro h ho
    have hh := cfor_ends (W := 32) (n := l.length)
      (body := fun i (s : Bytes) => .next (s.set i (l.getD i 0 ^^^ r.getD i 0))) (done := fun _ s => s) hl
      (fun i s => s.take i ++ List.zipWith (· ^^^ ·) (l.drop i) (r.drop i)) (fun _ s => s.length = l.length)
      (by
        intro i s hi hs
        refine ⟨?_, by simpa using hs⟩
        show s.take i ++ List.zipWith (· ^^^ ·) (l.drop i) (r.drop i) = (s.set i (l.getD i 0 ^^^ r.getD i 0)).take (i + 1) ++
          List.zipWith (· ^^^ ·) (l.drop (i + 1)) (r.drop (i + 1))
        rw [getD_cons (d := 0) hi, getD_cons (l := r) (d := 0) (h ▸ hi), List.zipWith_cons_cons,
          List.take_succ_eq_append_getElem (by simp; omega), List.getElem_set_self, List.take_set_of_le (Nat.le_refl _)]
        simp)
      (by intro s hs; simp [← hs]) out ho
    unfold xorC Edhoc.xorBytes
    simpa using hh

/-! ### credentials -/
open Verif.Edhoc

theorem caSearchC_returns (C : ECrypto) (mem : Bytes) (creds : List Cred) (hl : creds.length ≤ 65535) :
    Returns (caSearchC C mem creds) (caSearch C mem creds) := by
  have hh := cfor_ends (W := 16) (n := creds.length)
    (body := fun i (_ : Unit) =>
      match creds[i]? with
      | none => .stop .ub
      | some c =>
        if c.ca.length = 0 then .next ()
        else match C.x509 c.ca with
          | none => .stop (.err .unexpected_result_from_ext_lib)
          | some x => if mem.take x.subject.length = x.subject then .stop (.ok c.caPk) else .next ())
    (done := fun _ _ => .err .no_such_ca) (by omega)
    (fun i _ => caSearch C mem (creds.drop i)) (fun _ _ => True)
    (by
      intro i s hi _
      simp only [List.getElem?_eq_getElem hi]
      have hc : caSearch C mem (creds.drop i) = caSearch C mem (creds[i] :: creds.drop (i + 1)) := by
        rw [← List.drop_eq_getElem_cons hi]
      rw [caSearch] at hc
      split
      · rename_i h1
        rw [if_pos h1] at hc
        exact ⟨hc, trivial⟩
      · rename_i h1
        rw [if_neg h1] at hc
        split
        · rename_i h2
          rw [h2] at hc
          exact hc
        · rename_i x h2
          rw [h2] at hc
          simp only at hc
          split
          · rename_i h3
            rw [if_pos h3] at hc
            exact hc
          · rename_i h3
            rw [if_neg h3] at hc
            exact ⟨hc, trivial⟩)
    (by intro s _; simp [caSearch]) () trivial
  simp only [List.drop_zero] at hh
  exact hh

/-- **C83 (credentials).**  The search for a local credential ends for every list of credentials, the search for the CA of a
certificate for every list of at most 65535 credentials, with the results of the models of C43 and C49. -/
theorem C83_credentials_partial (C : ECrypto) (mem idCred : Bytes) (staticDh : Bool) (credCap : Nat) (creds : List Cred)
    (hl : creds.length < 2 ^ 32) :
    (creds.length ≤ 65535 → Returns (caSearchC C mem creds) (caSearch C mem creds)) ∧
    Returns (getLocalCredC staticDh idCred credCap creds) (getLocalCred staticDh idCred credCap creds) := by
  refine ⟨caSearchC_returns C mem creds, ?_⟩
  have hh := cfor_ends (W := 32) (n := creds.length)
    (body := fun i (_ : Unit) =>
      match creds[i]? with
      | none => .stop .ub
      | some c =>
        if c.idCred.length = idCred.length ∧ c.idCred = idCred then
          .stop (do
            let cred ← memcpyS credCap c.cred
            let (pk, g) ← localKeys staticDh c
            pure (cred, pk, g))
        else .next ())
    (done := fun _ _ => .err .credential_not_found) hl
    (fun i _ => getLocalCred staticDh idCred credCap (creds.drop i)) (fun _ _ => True)
    (by
      intro i s hi _
      simp only [List.getElem?_eq_getElem hi]
      have hc : getLocalCred staticDh idCred credCap (creds.drop i) =
          getLocalCred staticDh idCred credCap (creds[i] :: creds.drop (i + 1)) := by
        rw [← List.drop_eq_getElem_cons hi]
      rw [getLocalCred] at hc
      split
      · rename_i h1
        rw [if_pos h1] at hc
        exact hc
      · rename_i h1
        rw [if_neg h1] at hc
        exact ⟨hc, trivial⟩)
    (by intro s _; simp [getLocalCred]) () trivial
  simp only [List.drop_zero] at hh
  exact hh

/-- **C83 is false for more than 65535 credentials**: if none of the first 65536 is a parsable CA certificate with a matching
subject, the search for the CA never ends.  The issuer is chosen by the peer. -/
theorem C83_false_ca (C : ECrypto) (mem : Bytes) (creds : List Cred) (hl : 65536 ≤ creds.length)
    (hno : ∀ c ∈ creds.take 65536, c.ca = [] ∨ ∃ x, C.x509 c.ca = some x ∧ mem.take x.subject.length ≠ x.subject) :
    Forever (caSearchC C mem creds) := by
  intro fuel
  refine cfor_forever hl (fun i _ hi => ⟨(), ?_⟩) fuel 0 _ (by omega)
  have hi' : i < creds.length := by omega
  rw [List.getElem?_eq_getElem hi']
  have hmem : creds[i] ∈ creds.take 65536 := by
    rw [List.mem_iff_getElem]
    exact ⟨i, by simp; omega, by simp⟩
  simp only
  rcases hno _ hmem with h | ⟨x, h, hne⟩
  · rw [if_pos (by rw [h]; rfl)]
  · split
    · rfl
    · rw [h]; simp only [if_neg hne]

/-- 65536 credentials without a CA certificate, as for peers known by their kid: a peer that sends a certificate makes the
search run for ever -/
example (C : ECrypto) (c : Cred) (hc : c.ca = []) (mem : Bytes) : Forever (caSearchC C mem (List.replicate 65536 c)) :=
  C83_false_ca C mem _ (by rw [List.length_replicate]; exact Nat.le_refl _) (fun d hd => .inl (by
    have := List.eq_of_mem_replicate (List.mem_of_mem_take hd)
    rw [this, hc]))

/-- the conditions of the other theorems are met by the default configuration: a window of 32 numbers -/
example (n : Nat) : Returns (validC (ReplayWindow.init 32) n) ((ReplayWindow.init 32).valid n) :=
  (C83_window_partial _ n (by simp [ReplayWindow.init])).1

end Verif.Loops
