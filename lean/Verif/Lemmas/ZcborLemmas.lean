import Verif.Model.ZcborGen
/- The generated decoders against the CDDL decoders of Model/EdhocCbor.lean. -/
namespace Verif.Zcbor
open Verif Verif.Edhoc

/-- failed values leave the state as it was, and a refused map leaves no backup behind -/
structure Lib.Tidy (L : Lib) : Prop where
  restores : ∀ p n, L.junk p n = (p, n)
  noLeak : L.mapLeak = false

theorem Lib.Tidy.bad_eq {L : Lib} (h : L.Tidy) (s : ZS) : L.bad s = s := by
  unfold Lib.bad; rw [h.restores]

theorem bad_baks (L : Lib) (s : ZS) : (L.bad s).baks = s.baks := rfl
theorem bad_nb (L : Lib) (s : ZS) : (L.bad s).nb = s.nb := rfl

theorem zHead_major {st : Bool} {b l : Bytes} {m v : Nat} (h : zHead st b = some (m, v, l)) :
    ∃ c t, b = c :: t ∧ m = c.toNat / 32 := by
  cases b with
  | nil => simp [zHead] at h
  | cons c t =>
    refine ⟨c, t, rfl, ?_⟩
    have hz : ∀ k, zArg st (c.toNat / 32) k t = some (m, v, l) → m = c.toNat / 32 := by
      intro k hk
      unfold zArg at hk
      split at hk
      · cases hk
      · split at hk
        · cases hk
        · simp only [Option.some.injEq, Prod.mk.injEq] at hk; exact hk.1.symm
    simp only [zHead] at h
    repeat' split at h
    · simp only [Option.some.injEq, Prod.mk.injEq] at h; exact h.1.symm
    · exact hz _ h
    · exact hz _ h
    · exact hz _ h
    · exact hz _ h
    · cases h

/-- a value is decoded -/
theorem value_ok {α : Type} {L : Lib} {want : Nat → Bool} {f : Nat → Nat → Bytes → Option (α × Bytes)} {s : ZS}
    {m v : Nat} {l l' : Bytes} {x : α} (he : 0 < s.ec) (hh : zHead L.strict s.pay = some (m, v, l))
    (hw : want m = true) (hf : f m v l = some (x, l')) :
    value L want f s = (some x, { s with pay := l', ec := s.ec - 1 }) := by
  obtain ⟨c, t, hb, hm⟩ := zHead_major hh
  unfold value
  rw [hb]
  rw [hb] at hh
  simp only
  rw [if_neg (by rw [← hm, hw]; simp), if_neg (by omega), hh]
  simp only
  rw [hf]

/-- the major type is another one: nothing happens -/
theorem value_type {α : Type} {L : Lib} {want : Nat → Bool} {f : Nat → Nat → Bytes → Option (α × Bytes)} {s : ZS}
    {m v : Nat} {l : Bytes} {st : Bool} (hh : zHead st s.pay = some (m, v, l)) (hw : want m = false) :
    value L want f s = (none, s) := by
  obtain ⟨c, t, hb, hm⟩ := zHead_major hh
  unfold value
  rw [hb]
  simp only
  rw [if_pos (by rw [← hm, hw])]

/-- otherwise it fails, and at most cursor and counter change -/
theorem value_fail {α : Type} {L : Lib} {want : Nat → Bool} {f : Nat → Nat → Bytes → Option (α × Bytes)} {s : ZS}
    (h : ∀ m v l, zHead L.strict s.pay = some (m, v, l) → want m = true → f m v l = none) :
    value L want f s = (none, s) ∨ value L want f s = (none, L.bad s) := by
  unfold value
  cases hb : s.pay with
  | nil => left; rfl
  | cons c t =>
    simp only
    split
    · left; rfl
    · split
      · left; rfl
      · rename_i hw _
        right
        cases hh : zHead L.strict (c :: t) with
        | none => rfl
        | some r =>
          obtain ⟨m, v, l⟩ := r
          simp only
          obtain ⟨c', t', hb', hm⟩ := zHead_major hh
          rw [← hb] at hh
          cases hb'
          rw [h m v l hh (by rw [hm]; simpa using hw)]

theorem value_none {α : Type} {L : Lib} {want : Nat → Bool} {f : Nat → Nat → Bytes → Option (α × Bytes)} {s : ZS}
    (h : s.ec = 0) : value L want f s = (none, s) := by
  unfold value
  cases hb : s.pay with
  | nil => rfl
  | cons c t =>
    simp only
    split
    · rfl
    · first | rw [if_pos h] | rfl

/-! ### what a decoder does, compared with a function on byte strings -/

/-- `z` succeeds wherever `g` does, with the same result, and consumes one element; `k` backups are enough -/
def Succ {α : Type} (z : Z α) (g : Bytes → Option (α × Bytes)) (k : Nat) : Prop :=
  ∀ (s : ZS) (x : α) (l : Bytes), 0 < s.ec → s.baks.length + k ≤ s.nb → g s.pay = some (x, l) →
    z s = (some x, { s with pay := l, ec := s.ec - 1 })

/-- `z` fails wherever `g` does, and gives its backups back -/
def Fails {α : Type} (z : Z α) (g : Bytes → Option (α × Bytes)) (k : Nat) : Prop :=
  ∀ s : ZS, 0 < s.ec → s.baks.length + k ≤ s.nb → g s.pay = none →
    ∃ p e, z s = (none, { s with pay := p, ec := e })

/-- as `Fails`, and the state is the old one -/
def Fails0 {α : Type} (z : Z α) (g : Bytes → Option (α × Bytes)) : Prop :=
  ∀ s : ZS, g s.pay = none → z s = (none, s)

theorem Fails0.fails {α : Type} {z : Z α} {g : Bytes → Option (α × Bytes)} (h : Fails0 z g) (k : Nat) :
    Fails z g k := fun s _ _ hg => ⟨s.pay, s.ec, h s hg⟩

theorem int_succ (L : Lib) (k : Nat) : Succ (int32Decode L) (zInt32 L.strict) k := by
  intro s x l he _ hg
  unfold zInt32 at hg
  split at hg
  · rename_i m v r hh
    split at hg
    · rename_i hv
      split at hg
      · rename_i hm
        simp only [Option.some.injEq, Prod.mk.injEq] at hg
        obtain ⟨rfl, rfl⟩ := hg
        unfold int32Decode
        exact value_ok he hh (by simp [hm]) (by rw [if_pos hv, if_pos hm])
      · rename_i hm
        split at hg
        · rename_i hm1
          simp only [Option.some.injEq, Prod.mk.injEq] at hg
          obtain ⟨rfl, rfl⟩ := hg
          unfold int32Decode
          exact value_ok he hh (by simp [hm1]) (by rw [if_pos hv, if_neg hm])
        · cases hg
    · cases hg
  · cases hg

theorem int_fails {L : Lib} (ht : L.Tidy) : Fails0 (int32Decode L) (zInt32 L.strict) := by
  intro s hg
  have h := value_fail (L := L) (s := s) (want := fun m => m == 0 || m == 1)
    (f := fun m v l => if v < 2 ^ 31 then some (if m = 0 then Int.ofNat v else -1 - Int.ofNat v, l) else none) (by
      intro m v l hh hw
      unfold zInt32 at hg
      rw [hh] at hg
      simp only at hg
      split at hg
      · split at hg
        · cases hg
        · split at hg
          · cases hg
          · rename_i h0 h1
            simp [h0, h1] at hw
      · rename_i hv
        exact if_neg hv)
  rw [ht.bad_eq] at h
  unfold int32Decode
  exact h.elim id id

theorem str_succ (L : Lib) (mt k : Nat) : Succ (strDecode L mt) (zStr L.strict mt) k := by
  intro s x l he _ hg
  unfold zStr at hg
  split at hg
  · rename_i m v r hh
    split at hg
    · rename_i hv
      simp only [Option.some.injEq, Prod.mk.injEq] at hg
      obtain ⟨rfl, rfl⟩ := hg
      unfold strDecode
      exact value_ok he hh (by simp [hv.1]) (by rw [if_pos hv.2])
    · cases hg
  · cases hg

theorem str_fails {L : Lib} (ht : L.Tidy) (mt : Nat) : Fails0 (strDecode L mt) (zStr L.strict mt) := by
  intro s hg
  have h := value_fail (L := L) (s := s) (want := fun m => m == mt)
    (f := fun _ v l => if v ≤ l.length then some (l.take v, l.drop v) else none) (by
      intro m v l hh hw
      unfold zStr at hg
      rw [hh] at hg
      simp only at hg
      split at hg
      · cases hg
      · rename_i hc
        have hm : m = mt := by simpa using hw
        exact if_neg fun hv => hc ⟨hm, hv⟩)
  rw [ht.bad_eq] at h
  unfold strDecode
  exact h.elim id id

/-- `zcbor_uint32_expect`: as `zExpect` -/
theorem expect_succ (L : Lib) {k : Nat} {s : ZS} {l : Bytes} (he : 0 < s.ec) (hg : zExpect L.strict k s.pay = some l) :
    uint32Expect L k s = (some (), { s with pay := l, ec := s.ec - 1 }) := by
  unfold zExpect at hg
  split at hg
  · rename_i m v r hh
    split at hg
    · rename_i hv
      simp only [Option.some.injEq] at hg
      subst hg
      unfold uint32Expect
      exact value_ok he hh (by simp [hv.1]) (by rw [if_pos hv.2])
    · cases hg
  · cases hg

theorem expect_fails (L : Lib) {k : Nat} {s : ZS} (hg : zExpect L.strict k s.pay = none) :
    ∃ p e, uint32Expect L k s = (none, { s with pay := p, ec := e }) := by
  have h := value_fail (L := L) (s := s) (want := fun m => m == 0)
    (f := fun _ v l => if v = k then some ((), l) else none) (by
      intro m v l hh hw
      unfold zExpect at hg
      rw [hh] at hg
      simp only at hg
      split at hg
      · cases hg
      · rename_i hc
        have hm : m = 0 := by simpa using hw
        exact if_neg fun hv => hc ⟨hm, hv⟩)
  unfold uint32Expect
  rcases h with h | h
  · exact ⟨s.pay, s.ec, h⟩
  · exact ⟨_, _, h⟩

/-! ### `int / bstr`, `int / tstr` -/

/-- the alternatives of `zIntOrBstr`, `zIntOrTstr` -/
def zIntOrStr (st : Bool) (mt : Nat) (b : Bytes) : Option ((Int ⊕ Bytes) × Bytes) :=
  match zInt32 st b with
  | some (v, l) => some (.inl v, l)
  | none =>
    match zStr st mt b with
    | some (v, l) => some (.inr v, l)
    | none => none

/-- the union of the generated code -/
def uIntStr (L : Lib) (mt : Nat) : Z (Int ⊕ Bytes) :=
  union (orElse (andThen (int32Decode L) fun i => done (.inl i)) (andThen (strDecode L mt) fun b => done (.inr b)))

theorem unionStart_ok {s : ZS} (h : s.baks.length < s.nb) :
    unionStart s = (some (), { s with baks := (s.pay, s.ec) :: s.baks }) := by
  unfold unionStart newBackup
  rw [if_pos h]

/-- a string has no integer's major type -/
theorem int_on_str (L : Lib) {st : Bool} {mt : Nat} (hm : 1 < mt) {s : ZS} {r : Bytes × Bytes}
    (h : zStr st mt s.pay = some r) : int32Decode L s = (none, s) := by
  unfold zStr at h
  split at h
  · rename_i m v l hh
    split at h
    · rename_i hv
      unfold int32Decode
      exact value_type hh (by simp [hv.1]; omega)
    · cases h
  · cases h

theorem uIntStr_succ (L : Lib) {mt : Nat} (hm : 1 < mt) : Succ (uIntStr L mt) (zIntOrStr L.strict mt) 1 := by
  intro s x l he hk hg
  unfold uIntStr union
  rw [unionStart_ok (by omega)]
  simp only
  unfold zIntOrStr at hg
  unfold orElse andThen done
  cases hi : zInt32 L.strict s.pay with
  | some r =>
    obtain ⟨v, l'⟩ := r
    rw [hi] at hg
    simp only [Option.some.injEq, Prod.mk.injEq] at hg
    obtain ⟨rfl, rfl⟩ := hg
    rw [int_succ L 0 ⟨s.pay, s.ec, (s.pay, s.ec) :: s.baks, s.nb⟩ v l' he (by simp; omega) hi]
    rfl
  | none =>
    rw [hi] at hg
    simp only at hg
    cases hs : zStr L.strict mt s.pay with
    | none => rw [hs] at hg; cases hg
    | some r =>
      obtain ⟨v, l'⟩ := r
      rw [hs] at hg
      simp only [Option.some.injEq, Prod.mk.injEq] at hg
      obtain ⟨rfl, rfl⟩ := hg
      rw [int_on_str L hm (s := ⟨s.pay, s.ec, (s.pay, s.ec) :: s.baks, s.nb⟩) hs]
      simp only
      rw [str_succ L mt 0 ⟨s.pay, s.ec, (s.pay, s.ec) :: s.baks, s.nb⟩ v l' he (by simp; omega) hs]
      rfl

theorem uIntStr_fails {L : Lib} (ht : L.Tidy) (mt : Nat) : Fails (uIntStr L mt) (zIntOrStr L.strict mt) 1 := by
  intro s he hk hg
  unfold uIntStr union
  rw [unionStart_ok (by omega)]
  simp only
  unfold zIntOrStr at hg
  unfold orElse andThen
  cases hi : zInt32 L.strict s.pay with
  | some r => rw [hi] at hg; simp at hg
  | none =>
    rw [hi] at hg
    simp only at hg
    cases hs : zStr L.strict mt s.pay with
    | some r => rw [hs] at hg; simp at hg
    | none =>
      rw [int_fails ht ⟨s.pay, s.ec, (s.pay, s.ec) :: s.baks, s.nb⟩ hi]
      simp only
      rw [str_fails ht mt ⟨s.pay, s.ec, (s.pay, s.ec) :: s.baks, s.nb⟩ hs]
      exact ⟨s.pay, s.ec, rfl⟩

/-! ### lists and maps -/

theorem listStart_ok (L : Lib) {s : ZS} {n : Nat} {l : Bytes} (he : 0 < s.ec) (hb : s.baks.length < s.nb)
    (h : zStart L.strict 4 s.pay = some (n, l)) :
    listStart L s = (some (), { s with pay := l, ec := n, baks := (l, s.ec - 1) :: s.baks }) := by
  unfold zStart at h
  split at h
  · rename_i m v r hh
    split at h
    · rename_i hm
      simp only [Option.some.injEq, Prod.mk.injEq] at h
      obtain ⟨rfl, rfl⟩ := h
      unfold listStart
      rw [value_ok (x := v) (l' := r) he hh (by simp [hm]) rfl]
      simp only
      unfold newBackup
      rw [if_pos hb]
    · cases h
  · cases h

theorem start_fails {L : Lib} {mt : Nat} {s : ZS} (h : zStart L.strict mt s.pay = none) :
    value L (fun m => m == mt) (fun _ v l => some (v, l)) s = (none, s) ∨
      value L (fun m => m == mt) (fun _ v l => some (v, l)) s = (none, L.bad s) := by
  apply value_fail
  intro m v l hh hw
  exfalso
  unfold zStart at h
  rw [hh] at h
  simp only at h
  rw [if_pos (by simpa using hw)] at h
  cases h

theorem listStart_fails {L : Lib} {s : ZS} (h : zStart L.strict 4 s.pay = none) :
    ∃ p e, listStart L s = (none, { s with pay := p, ec := e }) := by
  unfold listStart
  rcases start_fails h with h | h
  · rw [h]; exact ⟨s.pay, s.ec, rfl⟩
  · rw [h]; exact ⟨_, _, rfl⟩

theorem mapStart_ok (L : Lib) {s : ZS} {n : Nat} {l : Bytes} (he : 0 < s.ec) (hb : s.baks.length < s.nb)
    (hn : n < L.mapLimit) (h : zStart L.strict 5 s.pay = some (n, l)) :
    mapStart L s = (some (), { s with pay := l, ec := 2 * n, baks := (l, s.ec - 1) :: s.baks }) := by
  unfold zStart at h
  split at h
  · rename_i m v r hh
    split at h
    · rename_i hm
      simp only [Option.some.injEq, Prod.mk.injEq] at h
      obtain ⟨rfl, rfl⟩ := h
      unfold mapStart
      rw [value_ok (x := v) (l' := r) he hh (by simp [hm]) rfl]
      simp only
      unfold newBackup
      rw [if_pos hb]
      simp only
      rw [if_pos hn]
    · cases h
  · cases h

theorem mapStart_fails {L : Lib} {s : ZS} (h : zStart L.strict 5 s.pay = none) :
    ∃ p e, mapStart L s = (none, { s with pay := p, ec := e }) := by
  unfold mapStart
  rcases start_fails h with h | h
  · rw [h]; exact ⟨s.pay, s.ec, rfl⟩
  · rw [h]; exact ⟨_, _, rfl⟩

/-- a map with too many pairs -/
theorem mapStart_huge {L : Lib} (ht : L.Tidy) {s : ZS} {n : Nat} {l : Bytes} (he : 0 < s.ec) (hb : s.baks.length < s.nb)
    (hn : ¬ n < L.mapLimit) (h : zStart L.strict 5 s.pay = some (n, l)) : mapStart L s = (none, s) := by
  unfold zStart at h
  split at h
  · rename_i m v r hh
    split at h
    · rename_i hm
      simp only [Option.some.injEq, Prod.mk.injEq] at h
      obtain ⟨rfl, rfl⟩ := h
      unfold mapStart
      rw [value_ok (x := v) (l' := r) he hh (by simp [hm]) rfl]
      simp only
      unfold newBackup
      rw [if_pos hb]
      simp only
      rw [if_neg hn, ht.noLeak, ht.bad_eq]
      rfl
    · cases h
  · cases h

/-! ### `[alg, hash]` -/

/-- the list of the generated code -/
def thumbList (L : Lib) : Z ((Int ⊕ Bytes) × Bytes) :=
  bracket (listStart L) (andThen (uIntTstr L) fun a => andThen (bstrDecode L) fun h => done (a, h))

theorem uIntTstr_eq (L : Lib) : uIntTstr L = uIntStr L 3 := rfl
theorem uIntBstr_eq (L : Lib) : uIntBstr L = uIntStr L 2 := rfl
theorem zIntOrTstr_eq (st : Bool) : zIntOrTstr st = zIntOrStr st 3 := rfl
theorem zIntOrBstr_eq (st : Bool) : zIntOrBstr st = zIntOrStr st 2 := rfl

theorem thumb_succ (L : Lib) : Succ (thumbList L) (zAlgHash L.strict) 2 := by
  intro s x l he hk hg
  unfold zAlgHash at hg
  cases h0 : zStart L.strict 4 s.pay with
  | none => rw [h0] at hg; cases hg
  | some r =>
    obtain ⟨n, b1⟩ := r
    rw [h0] at hg
    simp only at hg
    split at hg
    · rename_i hn
      subst hn
      cases h1 : zIntOrTstr L.strict b1 with
      | none => rw [h1] at hg; cases hg
      | some r =>
        obtain ⟨a, b2⟩ := r
        rw [h1] at hg
        simp only at hg
        cases h2 : zBstr L.strict b2 with
        | none => rw [h2] at hg; cases hg
        | some r =>
          obtain ⟨h, b3⟩ := r
          rw [h2] at hg
          simp only [Option.some.injEq, Prod.mk.injEq] at hg
          obtain ⟨rfl, rfl⟩ := hg
          unfold thumbList bracket
          rw [listStart_ok L he (by omega) h0]
          simp only
          have e1 := uIntStr_succ L (mt := 3) (by omega) ⟨b1, 2, (b1, s.ec - 1) :: s.baks, s.nb⟩ a b2 (by simp)
            (by simp; omega) (by rw [← zIntOrTstr_eq]; exact h1)
          have e2 := str_succ L 2 0 ⟨b2, 1, (b1, s.ec - 1) :: s.baks, s.nb⟩ h b3 (by simp) (by simp; omega) h2
          unfold andThen
          rw [uIntTstr_eq, e1]
          simp only
          unfold bstrDecode
          rw [e2]
          rfl
    · cases hg

theorem thumb_fails {L : Lib} (ht : L.Tidy) : Fails (thumbList L) (zAlgHash L.strict) 2 := by
  intro s he hk hg
  unfold zAlgHash at hg
  unfold thumbList bracket
  cases h0 : zStart L.strict 4 s.pay with
  | none =>
    obtain ⟨p, e, h⟩ := listStart_fails (L := L) h0
    rw [h]
    exact ⟨p, e, rfl⟩
  | some r =>
    obtain ⟨n, b1⟩ := r
    rw [h0] at hg
    simp only at hg
    rw [listStart_ok L he (by omega) h0]
    simp only
    -- what is left of the counter
    cases hn : n with
    | zero =>
      have hu : uIntTstr L ⟨b1, 0, (b1, s.ec - 1) :: s.baks, s.nb⟩ = (none, ⟨b1, 0, (b1, s.ec - 1) :: s.baks, s.nb⟩) := by
        unfold uIntTstr union
        rw [unionStart_ok (by simp; omega)]
        simp only
        unfold orElse andThen int32Decode
        rw [value_none rfl]
        simp only
        unfold tstrDecode strDecode
        rw [value_none rfl]
        rfl
      unfold andThen
      rw [hu]
      exact ⟨_, _, rfl⟩
    | succ n' =>
      cases h1 : zIntOrTstr L.strict b1 with
      | none =>
        obtain ⟨p, e, h⟩ := uIntStr_fails ht 3 ⟨b1, n' + 1, (b1, s.ec - 1) :: s.baks, s.nb⟩ (by simp) (by simp; omega) h1
        unfold andThen
        rw [uIntTstr_eq, h]
        exact ⟨_, _, rfl⟩
      | some r =>
        obtain ⟨a, b2⟩ := r
        have e1 := uIntStr_succ L (mt := 3) (by omega) ⟨b1, n' + 1, (b1, s.ec - 1) :: s.baks, s.nb⟩ a b2 (by simp)
            (by simp; omega) (by rw [← zIntOrTstr_eq]; exact h1)
        unfold andThen
        rw [uIntTstr_eq, e1]
        simp only
        cases hn' : n' with
        | zero =>
          unfold bstrDecode strDecode
          rw [value_none (by simp)]
          exact ⟨_, _, rfl⟩
        | succ n'' =>
          cases h2 : zBstr L.strict b2 with
          | none =>
            unfold bstrDecode
            rw [str_fails ht 2 ⟨b2, n'' + 1 + 1 - 1, (b1, s.ec - 1) :: s.baks, s.nb⟩ h2]
            exact ⟨_, _, rfl⟩
          | some r =>
            obtain ⟨h, b3⟩ := r
            have e2 := str_succ L 2 0 ⟨b2, n'' + 1, (b1, s.ec - 1) :: s.baks, s.nb⟩ h b3 (by simp) (by simp; omega) h2
            unfold bstrDecode
            simp only [Nat.add_sub_cancel] at e2 ⊢
            rw [e2]
            simp only
            unfold done listEnd
            simp only
            cases hn'' : n'' with
            | zero =>
              exfalso
              subst hn'' hn' hn
              rw [if_pos rfl, h1] at hg
              simp only at hg
              rw [h2] at hg
              cases hg
            | succ q => exact ⟨_, _, rfl⟩

/-! ### the entries of a map -/

theorem present_eq {α : Type} (d : Z α) (s : ZS) :
    presentDecode d s =
      match d s with
      | (some x, s') => (some (some x), s')
      | (none, s') => (some none, { s' with pay := s.pay, ec := s.ec }) := by
  unfold presentDecode multiDecode andThen multiGo multiGo done
  cases h : d s with
  | mk r s' =>
    cases r with
    | none => simp
    | some x => simp

/-- one optional entry: with `n` pairs left it does what `zEntry` says; with a library that does not restore the
state, provided that a matching key is followed by a good value -/
theorem entry_spec {α : Type} {L : Lib} {k kb n : Nat} {d : Z α} {g : Bytes → Option (α × Bytes)} {s : ZS}
    (hs : Succ d g kb) (hf : Fails d g kb ∨ ∀ b', n ≠ 0 → zExpect L.strict k s.pay = some b' → (g b').isSome = true)
    (hn : s.ec = 2 * n) (hb : s.baks.length + kb ≤ s.nb) :
    presentDecode (andThen (uint32Expect L k) fun _ => d) s =
      (some (zEntry L.strict k g n s.pay).1,
        { s with pay := (zEntry L.strict k g n s.pay).2.2, ec := 2 * (zEntry L.strict k g n s.pay).2.1 }) := by
  rw [present_eq]
  unfold zEntry
  by_cases h0 : n = 0
  · rw [if_pos h0]
    unfold andThen uint32Expect
    rw [value_none (by omega)]
    simp only
    rw [← hn]
  · rw [if_neg h0]
    unfold andThen
    cases hx : zExpect L.strict k s.pay with
    | none =>
      obtain ⟨p, e, h⟩ := expect_fails L hx
      rw [h]
      simp only
      rw [← hn]
    | some b' =>
      rw [expect_succ L (by omega) hx]
      simp only
      cases hg : g b' with
      | none =>
        rcases hf with hf | hf
        · obtain ⟨p, e, h⟩ := hf ⟨b', s.ec - 1, s.baks, s.nb⟩ (by simp; omega) hb hg
          rw [h]
          simp only
          rw [← hn]
        · have := hf b' h0 hx
          rw [hg] at this
          cases this
      | some r =>
        obtain ⟨v, b''⟩ := r
        rw [hs ⟨b', s.ec - 1, s.baks, s.nb⟩ v b'' (by simp; omega) hb hg]
        simp only [Prod.mk.injEq, true_and, ZS.mk.injEq]
        refine ⟨?_, trivial⟩
        omega

/-- the stages of a map, with projections -/
def mapStages (st : Bool) (n0 : Nat) (b0 : Bytes) : IdMap × Nat × Bytes :=
  let r1 := zEntry st 4 (zIntOrBstr st) n0 b0
  let r2 := zEntry st 32 (zBstr st) r1.2.1 r1.2.2
  let r3 := zEntry st 33 (zBstr st) r2.2.1 r2.2.2
  let r4 := zEntry st 34 (zAlgHash st) r3.2.1 r3.2.2
  let r5 := zEntry st 35 (zBstr st) r4.2.1 r4.2.2
  let r6 := zEntry st 52 (zBstr st) r5.2.1 r5.2.2
  let r7 := zEntry st 53 (zBstr st) r6.2.1 r6.2.2
  let r8 := zEntry st 54 (zAlgHash st) r7.2.1 r7.2.2
  let r9 := zEntry st 55 (zBstr st) r8.2.1 r8.2.2
  (⟨r1.1, r2.1, r3.1, r4.1, r5.1, r6.1, r7.1, r8.1, r9.1⟩, r9.2.1, r9.2.2)

theorem zIdMap_stages (st : Bool) (b : Bytes) :
    zIdMap st b = match zStart st 5 b with
      | none => none
      | some (n0, b0) =>
        if (mapStages st n0 b0).2.1 = 0 then some ((mapStages st n0 b0).1, (mapStages st n0 b0).2.2) else none := by
  unfold zIdMap
  cases zStart st 5 b with
  | none => rfl
  | some r =>
    obtain ⟨n0, b0⟩ := r
    unfold mapStages
    simp only

/-- an entry that is there but whose value is no good blocks all that follow -/
theorem entry_stuck {α : Type} {st : Bool} {k k' n : Nat} {g : Bytes → Option (α × Bytes)} {b b' : Bytes}
    (h : zExpect st k b = some b') (hk : k ≠ k') : zEntry st k' g n b = (none, n, b) := by
  have : zExpect st k' b = none := by
    unfold zExpect at h ⊢
    split
    · rename_i m v l hh
      rw [hh] at h
      simp only at h
      split at h
      · rename_i hv
        rw [if_neg (by omega)]
      · cases h
    · rfl
  unfold zEntry
  rw [this]
  split <;> rfl

theorem entry_bad {α : Type} {st : Bool} {k n : Nat} {g : Bytes → Option (α × Bytes)} {b b' : Bytes}
    (h : zExpect st k b = some b') (hg : g b' = none) : zEntry st k g n b = (none, n, b) := by
  unfold zEntry
  rw [h]
  simp only
  rw [hg]
  split <;> rfl

/-- a matching key is followed by a good value -/
def Good {α : Type} (st : Bool) (k : Nat) (g : Bytes → Option (α × Bytes)) (n : Nat) (b : Bytes) : Prop :=
  ∀ b', n ≠ 0 → zExpect st k b = some b' → (g b').isSome = true

/-- at every stage -/
def AllGood (st : Bool) (n0 : Nat) (b0 : Bytes) : Prop :=
  let r1 := zEntry st 4 (zIntOrBstr st) n0 b0
  let r2 := zEntry st 32 (zBstr st) r1.2.1 r1.2.2
  let r3 := zEntry st 33 (zBstr st) r2.2.1 r2.2.2
  let r4 := zEntry st 34 (zAlgHash st) r3.2.1 r3.2.2
  let r5 := zEntry st 35 (zBstr st) r4.2.1 r4.2.2
  let r6 := zEntry st 52 (zBstr st) r5.2.1 r5.2.2
  let r7 := zEntry st 53 (zBstr st) r6.2.1 r6.2.2
  let r8 := zEntry st 54 (zAlgHash st) r7.2.1 r7.2.2
  Good st 4 (zIntOrBstr st) n0 b0 ∧ Good st 32 (zBstr st) r1.2.1 r1.2.2 ∧ Good st 33 (zBstr st) r2.2.1 r2.2.2 ∧
  Good st 34 (zAlgHash st) r3.2.1 r3.2.2 ∧ Good st 35 (zBstr st) r4.2.1 r4.2.2 ∧ Good st 52 (zBstr st) r5.2.1 r5.2.2 ∧
  Good st 53 (zBstr st) r6.2.1 r6.2.2 ∧ Good st 54 (zAlgHash st) r7.2.1 r7.2.2 ∧ Good st 55 (zBstr st) r8.2.1 r8.2.2

theorem allGood_of_done {st : Bool} {n0 : Nat} {b0 : Bytes} (h : (mapStages st n0 b0).2.1 = 0) : AllGood st n0 b0 := by
  unfold mapStages at h
  unfold AllGood
  simp only at h ⊢
  refine ⟨?_, ?_, ?_, ?_, ?_, ?_, ?_, ?_, ?_⟩
  · intro b' hn hx
    cases hg : zIntOrBstr st b' with
    | some r => rfl
    | none =>
      simp only [entry_bad hx hg, entry_stuck hx (show 4 ≠ 32 by decide), entry_stuck hx (show 4 ≠ 33 by decide),
        entry_stuck hx (show 4 ≠ 34 by decide), entry_stuck hx (show 4 ≠ 35 by decide), entry_stuck hx (show 4 ≠ 52 by decide),
        entry_stuck hx (show 4 ≠ 53 by decide), entry_stuck hx (show 4 ≠ 54 by decide), entry_stuck hx (show 4 ≠ 55 by decide)] at h
      exact absurd h hn
  · generalize zEntry st 4 (zIntOrBstr st) n0 b0 = r at h ⊢
    intro b' hn hx
    cases hg : zBstr st b' with
    | some r => rfl
    | none =>
      simp only [entry_bad hx hg, entry_stuck hx (show 32 ≠ 33 by decide),
        entry_stuck hx (show 32 ≠ 34 by decide), entry_stuck hx (show 32 ≠ 35 by decide), entry_stuck hx (show 32 ≠ 52 by decide),
        entry_stuck hx (show 32 ≠ 53 by decide), entry_stuck hx (show 32 ≠ 54 by decide), entry_stuck hx (show 32 ≠ 55 by decide)] at h
      exact absurd h hn
  · generalize zEntry st 32 (zBstr st) _ _ = r at h ⊢
    intro b' hn hx
    cases hg : zBstr st b' with
    | some r => rfl
    | none =>
      simp only [entry_bad hx hg,
        entry_stuck hx (show 33 ≠ 34 by decide), entry_stuck hx (show 33 ≠ 35 by decide), entry_stuck hx (show 33 ≠ 52 by decide),
        entry_stuck hx (show 33 ≠ 53 by decide), entry_stuck hx (show 33 ≠ 54 by decide), entry_stuck hx (show 33 ≠ 55 by decide)] at h
      exact absurd h hn
  · generalize zEntry st 33 (zBstr st) _ _ = r at h ⊢
    intro b' hn hx
    cases hg : zAlgHash st b' with
    | some r => rfl
    | none =>
      simp only [entry_bad hx hg,
        entry_stuck hx (show 34 ≠ 35 by decide), entry_stuck hx (show 34 ≠ 52 by decide),
        entry_stuck hx (show 34 ≠ 53 by decide), entry_stuck hx (show 34 ≠ 54 by decide), entry_stuck hx (show 34 ≠ 55 by decide)] at h
      exact absurd h hn
  · generalize zEntry st 34 (zAlgHash st) _ _ = r at h ⊢
    intro b' hn hx
    cases hg : zBstr st b' with
    | some r => rfl
    | none =>
      simp only [entry_bad hx hg, entry_stuck hx (show 35 ≠ 52 by decide),
        entry_stuck hx (show 35 ≠ 53 by decide), entry_stuck hx (show 35 ≠ 54 by decide), entry_stuck hx (show 35 ≠ 55 by decide)] at h
      exact absurd h hn
  · generalize zEntry st 35 (zBstr st) _ _ = r at h ⊢
    intro b' hn hx
    cases hg : zBstr st b' with
    | some r => rfl
    | none =>
      simp only [entry_bad hx hg,
        entry_stuck hx (show 52 ≠ 53 by decide), entry_stuck hx (show 52 ≠ 54 by decide), entry_stuck hx (show 52 ≠ 55 by decide)] at h
      exact absurd h hn
  · generalize zEntry st 52 (zBstr st) _ _ = r at h ⊢
    intro b' hn hx
    cases hg : zBstr st b' with
    | some r => rfl
    | none =>
      simp only [entry_bad hx hg, entry_stuck hx (show 53 ≠ 54 by decide), entry_stuck hx (show 53 ≠ 55 by decide)] at h
      exact absurd h hn
  · generalize zEntry st 53 (zBstr st) _ _ = r at h ⊢
    intro b' hn hx
    cases hg : zAlgHash st b' with
    | some r => rfl
    | none =>
      simp only [entry_bad hx hg, entry_stuck hx (show 54 ≠ 55 by decide)] at h
      exact absurd h hn
  · generalize zEntry st 54 (zAlgHash st) _ _ = r at h ⊢
    intro b' hn hx
    cases hg : zBstr st b' with
    | some r => rfl
    | none =>
      simp only [entry_bad hx hg] at h
      exact absurd h hn

theorem bstr_succ' (L : Lib) : Succ (bstrDecode L) (zBstr L.strict) 2 := str_succ L 2 2

theorem kid_succ' (L : Lib) : Succ (uIntBstr L) (zIntOrBstr L.strict) 2 := by
  intro s x l he hk hg
  rw [uIntBstr_eq]
  exact uIntStr_succ L (by omega) s x l he (by omega) hg

/-- the body of the map -/
theorem map_body {L : Lib} {n : Nat} {s : ZS} (hn : s.ec = 2 * n) (hb : s.baks.length + 2 ≤ s.nb)
    (h : L.Tidy ∨ AllGood L.strict n s.pay) :
    (andThen (presentDecode (decKid L)) fun kid =>
     andThen (presentDecode (decEntry L 32)) fun x5bag =>
     andThen (presentDecode (decEntry L 33)) fun x5chain =>
     andThen (presentDecode (decThumb L 34)) fun x5t =>
     andThen (presentDecode (decEntry L 35)) fun x5u =>
     andThen (presentDecode (decEntry L 52)) fun c5b =>
     andThen (presentDecode (decEntry L 53)) fun c5c =>
     andThen (presentDecode (decThumb L 54)) fun c5t =>
     andThen (presentDecode (decEntry L 55)) fun c5u =>
     done (⟨kid, x5bag, x5chain, x5t, x5u, c5b, c5c, c5t, c5u⟩ : IdMap)) s =
      (some (mapStages L.strict n s.pay).1,
        { s with pay := (mapStages L.strict n s.pay).2.2, ec := 2 * (mapStages L.strict n s.pay).2.1 }) := by
  have hbs : ∀ k n (s : ZS), s.ec = 2 * n → s.baks.length + 2 ≤ s.nb → (L.Tidy ∨ Good L.strict k (zBstr L.strict) n s.pay) →
      presentDecode (decEntry L k) s = (some (zEntry L.strict k (zBstr L.strict) n s.pay).1,
        { s with pay := (zEntry L.strict k (zBstr L.strict) n s.pay).2.2,
                 ec := 2 * (zEntry L.strict k (zBstr L.strict) n s.pay).2.1 }) := by
    intro k n s hn hb h
    exact entry_spec (bstr_succ' L) (h.imp (fun ht => (str_fails ht 2).fails 2) id) hn hb
  have hal : ∀ k n (s : ZS), s.ec = 2 * n → s.baks.length + 2 ≤ s.nb → (L.Tidy ∨ Good L.strict k (zAlgHash L.strict) n s.pay) →
      presentDecode (decThumb L k) s = (some (zEntry L.strict k (zAlgHash L.strict) n s.pay).1,
        { s with pay := (zEntry L.strict k (zAlgHash L.strict) n s.pay).2.2,
                 ec := 2 * (zEntry L.strict k (zAlgHash L.strict) n s.pay).2.1 }) := by
    intro k n s hn hb h
    exact entry_spec (thumb_succ L) (h.imp (fun ht => thumb_fails ht) id) hn hb
  have hki : ∀ n (s : ZS), s.ec = 2 * n → s.baks.length + 2 ≤ s.nb → (L.Tidy ∨ Good L.strict 4 (zIntOrBstr L.strict) n s.pay) →
      presentDecode (decKid L) s = (some (zEntry L.strict 4 (zIntOrBstr L.strict) n s.pay).1,
        { s with pay := (zEntry L.strict 4 (zIntOrBstr L.strict) n s.pay).2.2,
                 ec := 2 * (zEntry L.strict 4 (zIntOrBstr L.strict) n s.pay).2.1 }) := by
    intro n s hn hb h
    refine entry_spec (kid_succ' L) (h.imp (fun ht => ?_) id) hn hb
    intro s he hk hg
    exact uIntStr_fails ht 2 s he (by omega) hg
  unfold AllGood at h
  simp only at h
  unfold mapStages
  simp only
  have h1 := h.imp id (fun h => h.1)
  have h2 := h.imp id (fun h => h.2.1)
  have h3 := h.imp id (fun h => h.2.2.1)
  have h4 := h.imp id (fun h => h.2.2.2.1)
  have h5 := h.imp id (fun h => h.2.2.2.2.1)
  have h6 := h.imp id (fun h => h.2.2.2.2.2.1)
  have h7 := h.imp id (fun h => h.2.2.2.2.2.2.1)
  have h8 := h.imp id (fun h => h.2.2.2.2.2.2.2.1)
  have h9 := h.imp id (fun h => h.2.2.2.2.2.2.2.2)
  clear h
  rw [andThen, hki n s hn hb h1]
  simp only
  generalize zEntry L.strict 4 (zIntOrBstr L.strict) n s.pay = r1 at *
  rw [andThen, hbs 32 r1.2.1 ⟨r1.2.2, 2 * r1.2.1, s.baks, s.nb⟩ rfl hb h2]
  simp only
  generalize zEntry L.strict 32 (zBstr L.strict) r1.2.1 r1.2.2 = r2 at *
  rw [andThen, hbs 33 r2.2.1 ⟨r2.2.2, 2 * r2.2.1, s.baks, s.nb⟩ rfl hb h3]
  simp only
  generalize zEntry L.strict 33 (zBstr L.strict) r2.2.1 r2.2.2 = r3 at *
  rw [andThen, hal 34 r3.2.1 ⟨r3.2.2, 2 * r3.2.1, s.baks, s.nb⟩ rfl hb h4]
  simp only
  generalize zEntry L.strict 34 (zAlgHash L.strict) r3.2.1 r3.2.2 = r4 at *
  rw [andThen, hbs 35 r4.2.1 ⟨r4.2.2, 2 * r4.2.1, s.baks, s.nb⟩ rfl hb h5]
  simp only
  generalize zEntry L.strict 35 (zBstr L.strict) r4.2.1 r4.2.2 = r5 at *
  rw [andThen, hbs 52 r5.2.1 ⟨r5.2.2, 2 * r5.2.1, s.baks, s.nb⟩ rfl hb h6]
  simp only
  generalize zEntry L.strict 52 (zBstr L.strict) r5.2.1 r5.2.2 = r6 at *
  rw [andThen, hbs 53 r6.2.1 ⟨r6.2.2, 2 * r6.2.1, s.baks, s.nb⟩ rfl hb h7]
  simp only
  generalize zEntry L.strict 53 (zBstr L.strict) r6.2.1 r6.2.2 = r7 at *
  rw [andThen, hal 54 r7.2.1 ⟨r7.2.2, 2 * r7.2.1, s.baks, s.nb⟩ rfl hb h8]
  simp only
  generalize zEntry L.strict 54 (zAlgHash L.strict) r7.2.1 r7.2.2 = r8 at *
  rw [andThen, hbs 55 r8.2.1 ⟨r8.2.2, 2 * r8.2.1, s.baks, s.nb⟩ rfl hb h9]
  rfl

theorem stages_le {α : Type} {st : Bool} {k n : Nat} {g : Bytes → Option (α × Bytes)} {b : Bytes} :
    n ≤ (zEntry st k g n b).2.1 + 1 := by
  unfold zEntry
  split
  · simp
  · split
    · simp
    · split
      · simp
      · simp; omega

theorem stages_count {st : Bool} {n0 : Nat} {b0 : Bytes} (h : (mapStages st n0 b0).2.1 = 0) : n0 ≤ 9 := by
  unfold mapStages at h
  simp only at h
  have h1 := stages_le (st := st) (k := 4) (n := n0) (g := zIntOrBstr st) (b := b0)
  generalize zEntry st 4 (zIntOrBstr st) n0 b0 = r1 at *
  have h2 := stages_le (st := st) (k := 32) (n := r1.2.1) (g := zBstr st) (b := r1.2.2)
  generalize zEntry st 32 (zBstr st) r1.2.1 r1.2.2 = r2 at *
  have h3 := stages_le (st := st) (k := 33) (n := r2.2.1) (g := zBstr st) (b := r2.2.2)
  generalize zEntry st 33 (zBstr st) r2.2.1 r2.2.2 = r3 at *
  have h4 := stages_le (st := st) (k := 34) (n := r3.2.1) (g := zAlgHash st) (b := r3.2.2)
  generalize zEntry st 34 (zAlgHash st) r3.2.1 r3.2.2 = r4 at *
  have h5 := stages_le (st := st) (k := 35) (n := r4.2.1) (g := zBstr st) (b := r4.2.2)
  generalize zEntry st 35 (zBstr st) r4.2.1 r4.2.2 = r5 at *
  have h6 := stages_le (st := st) (k := 52) (n := r5.2.1) (g := zBstr st) (b := r5.2.2)
  generalize zEntry st 52 (zBstr st) r5.2.1 r5.2.2 = r6 at *
  have h7 := stages_le (st := st) (k := 53) (n := r6.2.1) (g := zBstr st) (b := r6.2.2)
  generalize zEntry st 53 (zBstr st) r6.2.1 r6.2.2 = r7 at *
  have h8 := stages_le (st := st) (k := 54) (n := r7.2.1) (g := zAlgHash st) (b := r7.2.2)
  generalize zEntry st 54 (zAlgHash st) r7.2.1 r7.2.2 = r8 at *
  have h9 := stages_le (st := st) (k := 55) (n := r8.2.1) (g := zBstr st) (b := r8.2.2)
  omega

theorem map_succ {L : Lib} (hl : 9 < L.mapLimit) : Succ (decMap L) (zIdMap L.strict) 3 := by
  intro s x l he hk hg
  rw [zIdMap_stages] at hg
  cases h0 : zStart L.strict 5 s.pay with
  | none => rw [h0] at hg; cases hg
  | some r =>
    obtain ⟨n, b0⟩ := r
    rw [h0] at hg
    simp only at hg
    split at hg
    · rename_i hd
      simp only [Option.some.injEq, Prod.mk.injEq] at hg
      obtain ⟨rfl, rfl⟩ := hg
      have hn := stages_count hd
      unfold decMap bracket
      rw [mapStart_ok L he (by omega) (by omega) h0]
      simp only
      rw [map_body (n := n) (s := ⟨b0, 2 * n, (b0, s.ec - 1) :: s.baks, s.nb⟩) rfl (by simp; omega) (Or.inr (allGood_of_done hd))]
      simp only
      generalize mapStages L.strict n b0 = r at *
      rw [hd]
      rfl
    · cases hg

theorem map_fails {L : Lib} (ht : L.Tidy) : Fails (decMap L) (zIdMap L.strict) 3 := by
  intro s he hk hg
  rw [zIdMap_stages] at hg
  unfold decMap bracket
  cases h0 : zStart L.strict 5 s.pay with
  | none =>
    obtain ⟨p, e, h⟩ := mapStart_fails (L := L) h0
    rw [h]
    exact ⟨p, e, rfl⟩
  | some r =>
    obtain ⟨n, b0⟩ := r
    rw [h0] at hg
    simp only at hg
    split at hg
    · cases hg
    · rename_i hd
      by_cases hn : n < L.mapLimit
      · rw [mapStart_ok L he (by omega) hn h0]
        simp only
        rw [map_body (n := n) (s := ⟨b0, 2 * n, (b0, s.ec - 1) :: s.baks, s.nb⟩) rfl (by simp; omega) (Or.inl ht)]
        simp only
        unfold listEnd
        simp only
        rw [if_neg (by omega)]
        exact ⟨_, _, rfl⟩
      · rw [mapStart_huge ht he (by omega) hn h0]
        exact ⟨_, _, rfl⟩

end Verif.Zcbor
