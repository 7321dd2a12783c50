import Verif.Lemmas.ZcborLemmas
/- The generated decoders of whole messages. -/
namespace Verif.Zcbor
open Verif Verif.Edhoc

/-! ### SUITES_I -/

/-- `zcbor_multi_decode` over integers with `n` elements left -/
theorem multi_ints {L : Lib} {l : Bytes} : ∀ {n : Nat} {i m : Nat} {acc : List Int} {baks : List (Bytes × Nat)}
    {nb : Nat} {b : Bytes} {xs : List Int}, baks.length ≤ nb → n ≤ m → 2 ≤ i + n → zInts L.strict n b = some (xs, l) →
    multiGo (int32Decode L) 2 m i acc ⟨b, n, baks, nb⟩ = (some (acc.reverse ++ xs), ⟨l, 0, baks, nb⟩)
  | 0, i, m, acc, baks, nb, b, xs, hb, hm, h2, h => by
    simp only [zInts, Option.some.injEq, Prod.mk.injEq] at h
    obtain ⟨rfl, rfl⟩ := h
    cases m with
    | zero => simp [multiGo]
    | succ m =>
      unfold multiGo int32Decode
      rw [value_none rfl]
      simp only
      rw [if_neg (by omega), List.append_nil]
  | n + 1, i, m, acc, baks, nb, b, xs, hb, hm, h2, h => by
    cases m with
    | zero => omega
    | succ m =>
      unfold zInts at h
      cases h1 : zInt32 L.strict b with
      | none => rw [h1] at h; cases h
      | some r =>
        obtain ⟨v, b'⟩ := r
        rw [h1] at h
        simp only at h
        cases h3 : zInts L.strict n b' with
        | none => rw [h3] at h; cases h
        | some r =>
          obtain ⟨vs, b''⟩ := r
          rw [h3] at h
          simp only [Option.some.injEq, Prod.mk.injEq] at h
          obtain ⟨rfl, rfl⟩ := h
          unfold multiGo
          rw [int_succ L 0 ⟨b, n + 1, baks, nb⟩ v b' (by simp) (by simpa using hb) h1]
          simp only [Nat.add_sub_cancel]
          rw [multi_ints (b := b') (xs := vs) hb (by omega) (by omega) h3]
          simp

theorem multi_ints_fails {L : Lib} (ht : L.Tidy) : ∀ {m n i : Nat} {acc : List Int} {baks : List (Bytes × Nat)}
    {nb : Nat} {b : Bytes}, baks.length ≤ nb → i + m = 10 → ¬ (n ≤ m ∧ 2 ≤ i + n ∧ (zInts L.strict n b).isSome = true) →
    ∃ r p e, multiGo (int32Decode L) 2 m i acc ⟨b, n, baks, nb⟩ = (r, ⟨p, e, baks, nb⟩) ∧ (r = none ∨ 0 < e)
  | 0, n, i, acc, baks, nb, b, hb, hi, h => by
    refine ⟨_, _, _, rfl, Or.inr ?_⟩
    cases n with
    | zero => exact absurd ⟨Nat.le_refl _, by omega, rfl⟩ h
    | succ n => exact Nat.succ_pos _
  | m + 1, 0, i, acc, baks, nb, b, hb, hi, h => by
    have h2 : i < 2 := by
      refine Decidable.byContradiction fun hc => h ⟨by omega, by omega, rfl⟩
    unfold multiGo int32Decode
    rw [value_none rfl]
    simp only
    rw [if_pos h2]
    exact ⟨_, _, _, rfl, Or.inl rfl⟩
  | m + 1, n + 1, i, acc, baks, nb, b, hb, hi, h => by
    unfold multiGo
    cases h1 : zInt32 L.strict b with
    | none =>
      rw [int_fails ht ⟨b, n + 1, baks, nb⟩ h1]
      simp only
      split
      · exact ⟨_, _, _, rfl, Or.inl rfl⟩
      · exact ⟨_, _, _, rfl, Or.inr (Nat.succ_pos _)⟩
    | some r =>
      obtain ⟨v, b'⟩ := r
      rw [int_succ L 0 ⟨b, n + 1, baks, nb⟩ v b' (by simp) (by simpa using hb) h1]
      simp only [Nat.add_sub_cancel]
      refine multi_ints_fails ht hb (by omega) fun ⟨g1, g2, g3⟩ => h ⟨by omega, by omega, ?_⟩
      unfold zInts
      rw [h1]
      simp only
      cases h3 : zInts L.strict n b' with
      | none => rw [h3] at g3; cases g3
      | some r => rfl

theorem suiteList_succ (L : Lib) : Succ (bracket (listStart L) (multiDecode 2 10 (int32Decode L))) (zSuiteList L.strict) 1 := by
  intro s x l he hk hg
  unfold zSuiteList at hg
  cases h0 : zStart L.strict 4 s.pay with
  | none => rw [h0] at hg; cases hg
  | some r =>
    obtain ⟨n, b1⟩ := r
    rw [h0] at hg
    simp only at hg
    split at hg
    · rename_i hn
      unfold bracket multiDecode
      rw [listStart_ok L he (by omega) h0]
      simp only
      rw [multi_ints (xs := x) (by simp; omega) hn.2 (by omega) hg]
      rfl
    · cases hg

theorem suiteList_fails {L : Lib} (ht : L.Tidy) :
    Fails (bracket (listStart L) (multiDecode 2 10 (int32Decode L))) (zSuiteList L.strict) 1 := by
  intro s he hk hg
  unfold zSuiteList at hg
  unfold bracket multiDecode
  cases h0 : zStart L.strict 4 s.pay with
  | none =>
    obtain ⟨p, e, h⟩ := listStart_fails (L := L) h0
    rw [h]
    exact ⟨p, e, rfl⟩
  | some r =>
    obtain ⟨n, b1⟩ := r
    rw [h0] at hg
    simp only at hg
    rw [listStart_ok L he (by omega) h0]
    simp only
    obtain ⟨r, p, e, h, hr⟩ := multi_ints_fails ht (m := 10) (n := n) (i := 0) (acc := []) (baks := (b1, s.ec - 1) :: s.baks)
      (nb := s.nb) (b := b1) (by simp; omega) rfl (by
        rintro ⟨h1, h2, h3⟩
        rw [if_pos ⟨by omega, h1⟩] at hg
        rw [hg] at h3
        cases h3)
    rw [h]
    cases r with
    | none => exact ⟨_, _, rfl⟩
    | some x =>
      rcases hr with hr | hr
      · cases hr
      · simp only
        unfold listEnd
        simp only
        rw [if_neg (by omega)]
        exact ⟨_, _, rfl⟩

theorem list_on_int (L : Lib) {st : Bool} {s : ZS} {r : Int × Bytes} (h : zInt32 st s.pay = some r) :
    listStart L s = (none, s) ∧ mapStart L s = (none, s) ∧ bstrDecode L s = (none, s) := by
  unfold zInt32 at h
  split at h
  · rename_i m v l hh
    have hm : m ≤ 1 := by
      repeat' split at h
      · omega
      · omega
      · cases h
      · cases h
    unfold listStart mapStart bstrDecode strDecode
    rw [value_type hh (by simp; omega), value_type hh (by simp; omega), value_type hh (by simp; omega)]
    exact ⟨rfl, rfl, rfl⟩
  · cases h

theorem map_on_str (L : Lib) {st : Bool} {s : ZS} {r : Bytes × Bytes} (h : zBstr st s.pay = some r) :
    mapStart L s = (none, s) := by
  unfold zBstr zStr at h
  split at h
  · rename_i m v l hh
    split at h
    · rename_i hv
      unfold mapStart
      rw [value_type hh (by simp; omega)]
    · cases h
  · cases h

theorem suites_succ (L : Lib) : Succ (uSuites L) (zSuites L.strict) 2 := by
  intro s x l he hk hg
  unfold uSuites union
  rw [unionStart_ok (by omega)]
  simp only
  unfold zSuites at hg
  unfold orElse andThen
  cases hl : zSuiteList L.strict s.pay with
  | some r =>
    obtain ⟨v, l'⟩ := r
    rw [hl] at hg
    simp only [Option.some.injEq, Prod.mk.injEq] at hg
    obtain ⟨rfl, rfl⟩ := hg
    rw [suiteList_succ L ⟨s.pay, s.ec, (s.pay, s.ec) :: s.baks, s.nb⟩ v l' he (by simp; omega) hl]
    rfl
  | none =>
    rw [hl] at hg
    simp only at hg
    cases hi : zInt32 L.strict s.pay with
    | none => rw [hi] at hg; cases hg
    | some r =>
      obtain ⟨v, l'⟩ := r
      rw [hi] at hg
      simp only [Option.some.injEq, Prod.mk.injEq] at hg
      obtain ⟨rfl, rfl⟩ := hg
      have e1 : bracket (listStart L) (multiDecode 2 10 (int32Decode L)) ⟨s.pay, s.ec, (s.pay, s.ec) :: s.baks, s.nb⟩ =
          (none, ⟨s.pay, s.ec, (s.pay, s.ec) :: s.baks, s.nb⟩) := by
        unfold bracket
        rw [(list_on_int L (s := ⟨s.pay, s.ec, (s.pay, s.ec) :: s.baks, s.nb⟩) hi).1]
      rw [e1]
      simp only
      unfold unionElem
      simp only
      rw [int_succ L 0 ⟨s.pay, s.ec, (s.pay, s.ec) :: s.baks, s.nb⟩ v l' he (by simp; omega) hi]
      rfl

theorem suites_fails {L : Lib} (ht : L.Tidy) : Fails (uSuites L) (zSuites L.strict) 2 := by
  intro s he hk hg
  unfold uSuites union
  rw [unionStart_ok (by omega)]
  simp only
  unfold zSuites at hg
  unfold orElse andThen
  cases hl : zSuiteList L.strict s.pay with
  | some r => rw [hl] at hg; simp at hg
  | none =>
    rw [hl] at hg
    simp only at hg
    cases hi : zInt32 L.strict s.pay with
    | some r => rw [hi] at hg; simp at hg
    | none =>
      obtain ⟨p, e, h⟩ := suiteList_fails ht ⟨s.pay, s.ec, (s.pay, s.ec) :: s.baks, s.nb⟩ he (by simp; omega) hl
      rw [h]
      simp only
      unfold unionElem
      simp only
      rw [int_fails ht ⟨s.pay, s.ec, (s.pay, s.ec) :: s.baks, s.nb⟩ hi]
      exact ⟨_, _, rfl⟩

/-! ### ID_CRED_x -/

theorem idField_succ {L : Lib} (hl : 9 < L.mapLimit) : Succ (uIdField L) (zIdField L.strict) 4 := by
  intro s x l he hk hg
  unfold uIdField union
  rw [unionStart_ok (by omega)]
  simp only
  unfold zIdField at hg
  unfold orElse andThen
  cases hm : zIdMap L.strict s.pay with
  | some r =>
    obtain ⟨v, l'⟩ := r
    rw [hm] at hg
    simp only [Option.some.injEq, Prod.mk.injEq] at hg
    obtain ⟨rfl, rfl⟩ := hg
    rw [map_succ hl ⟨s.pay, s.ec, (s.pay, s.ec) :: s.baks, s.nb⟩ v l' he (by simp; omega) hm]
    rfl
  | none =>
    rw [hm] at hg
    simp only at hg
    cases hb : zBstr L.strict s.pay with
    | some r =>
      obtain ⟨v, l'⟩ := r
      rw [hb] at hg
      simp only [Option.some.injEq, Prod.mk.injEq] at hg
      obtain ⟨rfl, rfl⟩ := hg
      have e1 : decMap L ⟨s.pay, s.ec, (s.pay, s.ec) :: s.baks, s.nb⟩ = (none, ⟨s.pay, s.ec, (s.pay, s.ec) :: s.baks, s.nb⟩) := by
        unfold decMap bracket
        rw [map_on_str L (s := ⟨s.pay, s.ec, (s.pay, s.ec) :: s.baks, s.nb⟩) hb]
      rw [e1]
      simp only
      unfold unionElem
      simp only
      unfold bstrDecode
      rw [str_succ L 2 0 ⟨s.pay, s.ec, (s.pay, s.ec) :: s.baks, s.nb⟩ v l' he (by simp; omega) hb]
      rfl
    | none =>
      rw [hb] at hg
      simp only at hg
      cases hi : zInt32 L.strict s.pay with
      | none => rw [hi] at hg; cases hg
      | some r =>
        obtain ⟨v, l'⟩ := r
        rw [hi] at hg
        simp only [Option.some.injEq, Prod.mk.injEq] at hg
        obtain ⟨rfl, rfl⟩ := hg
        obtain ⟨-, g2, g3⟩ := list_on_int L (s := ⟨s.pay, s.ec, (s.pay, s.ec) :: s.baks, s.nb⟩) hi
        have e1 : decMap L ⟨s.pay, s.ec, (s.pay, s.ec) :: s.baks, s.nb⟩ = (none, ⟨s.pay, s.ec, (s.pay, s.ec) :: s.baks, s.nb⟩) := by
          unfold decMap bracket
          rw [g2]
        rw [e1]
        simp only
        unfold unionElem
        simp only
        rw [g3]
        simp only
        rw [int_succ L 0 ⟨s.pay, s.ec, (s.pay, s.ec) :: s.baks, s.nb⟩ v l' he (by simp; omega) hi]
        rfl

theorem idField_fails {L : Lib} (ht : L.Tidy) : Fails (uIdField L) (zIdField L.strict) 4 := by
  intro s he hk hg
  unfold uIdField union
  rw [unionStart_ok (by omega)]
  simp only
  unfold zIdField at hg
  unfold orElse andThen
  cases hm : zIdMap L.strict s.pay with
  | some r => rw [hm] at hg; simp at hg
  | none =>
    rw [hm] at hg
    simp only at hg
    cases hb : zBstr L.strict s.pay with
    | some r => rw [hb] at hg; simp at hg
    | none =>
      rw [hb] at hg
      simp only at hg
      cases hi : zInt32 L.strict s.pay with
      | some r => rw [hi] at hg; simp at hg
      | none =>
        obtain ⟨p, e, h⟩ := map_fails ht ⟨s.pay, s.ec, (s.pay, s.ec) :: s.baks, s.nb⟩ he (by simp; omega) hm
        rw [h]
        simp only
        unfold unionElem
        simp only
        unfold bstrDecode
        rw [str_fails ht 2 ⟨s.pay, s.ec, (s.pay, s.ec) :: s.baks, s.nb⟩ hb]
        simp only
        rw [int_fails ht ⟨s.pay, s.ec, (s.pay, s.ec) :: s.baks, s.nb⟩ hi]
        exact ⟨_, _, rfl⟩

/-! ### sequences -/

/-- a decoder with one more element in front -/
theorem andThen_succ {α β : Type} {z : Z α} {g : Bytes → Option (α × Bytes)} {k : Nat} (h : Succ z g k) {f : α → Z β} {s : ZS}
    {x : α} {l : Bytes} (he : 0 < s.ec) (hb : s.baks.length + k ≤ s.nb) (hg : g s.pay = some (x, l)) :
    andThen z f s = f x { s with pay := l, ec := s.ec - 1 } := by
  unfold andThen
  rw [h s x l he hb hg]

theorem andThen_fails {α β : Type} {z : Z α} {g : Bytes → Option (α × Bytes)} {k : Nat} (h : Fails z g k) {f : α → Z β} {s : ZS}
    (he : 0 < s.ec) (hb : s.baks.length + k ≤ s.nb) (hg : g s.pay = none) : (andThen z f s).1 = none := by
  unfold andThen
  obtain ⟨p, e, h⟩ := h s he hb hg
  rw [h]

theorem optional_eq {α β : Type} (a : Z α) (f : Option α → β) (s : ZS) :
    (andThen (optional a) (fun e => done (f e)) s).1 = some (f (a s).1) := by
  unfold andThen optional done
  cases h : a s with
  | mk r s' => cases r <;> rfl

/-- the optional byte string at the end, whatever the library -/
theorem opt_eq {L : Lib} {s : ZS} (he : 0 < s.ec) (hb : s.baks.length ≤ s.nb) :
    (bstrDecode L s).1 = zOptBstr L.strict s.pay := by
  unfold zOptBstr
  cases hz : zBstr L.strict s.pay with
  | some r =>
    obtain ⟨v, l⟩ := r
    unfold bstrDecode
    rw [str_succ L 2 0 s v l he hb hz]
  | none =>
    have := value_fail (L := L) (s := s) (want := fun m => m == 2)
      (f := fun _ v l => if v ≤ l.length then some (l.take v, l.drop v) else none) (by
        intro m v l hh hw
        unfold zBstr zStr at hz
        rw [hh] at hz
        simp only at hz
        split at hz
        · cases hz
        · rename_i hc
          have hm : m = 2 := by simpa using hw
          exact if_neg fun hv => hc ⟨hm, hv⟩)
    unfold bstrDecode strDecode
    rcases this with h | h <;> rw [h]

/-! ### the entry functions -/

theorem bstr_succ0 (L : Lib) : Succ (bstrDecode L) (zBstr L.strict) 0 := str_succ L 2 0
theorem bstr_fails0 {L : Lib} (ht : L.Tidy) : Fails0 (bstrDecode L) (zBstr L.strict) := str_fails ht 2

theorem msg1_succ {L : Lib} {b : Bytes} {m : Msg1} (h : decMsg1 L.strict b = some m) : cborDecodeMessage1 L b = some m := by
  unfold decMsg1 at h
  unfold cborDecodeMessage1 entry decodeMessage1
  split at h
  · cases h
  rename_i method b1 h1
  split at h
  · cases h
  rename_i su b2 h2
  split at h
  · cases h
  rename_i gX b3 h3
  split at h
  · cases h
  rename_i cI b4 h4
  simp only [Option.some.injEq] at h
  subst h
  simp only
  rw [andThen_succ (int_succ L 0) (s := ⟨b, 5, [], 2⟩) (by simp) (by simp) h1]
  simp only
  rw [andThen_succ (suites_succ L) (s := ⟨b1, 4, [], 2⟩) (by simp) (by simp) h2]
  simp only
  rw [andThen_succ (bstr_succ0 L) (s := ⟨b2, 3, [], 2⟩) (by simp) (by simp) h3]
  simp only
  rw [andThen_succ (kid_succ' L) (s := ⟨b3, 2, [], 2⟩) (by simp) (by simp) h4]
  simp only
  rw [optional_eq, opt_eq (by simp) (by simp)]

theorem msg1_eq {L : Lib} (ht : L.Tidy) (b : Bytes) : cborDecodeMessage1 L b = decMsg1 L.strict b := by
  cases hd : decMsg1 L.strict b with
  | some m => exact msg1_succ hd
  | none =>
    unfold decMsg1 at hd
    unfold cborDecodeMessage1 entry decodeMessage1
    simp only
    cases h1 : zInt32 L.strict b with
    | none => exact andThen_fails ((int_fails ht).fails 0) (s := ⟨b, 5, [], 2⟩) (by simp) (by simp) h1
    | some r =>
      obtain ⟨method, b1⟩ := r
      rw [h1] at hd
      simp only at hd
      rw [andThen_succ (int_succ L 0) (s := ⟨b, 5, [], 2⟩) (by simp) (by simp) h1]
      simp only
      cases h2 : zSuites L.strict b1 with
      | none => exact andThen_fails (suites_fails ht) (s := ⟨b1, 4, [], 2⟩) (by simp) (by simp) h2
      | some r =>
        obtain ⟨su, b2⟩ := r
        rw [h2] at hd
        simp only at hd
        rw [andThen_succ (suites_succ L) (s := ⟨b1, 4, [], 2⟩) (by simp) (by simp) h2]
        simp only
        cases h3 : zBstr L.strict b2 with
        | none => exact andThen_fails ((bstr_fails0 ht).fails 0) (s := ⟨b2, 3, [], 2⟩) (by simp) (by simp) h3
        | some r =>
          obtain ⟨gX, b3⟩ := r
          rw [h3] at hd
          simp only at hd
          rw [andThen_succ (bstr_succ0 L) (s := ⟨b2, 3, [], 2⟩) (by simp) (by simp) h3]
          simp only
          cases h4 : zIntOrBstr L.strict b3 with
          | none => exact andThen_fails (uIntStr_fails ht 2) (s := ⟨b3, 2, [], 2⟩) (by simp) (by simp) h4
          | some r => rw [h4] at hd; cases hd

theorem ptxt3_tail {L : Lib} (hl : 9 < L.mapLimit) {b : Bytes} {p : Ptxt3} {β : Type} (f : Ptxt3 → β)
    (h : decPtxt3 L.strict b = some p) :
    (andThen (uIdField L) (fun id => andThen (bstrDecode L) fun sm => andThen (optional (bstrDecode L)) fun ead =>
      done (f ⟨id, sm, ead⟩)) ⟨b, 3, [], 4⟩).1 = some (f p) := by
  unfold decPtxt3 at h
  split at h
  · cases h
  rename_i id b1 h1
  split at h
  · cases h
  rename_i sm b2 h2
  simp only [Option.some.injEq] at h
  subst h
  rw [andThen_succ (idField_succ hl) (s := ⟨b, 3, [], 4⟩) (by simp) (by simp) h1]
  simp only
  rw [andThen_succ (bstr_succ0 L) (s := ⟨b1, 2, [], 4⟩) (by simp) (by simp) h2]
  simp only
  rw [optional_eq (bstrDecode L) (fun e => f ⟨id, sm, e⟩), opt_eq (by simp) (by simp)]

theorem ptxt3_tail_fails {L : Lib} (ht : L.Tidy) (hl : 9 < L.mapLimit) {b : Bytes} {β : Type} (f : Ptxt3 → β)
    (h : decPtxt3 L.strict b = none) :
    (andThen (uIdField L) (fun id => andThen (bstrDecode L) fun sm => andThen (optional (bstrDecode L)) fun ead =>
      done (f ⟨id, sm, ead⟩)) ⟨b, 3, [], 4⟩).1 = none := by
  unfold decPtxt3 at h
  cases h1 : zIdField L.strict b with
  | none => exact andThen_fails (idField_fails ht) (s := ⟨b, 3, [], 4⟩) (by simp) (by simp) h1
  | some r =>
    obtain ⟨id, b1⟩ := r
    rw [h1] at h
    simp only at h
    rw [andThen_succ (idField_succ hl) (s := ⟨b, 3, [], 4⟩) (by simp) (by simp) h1]
    simp only
    cases h2 : zBstr L.strict b1 with
    | none => exact andThen_fails ((bstr_fails0 ht).fails 0) (s := ⟨b1, 2, [], 4⟩) (by simp) (by simp) h2
    | some r => rw [h2] at h; cases h

theorem ptxt3_succ {L : Lib} (hl : 9 < L.mapLimit) {b : Bytes} {p : Ptxt3} (h : decPtxt3 L.strict b = some p) :
    cborDecodePtxt3 L b = some p := ptxt3_tail hl id h

theorem ptxt3_eq {L : Lib} (ht : L.Tidy) (hl : 9 < L.mapLimit) (b : Bytes) :
    cborDecodePtxt3 L b = decPtxt3 L.strict b := by
  cases hd : decPtxt3 L.strict b with
  | some m => exact ptxt3_succ hl hd
  | none => exact ptxt3_tail_fails ht hl id hd

theorem ptxt2_succ {L : Lib} (hl : 9 < L.mapLimit) {b : Bytes} {p : (Int ⊕ Bytes) × Ptxt3}
    (h : decPtxt2 L.strict b = some p) : cborDecodePtxt2 L b = some p := by
  unfold decPtxt2 at h
  split at h
  · cases h
  rename_i cR b1 h1
  split at h
  · cases h
  rename_i p h2
  simp only [Option.some.injEq] at h
  subst h
  unfold cborDecodePtxt2 entry decodePtxt2
  simp only
  rw [andThen_succ (kid_succ' L) (s := ⟨b, 4, [], 4⟩) (by simp) (by simp) h1]
  exact ptxt3_tail hl (fun p => (cR, p)) h2

theorem ptxt2_eq {L : Lib} (ht : L.Tidy) (hl : 9 < L.mapLimit) (b : Bytes) :
    cborDecodePtxt2 L b = decPtxt2 L.strict b := by
  cases hd : decPtxt2 L.strict b with
  | some m => exact ptxt2_succ hl hd
  | none =>
    unfold decPtxt2 at hd
    unfold cborDecodePtxt2 entry decodePtxt2
    simp only
    cases h1 : zIntOrBstr L.strict b with
    | none => exact andThen_fails (uIntStr_fails ht 2) (s := ⟨b, 4, [], 4⟩) (by simp) (by simp) h1
    | some r =>
      obtain ⟨cR, b1⟩ := r
      rw [h1] at hd
      simp only at hd
      rw [andThen_succ (kid_succ' L) (s := ⟨b, 4, [], 4⟩) (by simp) (by simp) h1]
      cases h2 : decPtxt3 L.strict b1 with
      | none => exact ptxt3_tail_fails ht hl (fun p => (cR, p)) h2
      | some p => rw [h2] at hd; cases hd

theorem idCred_succ {L : Lib} (hl : 9 < L.mapLimit) {b l : Bytes} {m : IdMap} (h : zIdMap L.strict b = some (m, l)) :
    cborDecodeIdCredX L b = some m := by
  unfold cborDecodeIdCredX entry
  simp only
  rw [map_succ hl ⟨b, 1, [], 3⟩ m l (by simp) (by simp) h]

theorem idCred_eq {L : Lib} (ht : L.Tidy) (hl : 9 < L.mapLimit) (b : Bytes) :
    cborDecodeIdCredX L b = (zIdMap L.strict b).map Prod.fst := by
  cases hd : zIdMap L.strict b with
  | some r => obtain ⟨m, l⟩ := r; exact idCred_succ hl hd
  | none =>
    unfold cborDecodeIdCredX entry
    obtain ⟨p, e, h⟩ := map_fails ht ⟨b, 1, [], 3⟩ (by simp) (by simp) hd
    simp only
    rw [h]
    rfl

/-- one byte string: no restoring needed -/
theorem bstr_eq (L : Lib) (b : Bytes) : cborDecodeBstr L b = (zBstr L.strict b).map Prod.fst := by
  have := opt_eq (L := L) (s := ⟨b, 1, [], 0⟩) (by simp) (by simp)
  unfold cborDecodeBstr entry
  simp only
  rw [this]
  unfold zOptBstr
  simp only
  cases zBstr L.strict b <;> rfl

theorem int_eq (L : Lib) (b : Bytes) :
    cborDecodeInt L b = (zInt32 L.strict b).map fun r => (r.1, b.length - r.2.length) := by
  unfold cborDecodeInt entry
  cases h : zInt32 L.strict b with
  | some r =>
    obtain ⟨v, l⟩ := r
    rw [int_succ L 0 ⟨b, 1, [], 2 - 2⟩ v l (by simp) (by simp) h]
    rfl
  | none =>
    have h := value_fail (L := L) (s := ⟨b, 1, [], 0⟩) (want := fun m => m == 0 || m == 1)
      (f := fun m v l => if v < 2 ^ 31 then some (if m = 0 then Int.ofNat v else -1 - Int.ofNat v, l) else none) (by
        intro m v l hh hw
        unfold zInt32 at h
        simp only at hh
        rw [hh] at h
        simp only at h
        split at h
        · split at h
          · cases h
          · split at h
            · cases h
            · rename_i h0 h1
              simp [h0, h1] at hw
        · rename_i hv
          exact if_neg hv)
    unfold int32Decode
    rcases h with h | h <;> rw [h] <;> rfl

end Verif.Zcbor
