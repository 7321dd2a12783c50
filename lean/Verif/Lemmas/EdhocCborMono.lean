import Verif.Lemmas.EdhocCodecLemmas
/-
The zcbor decoders do not look behind the item they accept: an accepted prefix is accepted, with the same
value, whatever follows.
-/
namespace Verif.Edhoc
open Verif Verif.Cbor

theorem zArg_mono {s : Bool} {m k m' v : Nat} {b l : Bytes} (x : Bytes) (h : zArg s m k b = some (m', v, l)) :
    zArg s m k (b ++ x) = some (m', v, l ++ x) := by
  unfold zArg at h ⊢
  split at h
  · cases h
  · rename_i hl
    have ht : (b ++ x).take k = b.take k := by rw [List.take_append_of_le_length (by omega)]
    have hd : (b ++ x).drop k = b.drop k ++ x := by rw [List.drop_append_of_le_length (by omega)]
    rw [if_neg (by simp only [List.length_append]; omega), ht, hd]
    split at h
    · cases h
    · rename_i hs
      rw [if_neg hs]
      simp only [Option.some.injEq, Prod.mk.injEq] at h ⊢
      obtain ⟨h1, h2, h3⟩ := h
      exact ⟨h1, h2, by rw [h3]⟩

theorem zHead_mono {s : Bool} {m v : Nat} {b l : Bytes} (x : Bytes) (h : zHead s b = some (m, v, l)) :
    zHead s (b ++ x) = some (m, v, l ++ x) := by
  cases b with
  | nil => cases h
  | cons a t =>
    rw [List.cons_append]
    simp only [zHead] at h ⊢
    split at h
    · rename_i h1
      rw [if_pos h1]
      simp only [Option.some.injEq, Prod.mk.injEq] at h ⊢
      obtain ⟨e1, e2, e3⟩ := h
      exact ⟨e1, e2, by rw [e3]⟩
    · rename_i h1
      rw [if_neg h1]
      split at h
      · rename_i h2; rw [if_pos h2]; exact zArg_mono x h
      · rename_i h2; rw [if_neg h2]
        split at h
        · rename_i h3; rw [if_pos h3]; exact zArg_mono x h
        · rename_i h3; rw [if_neg h3]
          split at h
          · rename_i h4; rw [if_pos h4]; exact zArg_mono x h
          · rename_i h4; rw [if_neg h4]
            split at h
            · rename_i h5; rw [if_pos h5]; exact zArg_mono x h
            · cases h

theorem zInt32_mono {s : Bool} {v : Int} {b l : Bytes} (x : Bytes) (h : zInt32 s b = some (v, l)) :
    zInt32 s (b ++ x) = some (v, l ++ x) := by
  unfold zInt32 at h ⊢
  cases hh : zHead s b with
  | none => rw [hh] at h; cases h
  | some t =>
    obtain ⟨m, a, r⟩ := t
    rw [hh] at h
    rw [zHead_mono x hh]
    simp only at h ⊢
    split at h
    · rename_i h1
      rw [if_pos h1]
      split at h
      · rename_i h2; rw [if_pos h2]
        simp only [Option.some.injEq, Prod.mk.injEq] at h ⊢
        exact ⟨h.1, by rw [h.2]⟩
      · rename_i h2; rw [if_neg h2]
        split at h
        · rename_i h3; rw [if_pos h3]
          simp only [Option.some.injEq, Prod.mk.injEq] at h ⊢
          exact ⟨h.1, by rw [h.2]⟩
        · cases h
    · cases h

theorem zStr_mono {s : Bool} {mt : Nat} {v b l : Bytes} (x : Bytes) (h : zStr s mt b = some (v, l)) :
    zStr s mt (b ++ x) = some (v, l ++ x) := by
  unfold zStr at h ⊢
  cases hh : zHead s b with
  | none => rw [hh] at h; cases h
  | some t =>
    obtain ⟨m, a, r⟩ := t
    rw [hh] at h
    rw [zHead_mono x hh]
    simp only at h ⊢
    split at h
    · rename_i h1
      rw [if_pos ⟨h1.1, by simp only [List.length_append]; omega⟩]
      rw [List.take_append_of_le_length h1.2, List.drop_append_of_le_length h1.2]
      simp only [Option.some.injEq, Prod.mk.injEq] at h ⊢
      exact ⟨h.1, by rw [h.2]⟩
    · cases h

/-- an item of another major type is no int32, whatever follows -/
theorem zInt32_none_of_str {s : Bool} {mt : Nat} (hm : 2 ≤ mt) {v b l : Bytes} (x : Bytes)
    (h : zStr s mt b = some (v, l)) : zInt32 s (b ++ x) = none := by
  unfold zStr at h
  unfold zInt32
  cases hh : zHead s b with
  | none => rw [hh] at h; cases h
  | some t =>
    obtain ⟨m, a, r⟩ := t
    rw [hh] at h
    rw [zHead_mono x hh]
    simp only at h ⊢
    split at h
    · rename_i h1
      rw [if_neg (show ¬ m = 0 by omega), if_neg (show ¬ m = 1 by omega)]
      simp
    · cases h

theorem zIntOrBstr_mono {s : Bool} {v : Int ⊕ Bytes} {b l : Bytes} (x : Bytes) (h : zIntOrBstr s b = some (v, l)) :
    zIntOrBstr s (b ++ x) = some (v, l ++ x) := by
  unfold zIntOrBstr at h ⊢
  cases hi : zInt32 s b with
  | some t =>
    obtain ⟨i, r⟩ := t
    rw [hi] at h
    rw [zInt32_mono x hi]
    simp only [Option.some.injEq, Prod.mk.injEq] at h ⊢
    exact ⟨h.1, by rw [h.2]⟩
  | none =>
    rw [hi] at h
    cases hb : zBstr s b with
    | none => simp only [hb] at h; cases h
    | some t =>
      obtain ⟨i, r⟩ := t
      simp only [hb] at h
      rw [zInt32_none_of_str (by omega) x hb]
      have := zStr_mono x hb
      simp only [zBstr, this]
      simp only [Option.some.injEq, Prod.mk.injEq] at h ⊢
      exact ⟨h.1, by rw [h.2]⟩

theorem zIntOrTstr_mono {s : Bool} {v : Int ⊕ Bytes} {b l : Bytes} (x : Bytes) (h : zIntOrTstr s b = some (v, l)) :
    zIntOrTstr s (b ++ x) = some (v, l ++ x) := by
  unfold zIntOrTstr at h ⊢
  cases hi : zInt32 s b with
  | some t =>
    obtain ⟨i, r⟩ := t
    rw [hi] at h
    rw [zInt32_mono x hi]
    simp only [Option.some.injEq, Prod.mk.injEq] at h ⊢
    exact ⟨h.1, by rw [h.2]⟩
  | none =>
    rw [hi] at h
    cases hb : zTstr s b with
    | none => simp only [hb] at h; cases h
    | some t =>
      obtain ⟨i, r⟩ := t
      simp only [hb] at h
      rw [zInt32_none_of_str (by omega) x hb]
      have := zStr_mono x hb
      simp only [zTstr, this]
      simp only [Option.some.injEq, Prod.mk.injEq] at h ⊢
      exact ⟨h.1, by rw [h.2]⟩

theorem zStart_mono {s : Bool} {mt n : Nat} {b l : Bytes} (x : Bytes) (h : zStart s mt b = some (n, l)) :
    zStart s mt (b ++ x) = some (n, l ++ x) := by
  unfold zStart at h ⊢
  cases hh : zHead s b with
  | none => rw [hh] at h; cases h
  | some t =>
    obtain ⟨m, a, r⟩ := t
    rw [hh] at h
    rw [zHead_mono x hh]
    simp only at h ⊢
    split at h
    · rename_i h1
      rw [if_pos h1]
      simp only [Option.some.injEq, Prod.mk.injEq] at h ⊢
      exact ⟨h.1, by rw [h.2]⟩
    · cases h

theorem zAlgHash_mono {s : Bool} {v : (Int ⊕ Bytes) × Bytes} {b l : Bytes} (x : Bytes) (h : zAlgHash s b = some (v, l)) :
    zAlgHash s (b ++ x) = some (v, l ++ x) := by
  unfold zAlgHash at h ⊢
  cases h1 : zStart s 4 b with
  | none => rw [h1] at h; cases h
  | some t =>
    obtain ⟨n, b1⟩ := t
    rw [h1] at h
    rw [zStart_mono x h1]
    simp only at h ⊢
    split at h
    · rename_i hn
      rw [if_pos hn]
      cases h2 : zIntOrTstr s b1 with
      | none => rw [h2] at h; cases h
      | some t =>
        obtain ⟨a, b2⟩ := t
        rw [h2] at h
        rw [zIntOrTstr_mono x h2]
        simp only at h ⊢
        cases h3 : zBstr s b2 with
        | none => rw [h3] at h; cases h
        | some t =>
          obtain ⟨hh, b3⟩ := t
          rw [h3] at h
          have := zStr_mono x h3
          simp only [zBstr, this]
          simp only [Option.some.injEq, Prod.mk.injEq] at h ⊢
          exact ⟨h.1, by rw [h.2]⟩
    · cases h

/-- no key but `k` can be read here -/
def Stuck (s : Bool) (k : Nat) (b : Bytes) : Prop := ∀ k', k' ≠ k → zExpect s k' b = none

theorem zEntry_stuck {α : Type} {s : Bool} {k k' n : Nat} {b : Bytes} (f : Bytes → Option (α × Bytes))
    (h : Stuck s k b) (hk : k' ≠ k) : zEntry s k' f n b = (none, n, b) := by
  unfold zEntry
  split
  · rfl
  · rw [h k' hk]

/-- one map entry: the same result whatever follows, or the decoder is stuck at an incomplete entry -/
theorem zEntry_mono {α : Type} {s : Bool} {k n : Nat} {b : Bytes} {f : Bytes → Option (α × Bytes)} (x : Bytes)
    (hf : ∀ b v l, f b = some (v, l) → f (b ++ x) = some (v, l ++ x)) :
    (zEntry s k f n (b ++ x) = ((zEntry s k f n b).1, (zEntry s k f n b).2.1, (zEntry s k f n b).2.2 ++ x)) ∨
    (n ≠ 0 ∧ Stuck s k b ∧ zEntry s k f n b = (none, n, b)) := by
  by_cases hn : n = 0
  · left
    unfold zEntry
    simp only [if_pos hn]
  · cases hh : zHead s b with
    | none =>
      right
      have hx : ∀ k, zExpect s k b = none := by intro k; unfold zExpect; rw [hh]
      refine ⟨hn, fun k' _ => hx k', ?_⟩
      unfold zEntry
      rw [if_neg hn, hx]
    | some t =>
      obtain ⟨m, v, l⟩ := t
      have hh' := zHead_mono x hh
      by_cases hk : m = 0 ∧ v = k
      · have e1 : zExpect s k b = some l := by unfold zExpect; rw [hh]; simp only [if_pos hk]
        have e2 : zExpect s k (b ++ x) = some (l ++ x) := by unfold zExpect; rw [hh']; simp only [if_pos hk]
        cases hv : f l with
        | some t =>
          obtain ⟨a, r⟩ := t
          left
          unfold zEntry
          simp only [if_neg hn, e1, e2, hv, hf _ _ _ hv]
        | none =>
          right
          refine ⟨hn, fun k' hk' => ?_, ?_⟩
          · unfold zExpect; rw [hh]; simp only
            rw [if_neg (by omega)]
          · unfold zEntry
            simp only [if_neg hn, e1, hv]
      · left
        have e1 : zExpect s k b = none := by unfold zExpect; rw [hh]; simp only [if_neg hk]
        have e2 : zExpect s k (b ++ x) = none := by unfold zExpect; rw [hh']; simp only [if_neg hk]
        unfold zEntry
        simp only [if_neg hn, e1, e2]

theorem zIdMap_mono {s : Bool} {v : IdMap} {b l : Bytes} (x : Bytes) (h : zIdMap s b = some (v, l)) :
    zIdMap s (b ++ x) = some (v, l ++ x) := by
  unfold zIdMap at h ⊢
  cases h0 : zStart s 5 b with
  | none => rw [h0] at h; cases h
  | some t =>
    obtain ⟨n0, b0⟩ := t
    rw [h0] at h
    rw [zStart_mono x h0]
    have fi : ∀ b v l, zIntOrBstr s b = some (v, l) → zIntOrBstr s (b ++ x) = some (v, l ++ x) :=
      fun _ _ _ h => zIntOrBstr_mono x h
    have fb : ∀ b v l, zBstr s b = some (v, l) → zBstr s (b ++ x) = some (v, l ++ x) :=
      fun _ _ _ h => zStr_mono x h
    have fa : ∀ b v l, zAlgHash s b = some (v, l) → zAlgHash s (b ++ x) = some (v, l ++ x) :=
      fun _ _ _ h => zAlgHash_mono x h
    simp only at h ⊢
    rcases zEntry_mono (s := s) (k := 4) (n := n0) (b := b0) x fi with e | ⟨hn, hs, e⟩
    case inr =>
      rw [e] at h
      simp only [zEntry_stuck _ hs (show 32 ≠ 4 by decide), zEntry_stuck _ hs (show 33 ≠ 4 by decide),
        zEntry_stuck _ hs (show 34 ≠ 4 by decide), zEntry_stuck _ hs (show 35 ≠ 4 by decide),
        zEntry_stuck _ hs (show 52 ≠ 4 by decide), zEntry_stuck _ hs (show 53 ≠ 4 by decide),
        zEntry_stuck _ hs (show 54 ≠ 4 by decide), zEntry_stuck _ hs (show 55 ≠ 4 by decide), if_neg hn] at h
      cases h
    rw [e]; clear e
    rcases hz1 : zEntry s 4 (zIntOrBstr s) n0 b0 with ⟨v1, n1, b1⟩
    rw [hz1] at h
    simp only at h ⊢
    rcases zEntry_mono (s := s) (k := 32) (n := n1) (b := b1) x fb with e | ⟨hn, hs, e⟩
    case inr =>
      rw [e] at h
      simp only [zEntry_stuck _ hs (show 33 ≠ 32 by decide),
        zEntry_stuck _ hs (show 34 ≠ 32 by decide), zEntry_stuck _ hs (show 35 ≠ 32 by decide),
        zEntry_stuck _ hs (show 52 ≠ 32 by decide), zEntry_stuck _ hs (show 53 ≠ 32 by decide),
        zEntry_stuck _ hs (show 54 ≠ 32 by decide), zEntry_stuck _ hs (show 55 ≠ 32 by decide), if_neg hn] at h
      cases h
    rw [e]; clear e
    rcases hz2 : zEntry s 32 (zBstr s) n1 b1 with ⟨v2, n2, b2⟩
    rw [hz2] at h
    simp only at h ⊢
    rcases zEntry_mono (s := s) (k := 33) (n := n2) (b := b2) x fb with e | ⟨hn, hs, e⟩
    case inr =>
      rw [e] at h
      simp only [
        zEntry_stuck _ hs (show 34 ≠ 33 by decide), zEntry_stuck _ hs (show 35 ≠ 33 by decide),
        zEntry_stuck _ hs (show 52 ≠ 33 by decide), zEntry_stuck _ hs (show 53 ≠ 33 by decide),
        zEntry_stuck _ hs (show 54 ≠ 33 by decide), zEntry_stuck _ hs (show 55 ≠ 33 by decide), if_neg hn] at h
      cases h
    rw [e]; clear e
    rcases hz3 : zEntry s 33 (zBstr s) n2 b2 with ⟨v3, n3, b3⟩
    rw [hz3] at h
    simp only at h ⊢
    rcases zEntry_mono (s := s) (k := 34) (n := n3) (b := b3) x fa with e | ⟨hn, hs, e⟩
    case inr =>
      rw [e] at h
      simp only [zEntry_stuck _ hs (show 35 ≠ 34 by decide),
        zEntry_stuck _ hs (show 52 ≠ 34 by decide), zEntry_stuck _ hs (show 53 ≠ 34 by decide),
        zEntry_stuck _ hs (show 54 ≠ 34 by decide), zEntry_stuck _ hs (show 55 ≠ 34 by decide), if_neg hn] at h
      cases h
    rw [e]; clear e
    rcases hz4 : zEntry s 34 (zAlgHash s) n3 b3 with ⟨v4, n4, b4⟩
    rw [hz4] at h
    simp only at h ⊢
    rcases zEntry_mono (s := s) (k := 35) (n := n4) (b := b4) x fb with e | ⟨hn, hs, e⟩
    case inr =>
      rw [e] at h
      simp only [
        zEntry_stuck _ hs (show 52 ≠ 35 by decide), zEntry_stuck _ hs (show 53 ≠ 35 by decide),
        zEntry_stuck _ hs (show 54 ≠ 35 by decide), zEntry_stuck _ hs (show 55 ≠ 35 by decide), if_neg hn] at h
      cases h
    rw [e]; clear e
    rcases hz5 : zEntry s 35 (zBstr s) n4 b4 with ⟨v5, n5, b5⟩
    rw [hz5] at h
    simp only at h ⊢
    rcases zEntry_mono (s := s) (k := 52) (n := n5) (b := b5) x fb with e | ⟨hn, hs, e⟩
    case inr =>
      rw [e] at h
      simp only [zEntry_stuck _ hs (show 53 ≠ 52 by decide),
        zEntry_stuck _ hs (show 54 ≠ 52 by decide), zEntry_stuck _ hs (show 55 ≠ 52 by decide), if_neg hn] at h
      cases h
    rw [e]; clear e
    rcases hz6 : zEntry s 52 (zBstr s) n5 b5 with ⟨v6, n6, b6⟩
    rw [hz6] at h
    simp only at h ⊢
    rcases zEntry_mono (s := s) (k := 53) (n := n6) (b := b6) x fb with e | ⟨hn, hs, e⟩
    case inr =>
      rw [e] at h
      simp only [
        zEntry_stuck _ hs (show 54 ≠ 53 by decide), zEntry_stuck _ hs (show 55 ≠ 53 by decide), if_neg hn] at h
      cases h
    rw [e]; clear e
    rcases hz7 : zEntry s 53 (zBstr s) n6 b6 with ⟨v7, n7, b7⟩
    rw [hz7] at h
    simp only at h ⊢
    rcases zEntry_mono (s := s) (k := 54) (n := n7) (b := b7) x fa with e | ⟨hn, hs, e⟩
    case inr =>
      rw [e] at h
      simp only [zEntry_stuck _ hs (show 55 ≠ 54 by decide), if_neg hn] at h
      cases h
    rw [e]; clear e
    rcases hz8 : zEntry s 54 (zAlgHash s) n7 b7 with ⟨v8, n8, b8⟩
    rw [hz8] at h
    simp only at h ⊢
    rcases zEntry_mono (s := s) (k := 55) (n := n8) (b := b8) x fb with e | ⟨hn, hs, e⟩
    case inr =>
      rw [e] at h
      simp only [if_neg hn] at h
      cases h
    rw [e]; clear e
    rcases hz9 : zEntry s 55 (zBstr s) n8 b8 with ⟨v9, n9, b9⟩
    rw [hz9] at h
    simp only at h ⊢
    split at h
    · rename_i hn
      rw [if_pos hn]
      simp only [Option.some.injEq, Prod.mk.injEq] at h ⊢
      exact ⟨h.1, by rw [h.2]⟩
    · cases h

theorem zIdMap_none_of_head {s : Bool} {m a : Nat} {b r : Bytes} (x : Bytes) (hm : m ≠ 5)
    (h : zHead s b = some (m, a, r)) : zIdMap s (b ++ x) = none := by
  have : zStart s 5 (b ++ x) = none := by
    unfold zStart
    rw [zHead_mono x h]
    simp only [if_neg hm]
  unfold zIdMap
  rw [this]

theorem zStr_head {s : Bool} {mt : Nat} {v b l : Bytes} (h : zStr s mt b = some (v, l)) :
    ∃ a r, zHead s b = some (mt, a, r) := by
  unfold zStr at h
  cases hh : zHead s b with
  | none => rw [hh] at h; cases h
  | some t =>
    obtain ⟨m, a, r⟩ := t
    rw [hh] at h
    simp only at h
    split at h
    · rename_i h1
      exact ⟨a, r, by rw [h1.1]⟩
    · cases h

theorem zInt32_head {s : Bool} {v : Int} {b l : Bytes} (h : zInt32 s b = some (v, l)) :
    ∃ m a r, zHead s b = some (m, a, r) ∧ m ≤ 1 := by
  unfold zInt32 at h
  cases hh : zHead s b with
  | none => rw [hh] at h; cases h
  | some t =>
    obtain ⟨m, a, r⟩ := t
    rw [hh] at h
    refine ⟨m, a, r, rfl, ?_⟩
    simp only at h
    split at h
    · split at h
      · omega
      · split at h
        · omega
        · cases h
    · cases h

theorem zStr_none_of_head {s : Bool} {m mt a : Nat} {b r : Bytes} (x : Bytes) (hm : m ≠ mt)
    (h : zHead s b = some (m, a, r)) : zStr s mt (b ++ x) = none := by
  unfold zStr
  rw [zHead_mono x h]
  simp only
  rw [if_neg (by omega)]

theorem zIdField_mono {s : Bool} {v : IdField} {b l : Bytes} (x : Bytes) (h : zIdField s b = some (v, l)) :
    zIdField s (b ++ x) = some (v, l ++ x) := by
  unfold zIdField at h ⊢
  cases h1 : zIdMap s b with
  | some t =>
    obtain ⟨m, r⟩ := t
    rw [h1] at h
    rw [zIdMap_mono x h1]
    simp only [Option.some.injEq, Prod.mk.injEq] at h ⊢
    exact ⟨h.1, by rw [h.2]⟩
  | none =>
    rw [h1] at h
    simp only at h
    cases h2 : zBstr s b with
    | some t =>
      obtain ⟨m, r⟩ := t
      rw [h2] at h
      obtain ⟨a, r', hh⟩ := zStr_head h2
      have e2 : zBstr s (b ++ x) = some (m, r ++ x) := zStr_mono x h2
      rw [zIdMap_none_of_head x (by omega) hh]
      simp only [e2]
      simp only [Option.some.injEq, Prod.mk.injEq] at h ⊢
      exact ⟨h.1, by rw [h.2]⟩
    | none =>
      rw [h2] at h
      simp only at h
      cases h3 : zInt32 s b with
      | none => rw [h3] at h; cases h
      | some t =>
        obtain ⟨i, r⟩ := t
        rw [h3] at h
        obtain ⟨m, a, r', hh, hm⟩ := zInt32_head h3
        have e2 : zBstr s (b ++ x) = none := zStr_none_of_head x (by omega) hh
        rw [zIdMap_none_of_head x (by omega) hh]
        simp only [e2, zInt32_mono x h3]
        simp only [Option.some.injEq, Prod.mk.injEq] at h ⊢
        exact ⟨h.1, by rw [h.2]⟩

end Verif.Edhoc
