import Verif.Model.Base
namespace Verif

theorem byte_toNat {n : Nat} (h : n < 256) : (byte n).toNat = n := by
  simp only [byte, UInt8.toNat_ofNat']; omega

theorem byte_inj {a b : Nat} (ha : a < 256) (hb : b < 256) (h : byte a = byte b) : a = b := by
  have := congrArg UInt8.toNat h
  rwa [byte_toNat ha, byte_toNat hb] at this

theorem toNat_lt256 (b : UInt8) : b.toNat < 256 := UInt8.toNat_lt b

theorem byte_of_toNat (b : UInt8) : byte b.toNat = b := UInt8.ofNat_toNat

theorem uint8_ext {a b : UInt8} (h : a.toNat = b.toNat) : a = b := UInt8.toNat_inj.1 h

theorem beVal_lt (l : Bytes) : beVal l < 256 ^ l.length := by
  induction l with
  | nil => simp [beVal]
  | cons b l ih =>
    simp only [beVal, List.length_cons, Nat.pow_succ]
    have := toNat_lt256 b
    have : b.toNat * 256 ^ l.length + 256 ^ l.length ≤ 256 * 256 ^ l.length := by
      have h2 : (b.toNat + 1) * 256 ^ l.length ≤ 256 * 256 ^ l.length :=
        Nat.mul_le_mul_right _ (by omega)
      rw [Nat.add_mul] at h2; omega
    rw [Nat.mul_comm (256 ^ l.length)]
    omega

theorem beVal_append (l m : Bytes) : beVal (l ++ m) = beVal l * 256 ^ m.length + beVal m := by
  induction l with
  | nil => simp [beVal]
  | cons b l ih =>
    simp only [List.cons_append, beVal, ih, List.length_append, Nat.pow_add, Nat.add_mul,
      Nat.mul_assoc]
    omega

theorem beVal_replicate_zero (n : Nat) (l : Bytes) :
    beVal (List.replicate n 0 ++ l) = beVal l := by
  induction n with
  | zero => simp
  | succ n ih => simp [List.replicate_succ, beVal, ih]

/-- equal length + equal value = equal strings -/
theorem beVal_inj : ∀ {l m : Bytes}, l.length = m.length → beVal l = beVal m → l = m
  | [], [], _, _ => rfl
  | a :: l, b :: m, hl, hv => by
    simp only [List.length_cons, Nat.add_right_cancel_iff] at hl
    simp only [beVal] at hv
    rw [hl] at hv
    have h1 := beVal_lt l
    have h2 := beVal_lt m
    rw [hl] at h1
    have hp : 0 < 256 ^ m.length := Nat.pow_pos (by omega)
    have hab : a.toNat = b.toNat := by
      have e1 : (a.toNat * 256 ^ m.length + beVal l) / 256 ^ m.length = a.toNat := by
        rw [Nat.mul_comm, Nat.mul_add_div hp, Nat.div_eq_of_lt h1]; omega
      have e2 : (b.toNat * 256 ^ m.length + beVal m) / 256 ^ m.length = b.toNat := by
        rw [Nat.mul_comm, Nat.mul_add_div hp, Nat.div_eq_of_lt h2]; omega
      rw [← e1, ← e2, hv]
    have hlm : beVal l = beVal m := by rw [hab] at hv; omega
    rw [uint8_ext hab, beVal_inj hl hlm]

theorem memcpyS_ok {n : Nat} {s t : Bytes} : memcpyS n s = .ok t ↔ t = s ∧ s.length ≤ n := by
  unfold memcpyS checkBufferSize
  by_cases h : s.length = 0
  · have : s = [] := List.length_eq_zero_iff.1 h
    simp only [h, if_true]
    subst this
    simp [eq_comm]
  · rw [if_neg h]
    split
    · simp; omega
    · simp [eq_comm]; omega

theorem memcpyS_eq {n : Nat} {s : Bytes} :
    memcpyS n s = if s.length ≤ n then .ok s else .err .buffer_to_small := by
  unfold memcpyS checkBufferSize
  by_cases h : s.length = 0
  · have : s = [] := List.length_eq_zero_iff.1 h
    subst this; simp
  · rw [if_neg h]
    split
    · rw [if_neg (by omega)]; rfl
    · rw [if_pos (by omega)]; rfl

theorem checkBufferSize_ok {a b : Nat} {u : Unit} : checkBufferSize a b = .ok u ↔ b ≤ a := by
  unfold checkBufferSize; split <;> simp <;> omega

theorem arrayEquals_go {l r : Bytes} (h : l.length = r.length) :
    arrayEquals.go l r = true ↔ l = r := by
  induction l generalizing r with
  | nil =>
    have : r = [] := List.length_eq_zero_iff.1 (by simpa using h.symm)
    subst this; simp [arrayEquals.go]
  | cons a l ih =>
    cases r with
    | nil => simp at h
    | cons b r =>
      unfold arrayEquals.go
      by_cases hab : a = b
      · simp [hab, ih (by simpa using h)]
      · simp [hab]

theorem arrayEquals_iff {l r : Bytes} : arrayEquals l r = true ↔ l = r := by
  unfold arrayEquals
  by_cases h : l.length = r.length
  · simp only [h, beq_self_eq_true, Bool.true_and]
    exact arrayEquals_go h
  · simp [h]; intro hh; exact absurd (congrArg List.length hh) h

end Verif
