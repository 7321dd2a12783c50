import Verif.Spec.CborSpec
import Verif.Model.Cbor
import Verif.Lemmas.BytesLemmas
/-
The encoding of CBOR items is prefix-free; the model's encoders are instances of the specification.
-/
namespace Verif.Cbor
open Verif

theorem be_length : ∀ k n, (be k n).length = k
  | 0, _ => rfl
  | k + 1, n => by simp [be, be_length k n]

theorem beVal_be : ∀ k n, beVal (be k n) = n % 256 ^ k
  | 0, n => by simp [be, beVal, Nat.mod_one]
  | k + 1, n => by
    simp only [be, beVal, be_length, beVal_be k n]
    rw [byte_toNat (Nat.mod_lt _ (by omega))]
    have h1 : 256 ^ (k + 1) = 256 ^ k * 256 := Nat.pow_succ ..
    rw [h1, Nat.mod_mul, Nat.mul_comm, Nat.add_comm]

/-- read an initial byte and its argument -/
def readHead : Bytes → Option (Nat × Nat × Bytes)
  | [] => none
  | b :: l =>
    let m := b.toNat / 32
    let a := b.toNat % 32
    if a < 24 then some (m, a, l)
    else if a = 24 then some (m, beVal (l.take 1), l.drop 1)
    else if a = 25 then some (m, beVal (l.take 2), l.drop 2)
    else if a = 26 then some (m, beVal (l.take 4), l.drop 4)
    else if a = 27 then some (m, beVal (l.take 8), l.drop 8)
    else none

theorem readHead_head {m n : Nat} (x : Bytes) (hm : m < 8) (hn : n < 2 ^ 64) :
    readHead (head m n ++ x) = some (m, n, x) := by
  have key : ∀ (k a : Nat), a < 32 → (byte (m * 32 + a)).toNat / 32 = m ∧ (byte (m * 32 + a)).toNat % 32 = a := by
    intro k a ha
    rw [byte_toNat (by omega)]; omega
  have tk : ∀ k, (be k n ++ x).take k = be k n := fun k => by
    rw [List.take_append_of_le_length (by rw [be_length]; exact Nat.le_refl _),
      List.take_of_length_le (by rw [be_length]; exact Nat.le_refl _)]
  have dk : ∀ k, (be k n ++ x).drop k = x := fun k => by
    rw [List.drop_append_of_le_length (by rw [be_length]; exact Nat.le_refl _),
      List.drop_of_length_le (by rw [be_length]; exact Nat.le_refl _), List.nil_append]
  unfold head
  split
  · rename_i h
    obtain ⟨h1, h2⟩ := key 0 n (by omega)
    simp only [List.singleton_append, readHead, h1, h2, if_pos h]
  · split
    · obtain ⟨h1, h2⟩ := key 0 24 (by omega)
      simp only [List.cons_append, readHead, h1, h2, tk, dk, beVal_be]
      rw [Nat.mod_eq_of_lt (by omega)]
      simp
    · split
      · obtain ⟨h1, h2⟩ := key 0 25 (by omega)
        simp only [List.cons_append, readHead, h1, h2, tk, dk, beVal_be]
        rw [Nat.mod_eq_of_lt (by omega)]
        simp
      · split
        · obtain ⟨h1, h2⟩ := key 0 26 (by omega)
          simp only [List.cons_append, readHead, h1, h2, tk, dk, beVal_be]
          rw [Nat.mod_eq_of_lt (by omega)]
          simp
        · obtain ⟨h1, h2⟩ := key 0 27 (by omega)
          simp only [List.cons_append, readHead, h1, h2, tk, dk, beVal_be]
          rw [Nat.mod_eq_of_lt (by omega)]
          simp

/-- heads are prefix-free -/
theorem head_inj {m n m' n' : Nat} {x y : Bytes} (hm : m < 8) (hn : n < 2 ^ 64) (hm' : m' < 8)
    (hn' : n' < 2 ^ 64) (h : head m n ++ x = head m' n' ++ y) : m = m' ∧ n = n' ∧ x = y := by
  have := readHead_head x hm hn
  rw [h, readHead_head y hm' hn'] at this
  simp only [Option.some.injEq, Prod.mk.injEq] at this
  exact ⟨this.1.symm, this.2.1.symm, this.2.2.symm⟩

/-- major type of an item -/
def major : Item → Nat
  | .uint _ => 0 | .nint _ => 1 | .bstr _ => 2 | .tstr _ => 3 | .arr _ => 4 | .map _ => 5 | .null => 7

/-- argument of an item -/
def arg : Item → Nat
  | .uint n => n | .nint n => n | .bstr b => b.length | .tstr b => b.length | .arr l => l.length
  | .map l => l.length / 2 | .null => 22

/-- what follows the head -/
def body : Item → Bytes
  | .uint _ => [] | .nint _ => [] | .bstr b => b | .tstr b => b | .arr l => encList l
  | .map l => encList l | .null => []

theorem enc_eq (i : Item) : enc i = head (major i) (arg i) ++ body i := by
  cases i <;> simp [enc, major, arg, body]
  rfl

theorem major_lt (i : Item) : major i < 8 := by cases i <;> simp [major]
theorem arg_lt {i : Item} (h : i.Ok) : arg i < 2 ^ 64 := by
  cases i <;> simp only [arg, Item.Ok] at * <;> omega

mutual
/-- the encoding is prefix-free: an item can be told from what follows it -/
theorem enc_prefix_free : ∀ (i j : Item) (x y : Bytes), i.Ok → j.Ok → enc i ++ x = enc j ++ y →
    i = j ∧ x = y
  | i, j, x, y, hi, hj, h => by
    rw [enc_eq i, enc_eq j, List.append_assoc, List.append_assoc] at h
    obtain ⟨hm, ha, hb⟩ := head_inj (major_lt i) (arg_lt hi) (major_lt j) (arg_lt hj) h
    cases i with
    | uint n => cases j <;> simp_all [major, arg, body]
    | nint n => cases j <;> simp_all [major, arg, body]
    | bstr b =>
      cases j <;> simp_all [major, arg, body]
      exact List.append_inj hb ha
    | tstr b =>
      cases j <;> simp_all [major, arg, body]
      exact List.append_inj hb ha
    | arr l =>
      cases j <;> simp only [major, arg, body, reduceCtorEq, Nat.reduceEqDiff] at *
      rename_i l'
      rw [Item.Ok] at hi hj
      obtain ⟨h1, h2⟩ := encList_prefix_free l l' x y hi.2 hj.2 ha hb
      exact ⟨by rw [h1], h2⟩
    | map l =>
      cases j <;> simp only [major, arg, body, reduceCtorEq, Nat.reduceEqDiff] at *
      rename_i l'
      rw [Item.Ok] at hi hj
      obtain ⟨h1, h2⟩ := encList_prefix_free l l' x y hi.2.2 hj.2.2 (by omega) hb
      exact ⟨by rw [h1], h2⟩
    | null => cases j <;> simp_all [major, arg, body]
/-- sequences of equal length are prefix-free -/
theorem encList_prefix_free : ∀ (l m : List Item) (x y : Bytes), OkList l → OkList m →
    l.length = m.length → encList l ++ x = encList m ++ y → l = m ∧ x = y
  | [], [], x, y, _, _, _, h => by simpa [encList] using h
  | i :: l, j :: m, x, y, hi, hj, hl, h => by
    rw [OkList] at hi hj
    rw [encList, encList, List.append_assoc, List.append_assoc] at h
    obtain ⟨h1, h2⟩ := enc_prefix_free i j _ _ hi.1 hj.1 h
    obtain ⟨h3, h4⟩ := encList_prefix_free l m x y hi.2 hj.2 (by simpa using hl) h2
    exact ⟨by rw [h1, h3], h4⟩
end

theorem enc_inj {i j : Item} (hi : i.Ok) (hj : j.Ok) (h : enc i = enc j) : i = j :=
  (enc_prefix_free i j [] [] hi hj (by rw [h])).1

theorem head_ne_nil (m n : Nat) : head m n ≠ [] := by
  unfold head; repeat' split
  all_goals simp

theorem enc_ne_nil (i : Item) : enc i ≠ [] := by
  rw [enc_eq]; simp [head_ne_nil]

/-- a CBOR sequence determines its items -/
theorem encList_inj : ∀ {l m : List Item}, OkList l → OkList m → encList l = encList m → l = m
  | [], [], _, _, _ => rfl
  | [], j :: m, _, _, h => by
    rw [encList, encList] at h
    exact absurd (List.append_eq_nil_iff.1 h.symm).1 (enc_ne_nil j)
  | i :: l, [], _, _, h => by
    rw [encList, encList] at h
    exact absurd (List.append_eq_nil_iff.1 h).1 (enc_ne_nil i)
  | i :: l, j :: m, hi, hj, h => by
    rw [OkList] at hi hj
    rw [encList, encList] at h
    obtain ⟨h1, h2⟩ := enc_prefix_free i j _ _ hi.1 hj.1 h
    rw [h1, encList_inj hi.2 hj.2 h2]

theorem byte_mod (n : Nat) : byte (n % 256) = byte n := by
  apply uint8_ext; simp [byte, UInt8.toNat_ofNat']

/-- the model's head encoder is the specified one -/
theorem cborHead_eq (m n : Nat) : cborHead m n = head m n := by
  unfold cborHead head
  simp only [be, byte_mod]
  simp

theorem cborUint_eq (n : Nat) : cborUint n = enc (.uint n) := by rw [cborUint, cborHead_eq, enc]
theorem cborInt_eq (i : Int) : cborInt i = enc (.int i) := by
  unfold cborInt Item.int
  split <;> simp [cborHead_eq, enc]
theorem cborBstr_eq (b : Bytes) : cborBstr b = enc (.bstr b) := by rw [cborBstr, cborHead_eq, enc]
theorem cborTstr_eq (b : Bytes) : cborTstr b = enc (.tstr b) := by rw [cborTstr, cborHead_eq, enc]
theorem cborArr_eq (l : List Item) : cborArr l.length ++ encList l = enc (.arr l) := by
  rw [cborArr, cborHead_eq, enc]
theorem cborMap_eq (l : List Item) : cborMap (l.length / 2) ++ encList l = enc (.map l) := by
  rw [cborMap, cborHead_eq, enc]

theorem int_ok {i : Int} (h : -2 ^ 64 ≤ i) (h' : i < 2 ^ 64) : (Item.int i).Ok := by
  unfold Item.int; split <;> simp only [Item.Ok] <;> omega

theorem cborOut_ok {cap : Nat} {e : Err} {b c : Bytes} :
    cborOut cap e b = .ok c ↔ c = b ∧ b.length ≤ cap := by
  unfold cborOut; split
  · simp_all [eq_comm]
  · simp_all

/-- length of a head -/
theorem head_length (m n : Nat) : (head m n).length =
    if n < 24 then 1 else if n < 2 ^ 8 then 2 else if n < 2 ^ 16 then 3 else if n < 2 ^ 32 then 5 else 9 := by
  unfold head; repeat' split
  all_goals simp [be_length]

end Verif.Cbor
