import Verif.Lemmas.P256Mul
import Verif.Lemmas.P256Prime
import Verif.Spec.P256Spec
import Mathlib.FieldTheory.Finite.Basic
/-
The functions of src/common/crypto_p256.c as operations of the field with p elements.
-/
namespace Verif.P256
open Verif

/-- the field -/
abbrev F := ZMod P256Spec.p

instance : Fact (Nat.Prime P256Spec.p) := ⟨prime_p256⟩

theorem val_p : val p256p.m = P256Spec.p := by decide +kernel

theorem p_good : p256p.Good where
  len := rfl
  len2 := rfl
  ni := by decide +kernel
  r2 := by decide +kernel
  pos := by decide +kernel

/-- 2^256 in the field -/
def rr : F := ((2 ^ 256 : Nat) : F)

theorem rr_ne : rr ≠ 0 := by
  unfold rr
  rw [Ne, ZMod.natCast_eq_zero_iff]
  decide +kernel

/-- limbs that are a reduced number -/
def Red (z : Limbs) : Prop := z.length = 8 ∧ val z < P256Spec.p

/-- the field element represented by limbs in the Montgomery domain -/
def fe (z : Limbs) : F := (val z : F) * rr⁻¹

theorem cast_eq_of_modEq {a b : Nat} (h : a ≡ b [MOD val p256p.m]) : ((a : Nat) : F) = (b : F) := by
  rw [val_p] at h
  exact (ZMod.natCast_eq_natCast_iff _ _ _).2 h

theorem Red.inj {x y : Limbs} (hx : Red x) (hy : Red y) (h : (val x : F) = (val y : F)) : x = y := by
  apply val_inj _ _ (by rw [hx.1, hy.1])
  rw [ZMod.natCast_eq_natCast_iff'] at h
  rwa [Nat.mod_eq_of_lt hx.2, Nat.mod_eq_of_lt hy.2] at h

theorem fe_inj {x y : Limbs} (hx : Red x) (hy : Red y) (h : fe x = fe y) : x = y := by
  apply Red.inj hx hy
  unfold fe at h
  exact mul_right_cancel₀ (inv_ne_zero rr_ne) h

theorem mul_raw (x y : Limbs) (hx : x.length = 8) (hy : Red y) :
    Red (m256Mul x y p256p) ∧ (val (m256Mul x y p256p) : F) * rr = (val x : F) * (val y : F) := by
  obtain ⟨h1, h2, h3⟩ := mul_spec x y p256p p_good hx hy.1 (by rw [val_p]; exact hy.2)
  rw [val_p] at h1
  refine ⟨⟨h2, h1⟩, ?_⟩
  have := cast_eq_of_modEq h3
  rw [Nat.cast_mul, Nat.cast_mul] at this
  exact this

theorem fe_mul (x y : Limbs) (hx : Red x) (hy : Red y) :
    Red (m256Mul x y p256p) ∧ fe (m256Mul x y p256p) = fe x * fe y := by
  obtain ⟨h1, h2⟩ := mul_raw x y hx.1 hy
  refine ⟨h1, ?_⟩
  unfold fe
  have e : (val (m256Mul x y p256p) : F) = (val x : F) * (val y : F) * rr⁻¹ := by
    rw [← h2, mul_assoc, mul_inv_cancel₀ rr_ne, mul_one]
  rw [e]; ring

theorem fe_add (x y : Limbs) (hx : Red x) (hy : Red y) :
    Red (m256Add x y p256p) ∧ fe (m256Add x y p256p) = fe x + fe y := by
  obtain ⟨h1, h2, h3⟩ := madd_spec x y p256p p_good hx.1 hy.1 (by rw [val_p]; exact hx.2)
    (by rw [val_p]; exact hy.2)
  rw [val_p] at h1
  refine ⟨⟨h2, h1⟩, ?_⟩
  have := cast_eq_of_modEq h3
  rw [Nat.cast_add] at this
  unfold fe
  rw [this]; ring

theorem fe_sub (x y : Limbs) (hx : Red x) (hy : Red y) :
    Red (m256Sub x y p256p) ∧ fe (m256Sub x y p256p) = fe x - fe y := by
  obtain ⟨h1, h2, h3⟩ := msub_spec x y p256p p_good hx.1 hy.1 (by rw [val_p]; exact hx.2)
    (by rw [val_p]; exact hy.2)
  rw [val_p] at h1
  refine ⟨⟨h2, h1⟩, ?_⟩
  have := cast_eq_of_modEq h3
  rw [Nat.cast_add] at this
  unfold fe
  rw [← this]; ring

theorem r2_red : Red p256p.r2 := ⟨rfl, by decide +kernel⟩

theorem r2_cast : (val p256p.r2 : F) = rr * rr := by
  rw [p_good.r2, val_p]
  unfold rr
  have e : (2 : Nat) ^ 512 = 2 ^ 256 * 2 ^ 256 := by rw [← Nat.pow_add]
  rw [← Nat.cast_mul, ZMod.natCast_mod, e]

theorem fe_prep (z : Limbs) (hz : z.length = 8) :
    Red (m256Prep z p256p) ∧ fe (m256Prep z p256p) = (val z : F) := by
  obtain ⟨h1, h2⟩ := mul_raw z p256p.r2 hz r2_red
  refine ⟨h1, ?_⟩
  rw [r2_cast] at h2
  have e : (val (m256Prep z p256p) : F) = (val z : F) * rr := by
    apply mul_right_cancel₀ rr_ne
    unfold m256Prep; rw [h2]; ring
  unfold fe; rw [e, mul_assoc, mul_inv_cancel₀ rr_ne, mul_one]

theorem set32_val (x : UInt32) : val (u256Set32 x) = x.toNat := by simp [u256Set32, val]

theorem done_spec (z : Limbs) (hz : Red z) :
    Red (m256Done z p256p) ∧ (val (m256Done z p256p) : F) = fe z := by
  obtain ⟨h1, h2⟩ := mul_raw z (u256Set32 1) hz.1 ⟨rfl, by decide +kernel⟩
  refine ⟨h1, ?_⟩
  rw [set32_val] at h2
  unfold fe m256Done
  rw [eq_mul_inv_iff_mul_eq₀ rr_ne, h2]
  simp

theorem one_spec : Red (m256Set32 1 p256p) ∧ fe (m256Set32 1 p256p) = 1 := by
  obtain ⟨h1, h2⟩ := fe_prep (u256Set32 1) rfl
  refine ⟨h1, ?_⟩
  unfold m256Set32; rw [h2, set32_val]; simp

/-! ### bytes -/

theorem or_add (a b k : Nat) (hb : b < 2 ^ k) (ha : 2 ^ k ∣ a) : a ||| b = a + b := by
  obtain ⟨c, rfl⟩ := ha
  exact (Nat.two_pow_add_eq_or_of_lt hb c).symm

theorem limbOfBytes_val (a b c d : UInt8) :
    (limbOfBytes a b c d).toNat
      = a.toNat * 2 ^ 24 + b.toNat * 2 ^ 16 + c.toNat * 2 ^ 8 + d.toNat := by
  have ha := a.toNat_lt
  have hb := b.toNat_lt
  have hc := c.toNat_lt
  have hd := d.toNat_lt
  have s1 : (a.toUInt32 <<< 24).toNat = a.toNat * 2 ^ 24 := by
    simp [Nat.shiftLeft_eq]; omega
  have s2 : (b.toUInt32 <<< 16).toNat = b.toNat * 2 ^ 16 := by
    simp [Nat.shiftLeft_eq]; omega
  have s3 : (c.toUInt32 <<< 8).toNat = c.toNat * 2 ^ 8 := by
    simp [Nat.shiftLeft_eq]; omega
  unfold limbOfBytes
  rw [UInt32.toNat_or, UInt32.toNat_or, UInt32.toNat_or, s1, s2, s3, UInt8.toNat_toUInt32]
  rw [or_add (a.toNat * 2 ^ 24) (b.toNat * 2 ^ 16) 24 (by omega) (by omega)]
  rw [or_add _ (c.toNat * 2 ^ 8) 16 (by omega) (by omega)]
  rw [or_add _ d.toNat 8 (by omega) (by omega)]

theorem fromBytes_len (n : Nat) (p : Bytes) (h : p.length = 4 * n) : (u256FromBytes p).length = n := by
  induction n generalizing p with
  | zero =>
    have : p = [] := List.length_eq_zero_iff.1 (by omega)
    subst this; rfl
  | succ n ih =>
    match p, h with
    | a :: b :: c :: d :: p, h =>
      simp only [u256FromBytes, List.length_append, List.length_cons, List.length_nil]
      rw [ih p (by simp at h; omega)]

theorem fromBytes_val (n : Nat) (p : Bytes) (h : p.length = 4 * n) :
    val (u256FromBytes p) = beVal p := by
  induction n generalizing p with
  | zero =>
    have : p = [] := List.length_eq_zero_iff.1 (by omega)
    subst this; rfl
  | succ n ih =>
    match p, h with
    | a :: b :: c :: d :: p, h =>
      have hp : p.length = 4 * n := by simp at h; omega
      simp only [u256FromBytes, beVal, List.length_cons]
      rw [val_append, ih p hp, fromBytes_len n p hp, val, val, limbOfBytes_val, hp]
      have e : (256 : Nat) ^ (4 * n) = 2 ^ (32 * n) := by
        rw [show (256 : Nat) = 2 ^ 8 from rfl, ← Nat.pow_mul]; congr 1; omega
      simp only [Nat.pow_succ, e]
      ring

theorem beVal_append (x y : Bytes) : beVal (x ++ y) = beVal x * 256 ^ y.length + beVal y := by
  induction x with
  | nil => simp [beVal]
  | cons a x ih => simp only [List.cons_append, beVal, ih, List.length_append, Nat.pow_add]; ring

theorem toBytes_cons (a : UInt32) (z : Limbs) : u256ToBytes (a :: z) = u256ToBytes z ++ bytesOfLimb a := by
  simp [u256ToBytes]

theorem toBytes_len (z : Limbs) : (u256ToBytes z).length = 4 * z.length := by
  induction z with
  | nil => rfl
  | cons a z ih => rw [toBytes_cons, List.length_append, ih]; simp [bytesOfLimb]; omega

theorem bytesOfLimb_val (z : UInt32) : beVal (bytesOfLimb z) = z.toNat := by
  have hz := z.toNat_lt
  simp only [bytesOfLimb, beVal, List.length_cons, List.length_nil]
  simp [Nat.shiftRight_eq_div_pow]
  omega

theorem toBytes_val (z : Limbs) : beVal (u256ToBytes z) = val z := by
  induction z with
  | nil => rfl
  | cons a z ih =>
    rw [toBytes_cons, beVal_append, ih, bytesOfLimb_val, val]
    simp [bytesOfLimb]; ring

theorem be_eq (l : Bytes) : P256Spec.be l = beVal l := by
  unfold P256Spec.be
  have key : ∀ n, l.foldl (fun n x => n * 256 + x.toNat) n = n * 256 ^ l.length + beVal l := by
    induction l with
    | nil => intro n; simp [beVal]
    | cons a l ih => intro n; rw [List.foldl_cons, ih]; simp only [beVal, List.length_cons, Nat.pow_succ]; ring
  rw [key]; simp

/-! ### the curve -/

theorem b_red : Red p256b := ⟨rfl, by decide +kernel⟩

theorem b_fe : fe p256b = (P256Spec.b : F) := by
  unfold fe
  rw [mul_inv_eq_iff_eq_mul₀ rr_ne]
  unfold rr
  rw [← Nat.cast_mul, ZMod.natCast_eq_natCast_iff']
  decide +kernel

/-- crypto_p256.c:702-707 computes x^3 - 3x + b -/
theorem rhs_spec (x : Limbs) (hx : Red x) :
    Red (curveRhs x) ∧ fe (curveRhs x) = fe x ^ 3 - 3 * fe x + (P256Spec.b : F) := by
  unfold curveRhs
  simp only []
  obtain ⟨a1, e1⟩ := fe_mul x x hx hx
  obtain ⟨a2, e2⟩ := fe_mul _ x a1 hx
  obtain ⟨a3, e3⟩ := fe_sub _ x a2 hx
  obtain ⟨a4, e4⟩ := fe_sub _ x a3 hx
  obtain ⟨a5, e5⟩ := fe_sub _ x a4 hx
  obtain ⟨a6, e6⟩ := fe_add _ p256b a5 b_red
  refine ⟨a6, ?_⟩
  rw [e6, e5, e4, e3, e2, e1, b_fe]
  ring

theorem diffGo_zero (x y : Limbs) (h : x.length = y.length) (d : UInt32) :
    u256DiffGo d x y = 0 ↔ d = 0 ∧ x = y := by
  induction x generalizing y d with
  | nil => cases y with
    | nil => simp [u256DiffGo]
    | cons b y => simp at h
  | cons a x ih =>
    cases y with
    | nil => simp at h
    | cons b y =>
      rw [u256DiffGo, ih y (by simpa using h), List.cons.injEq]
      have : (d ||| (a ^^^ b)) = 0 ↔ d = 0 ∧ a = b := by
        rw [UInt32.or_eq_zero_iff, UInt32.xor_eq_zero_iff]
      rw [this]
      exact and_assoc

/-- `point_check` (crypto_p256.c:687-694) -/
theorem pointCheck_spec (x y : Limbs) (hx : Red x) (hy : Red y) :
    pointCheck x y = 0 ↔ fe y ^ 2 = fe x ^ 3 - 3 * fe x + (P256Spec.b : F) := by
  obtain ⟨a1, e1⟩ := fe_mul y y hy hy
  obtain ⟨a2, e2⟩ := rhs_spec x hx
  unfold pointCheck u256Diff
  rw [diffGo_zero _ _ (by rw [a1.1, a2.1]), ← e2]
  constructor
  · rintro ⟨_, h⟩; rw [← h, e1, pow_two]
  · intro h; exact ⟨rfl, fe_inj a1 a2 (by rw [← h, e1, pow_two])⟩

/-- `m256_from_bytes` (crypto_p256.c:605-613) -/
theorem fromBytes_spec (p : Bytes) (h : p.length = 32) :
    (beVal p < P256Spec.p → ∃ z, m256FromBytes p p256p = some z ∧ Red z ∧ fe z = (beVal p : F)) ∧
    (¬ beVal p < P256Spec.p → m256FromBytes p p256p = none) := by
  have hl := fromBytes_len 8 p h
  have hv := fromBytes_val 8 p h
  obtain ⟨s1, s2, s3⟩ := sub_spec (u256FromBytes p) p256p.m (by rw [hl]; decide)
  have hb := val_lt (u256Sub (u256FromBytes p) p256p.m).1
  rw [s3] at hb
  have l8 : p256p.m.length = 8 := rfl
  rw [List.take_of_length_le (by rw [hl, l8]), hv, val_p, l8] at s1
  rw [l8] at hb
  have hp : P256Spec.p < 2 ^ 256 := by decide +kernel
  have hlt : beVal p < 2 ^ 256 := by have := val_lt (u256FromBytes p); rwa [hl, hv] at this
  unfold m256FromBytes
  simp only []
  constructor
  · intro hlt
    have h1 : (u256Sub (u256FromBytes p) p256p.m).2 = 1 := by
      rcases le_one_cases _ s2 with h0 | h1
      · rw [h0] at s1; simp at s1; omega
      · exact h1
    rw [if_neg (by rw [h1]; simp)]
    obtain ⟨r1, r2⟩ := fe_prep (u256FromBytes p) hl
    exact ⟨_, rfl, r1, by rw [r2, hv]⟩
  · intro hge
    have h0 : (u256Sub (u256FromBytes p) p256p.m).2 = 0 := by
      rcases le_one_cases _ s2 with h0 | h1
      · exact h0
      · rw [h1] at s1; simp at s1; omega
    rw [if_pos (by rw [h0]; decide)]

/-- `m256_to_bytes` (crypto_p256.c:628-635) -/
theorem toBytes_spec (junk z : Limbs) (hj : junk.length = 8) (hz : Red z) :
    (m256ToBytes junk z p256p).length = 32 ∧ beVal (m256ToBytes junk z p256p) < P256Spec.p ∧
    (beVal (m256ToBytes junk z p256p) : F) = fe z := by
  obtain ⟨d1, d2⟩ := done_spec z hz
  unfold m256ToBytes
  rw [cmov_one _ _ (by rw [hz.1, hj]), toBytes_len, toBytes_val, d1.1]
  exact ⟨rfl, d1.2, d2⟩

/-! ### exponentiation -/

theorem expLimb_spec (n : Nat) (e : UInt32) (r y : Limbs) (he : e.toNat < 2 ^ n) (hr : Red r)
    (hy : Red y) :
    Red (expLimb n e r y).1 ∧ Red (expLimb n e r y).2 ∧
    fe (expLimb n e r y).1 = fe r * fe y ^ e.toNat ∧ fe (expLimb n e r y).2 = fe y ^ 2 ^ n := by
  induction n generalizing e r y with
  | zero =>
    have : e.toNat = 0 := by simpa using he
    simp only [expLimb]
    rw [this]; simp [hr, hy]
  | succ n ih =>
    obtain ⟨y1, y2⟩ := fe_mul y y hy hy
    obtain ⟨m1, m2⟩ := fe_mul r y hr hy
    have e1 : (e >>> 1).toNat = e.toNat / 2 := by simp [Nat.shiftRight_eq_div_pow]
    have e2 : (e &&& 1).toNat = e.toNat % 2 := by
      rw [UInt32.toNat_and]; exact Nat.and_one_is_mod _
    have hlt : (e >>> 1).toNat < 2 ^ n := by rw [e1]; rw [Nat.pow_succ] at he; omega
    simp only [expLimb]
    by_cases hb : e &&& 1 ≠ 0
    · rw [if_pos hb]
      have ho : e.toNat % 2 = 1 := by
        have : (e &&& 1).toNat ≠ 0 := fun h => hb (UInt32.toNat_inj.1 h)
        omega
      obtain ⟨i1, i2, i3, i4⟩ := ih (e >>> 1) _ _ hlt m1 y1
      refine ⟨i1, i2, ?_, ?_⟩
      · rw [i3, e1, m2, y2, ← pow_two, ← pow_mul, mul_assoc, ← pow_succ']
        congr 2; omega
      · rw [i4, y2, ← pow_two, ← pow_mul, ← pow_succ']
    · rw [if_neg hb]
      have ho : e.toNat % 2 = 0 := by
        have : e &&& 1 = 0 := not_not.1 hb
        rw [← e2, this]; rfl
      obtain ⟨i1, i2, i3, i4⟩ := ih (e >>> 1) _ _ hlt hr y1
      refine ⟨i1, i2, ?_, ?_⟩
      · rw [i3, e1, y2, ← pow_two, ← pow_mul]
        congr 2; omega
      · rw [i4, y2, ← pow_two, ← pow_mul, ← pow_succ']

theorem expLoop_spec (es r y : Limbs) (hr : Red r) (hy : Red y) :
    Red (expLoop es r y) ∧ fe (expLoop es r y) = fe r * fe y ^ val es := by
  induction es generalizing r y with
  | nil => simp [expLoop, val, hr]
  | cons e es ih =>
    obtain ⟨i1, i2, i3, i4⟩ := expLimb_spec 32 e r y e.toNat_lt hr hy
    obtain ⟨j1, j2⟩ := ih _ _ i1 i2
    refine ⟨j1, ?_⟩
    simp only [expLoop]
    rw [j2, i3, i4, val, ← pow_mul, mul_assoc, ← pow_add]

theorem exp_val : val p256exp = (P256Spec.p + 1) / 4 := by decide +kernel

/-- a square root of a square (p = 3 mod 4) -/
theorem sqrt_spec (a y : F) (h : y ^ 2 = a) : (a ^ ((P256Spec.p + 1) / 4)) ^ 2 = a := by
  have e : 2 * ((P256Spec.p + 1) / 4 * 2) = P256Spec.p + 1 := by decide +kernel
  rw [← h, ← pow_mul, ← pow_mul, e, pow_succ, ZMod.pow_card, pow_two]

end Verif.P256
