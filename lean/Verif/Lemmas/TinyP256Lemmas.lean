import Verif.Model.TinyP256
import Verif.Lemmas.P256Field
/-
Lemmas on the TINYCRYPT decompression: the curve has no point of order two, addition with carry, the
exponentiation loop.
-/
namespace Verif.TinyP256
open Verif.P256

/-! ### x^3 - 3x + b has no root

Arithmetic in F[X]/(X^3 - 3X + b), coefficients as numbers. -/

abbrev T := Nat × Nat × Nat

def mulT (s t : T) : T :=
  ((s.1 * t.1 + (P256Spec.p - P256Spec.b) * (s.2.1 * t.2.2 + s.2.2 * t.2.1)) % P256Spec.p,
   (s.1 * t.2.1 + s.2.1 * t.1 + 3 * (s.2.1 * t.2.2 + s.2.2 * t.2.1) +
     (P256Spec.p - P256Spec.b) * (s.2.2 * t.2.2)) % P256Spec.p,
   (s.1 * t.2.2 + s.2.1 * t.2.1 + s.2.2 * t.1 + 3 * (s.2.2 * t.2.2)) % P256Spec.p)

def powT : Nat → T → Nat → T
  | 0, _, _ => (1, 0, 0)
  | f + 1, s, e =>
    if e % 2 = 1 then mulT s (powT f (mulT s s) (e / 2)) else powT f (mulT s s) (e / 2)

def evT (r : F) (s : T) : F := (s.1 : F) + (s.2.1 : F) * r + (s.2.2 : F) * r ^ 2

theorem evT_mul {r : F} (hr : r ^ 3 - 3 * r + (P256Spec.b : F) = 0) (s t : T) :
    evT r (mulT s t) = evT r s * evT r t := by
  have hb : ((P256Spec.p - P256Spec.b : Nat) : F) = -(P256Spec.b : F) := by
    rw [Nat.cast_sub (by decide +kernel), ZMod.natCast_self, zero_sub]
  have h3 : r ^ 3 = 3 * r - (P256Spec.b : F) := by linear_combination hr
  unfold evT mulT
  simp only [ZMod.natCast_mod, Nat.cast_add, Nat.cast_mul, hb, Nat.cast_ofNat]
  obtain ⟨a0, a1, a2⟩ := s
  obtain ⟨b0, b1, b2⟩ := t
  simp only []
  linear_combination (-((a1 : F) * b2 + a2 * b1) - (a2 : F) * b2 * r) * h3

theorem evT_pow {r : F} (hr : r ^ 3 - 3 * r + (P256Spec.b : F) = 0) (f : Nat) (s : T) (e : Nat) (he : e < 2 ^ f) :
    evT r (powT f s e) = evT r s ^ e := by
  induction f generalizing s e with
  | zero =>
    have : e = 0 := by simpa using he
    subst this
    simp [powT, evT]
  | succ f ih =>
    have h2 : e / 2 < 2 ^ f := by rw [Nat.pow_succ] at he; omega
    unfold powT
    split
    · rename_i ho
      rw [evT_mul hr, ih _ _ h2, evT_mul hr, ← pow_two, ← pow_mul, ← pow_succ']
      congr 1; omega
    · rw [ih _ _ h2, evT_mul hr, ← pow_two, ← pow_mul]
      congr 1; omega

/-- the curve has no point with y = 0 -/
theorem no_root (r : F) : r ^ 3 - 3 * r + (P256Spec.b : F) ≠ 0 := by
  intro hr
  have h1 := evT_pow hr 256 (0, 1, 0) P256Spec.p (by decide +kernel)
  have h2 : evT r (0, 1, 0) = r := by simp [evT]
  rw [h2, ZMod.pow_card] at h1
  -- the inverse of X^p - X
  have h3 := evT_mul hr (76626890310466861426869089647039036757962535851890885406097439786770458211455,
      74462945259064871768191128030512052509059297803194871526163573358218695456204,
      34768139465301476436978405170953382516735956999154666452188405812258086013549)
    ((powT 256 (0, 1, 0) P256Spec.p).1, (powT 256 (0, 1, 0) P256Spec.p).2.1 - 1,
      (powT 256 (0, 1, 0) P256Spec.p).2.2)
  have h4 : evT r ((powT 256 (0, 1, 0) P256Spec.p).1, (powT 256 (0, 1, 0) P256Spec.p).2.1 - 1,
      (powT 256 (0, 1, 0) P256Spec.p).2.2) = 0 := by
    unfold evT at h1 ⊢
    simp only []
    rw [Nat.cast_sub (by decide +kernel)]
    push_cast
    linear_combination h1
  rw [h4, mul_zero] at h3
  have h5 : mulT (76626890310466861426869089647039036757962535851890885406097439786770458211455,
      74462945259064871768191128030512052509059297803194871526163573358218695456204,
      34768139465301476436978405170953382516735956999154666452188405812258086013549)
    ((powT 256 (0, 1, 0) P256Spec.p).1, (powT 256 (0, 1, 0) P256Spec.p).2.1 - 1,
      (powT 256 (0, 1, 0) P256Spec.p).2.2) = (1, 0, 0) := by decide +kernel
  rw [h5] at h3
  simp [evT] at h3

/-! ### words -/

theorem vliAddGo_spec (x y : Limbs) (h : x.length = y.length) (c : UInt32) (hc : c.toNat ≤ 1) :
    val (vliAddGo c x y).1 + 2 ^ (32 * x.length) * (vliAddGo c x y).2.toNat
      = val x + val y + c.toNat ∧ (vliAddGo c x y).2.toNat ≤ 1 ∧
    (vliAddGo c x y).1.length = x.length := by
  induction x generalizing y c with
  | nil => cases y with
    | nil => simp [vliAddGo, val, hc]
    | cons b y => simp at h
  | cons a x ih =>
    cases y with
    | nil => simp at h
    | cons b y =>
      have ha : a.toNat < 2 ^ 32 := a.toNat_lt
      have hb : b.toNat < 2 ^ 32 := b.toNat_lt
      simp only [vliAddGo]
      have es : (a + b + c).toNat = (a.toNat + b.toNat + c.toNat) % 2 ^ 32 := by
        rw [UInt32.toNat_add, UInt32.toNat_add]; omega
      have hlt : a + b + c < a ↔ (a + b + c).toNat < a.toNat := UInt32.lt_iff_toNat_lt
      have hne : a + b + c = a ↔ (a + b + c).toNat = a.toNat := UInt32.toNat_inj.symm
      generalize hs : a + b + c = s at *
      generalize hd : (if s ≠ a then (if s < a then (1 : UInt32) else 0) else c) = d
      have ed : d.toNat = (a.toNat + b.toNat + c.toNat) / 2 ^ 32 := by
        rw [← hd]
        by_cases h1 : s = a
        · rw [if_neg (by simpa using h1)]
          have := hne.1 h1
          omega
        · rw [if_pos h1]
          have h1' : s.toNat ≠ a.toNat := fun e => h1 (hne.2 e)
          by_cases h2 : s < a
          · rw [if_pos h2]
            have := hlt.1 h2
            show 1 = _
            omega
          · rw [if_neg h2]
            have : ¬ s.toNat < a.toNat := fun e => h2 (hlt.2 e)
            show 0 = _
            omega
      have hd' : d.toNat ≤ 1 := by omega
      obtain ⟨i1, i2, i3⟩ := ih y (by simpa using h) d hd'
      refine ⟨?_, i2, by simp [i3]⟩
      rw [val, pow_cons, val, val, Nat.mul_assoc]
      rw [ed] at i1
      rw [es]
      generalize 2 ^ (32 * x.length) * (vliAddGo d x y).2.toNat = k at *
      omega

theorem testBit_val (z : Limbs) (i : Nat) : testBit z i = (val z).testBit i := by
  induction z generalizing i with
  | nil => simp [testBit, val]
  | cons a z ih =>
    rw [val, Nat.add_comm, Nat.testBit_two_pow_mul_add _ a.toNat_lt]
    unfold testBit
    by_cases hi : i < 32
    · rw [if_pos hi, Nat.div_eq_of_lt hi, Nat.mod_eq_of_lt hi]; rfl
    · rw [if_neg hi, ← ih]
      unfold testBit
      have e1 : i / 32 = (i - 32) / 32 + 1 := by omega
      have e2 : i % 32 = (i - 32) % 32 := by omega
      rw [e1, e2]; rfl

theorem mod_pow_succ (m i : Nat) :
    m % 2 ^ (i + 1) = (if m.testBit i then 1 else 0) * 2 ^ i + m % 2 ^ i := by
  rw [Nat.pow_succ, Nat.mod_mul, Nat.testBit_eq_decide_div_mod_eq]
  have := Nat.mod_two_eq_zero_or_one (m / 2 ^ i)
  rcases this with h | h <;> simp [h, Nat.add_comm]

/-- the loop computes a power -/
theorem sqrtLoop_spec (u : Uecc) (hm : ∀ x y, Red x → Red y → Red (u.modMult x y) ∧
      (val (u.modMult x y) : F) = val x * val y) (a p1 : Limbs) (ha : Red a) (i : Nat) (r : Limbs) (hr : Red r) :
    Red (sqrtLoop u a p1 (i + 1) r) ∧
    (val (sqrtLoop u a p1 (i + 1) r) : F) = (val r : F) ^ 2 ^ i * (val a : F) ^ (val p1 / 4 % 2 ^ i) := by
  induction i generalizing r with
  | zero => simp [sqrtLoop, hr, Nat.mod_one]
  | succ i ih =>
    obtain ⟨m1, m2⟩ := hm r r hr hr
    obtain ⟨n1, n2⟩ := hm (u.modMult r r) a m1 ha
    have hb : testBit p1 (i + 2) = (val p1 / 4).testBit i := by
      rw [testBit_val, show (4 : Nat) = 2 ^ 2 from rfl, Nat.testBit_div_two_pow]
    simp only [sqrtLoop]
    rw [hb, mod_pow_succ]
    by_cases h : (val p1 / 4).testBit i = true
    · rw [h]
      simp only [if_true]
      obtain ⟨j1, j2⟩ := ih _ n1
      refine ⟨j1, ?_⟩
      rw [j2, n2, m2, mul_pow, Nat.pow_succ, ← pow_two, ← pow_mul,
        Nat.mul_comm 2 (2 ^ i), mul_assoc, Nat.one_mul, pow_add]
    · have h : (val p1 / 4).testBit i = false := by simpa using h
      rw [h]
      simp only [Bool.false_eq_true, if_false]
      obtain ⟨j1, j2⟩ := ih _ m1
      refine ⟨j1, ?_⟩
      rw [j2, m2, Nat.zero_mul, Nat.zero_add, Nat.pow_succ, ← pow_two, ← pow_mul, Nat.mul_comm 2 (2 ^ i)]

theorem modSqrt_spec (u : Uecc) (hm : ∀ x y, Red x → Red y → Red (u.modMult x y) ∧
      (val (u.modMult x y) : F) = val x * val y) (a : Limbs) (ha : Red a) :
    Red (modSqrt u a) ∧ (val (modSqrt u a) : F) = (val a : F) ^ ((P256Spec.p + 1) / 4) := by
  unfold modSqrt
  simp only []
  have e1 : numBits (vliAdd p256p.m one).1 - 1 = 254 + 1 := by decide +kernel
  rw [e1]
  obtain ⟨h1, h2⟩ := sqrtLoop_spec u hm a (vliAdd p256p.m one).1 ha 254 one ⟨rfl, by decide +kernel⟩
  refine ⟨h1, ?_⟩
  have e2 : val (vliAdd p256p.m one).1 / 4 % 2 ^ 254 = (P256Spec.p + 1) / 4 := by decide +kernel
  have e3 : val one = 1 := by decide +kernel
  rw [h2, e2, e3, Nat.cast_one, one_pow, one_mul]

end Verif.TinyP256
