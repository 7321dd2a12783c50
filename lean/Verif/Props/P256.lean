import Verif.Lemmas.P256Field
import Verif.Lemmas.BytesLemmas
/-
C51, C52: decompression of P-256 points (src/common/crypto_p256.c).
-/
namespace Verif.P256
open Verif

/-- number denoted by an array of 32-bit limbs, least significant first (specification) -/
def limbNum (x : List UInt32) : Nat := x.foldr (fun a n => a.toNat + 2 ^ 32 * n) 0

theorem limbNum_eq (x : Limbs) : limbNum x = val x := by
  induction x with
  | nil => rfl
  | cons a x ih => simp only [limbNum, List.foldr_cons, val] at *; rw [ih]

theorem onCurve_iff (x y : Nat) : P256Spec.OnCurve x y ↔
    x < P256Spec.p ∧ y < P256Spec.p ∧ ((y : F)) ^ 2 = (x : F) ^ 3 - 3 * (x : F) + (P256Spec.b : F) := by
  unfold P256Spec.OnCurve
  refine and_congr_right fun _ => and_congr_right fun _ => ?_
  rw [← ZMod.intCast_zmod_eq_zero_iff_dvd, ← sub_eq_zero (a := ((y : F)) ^ 2)]
  push_cast
  rfl

/-- what `crypto_p256_uncompress_point` does with an `x` that has 32 bytes -/
theorem uncompress_cases (junk : Limbs) (x : Bytes) (osize : Nat) (hj : junk.length = 8)
    (hx : x.length = 32) (ho : 65 ≤ osize) :
    (∃ yb : Bytes, yb.length = 32 ∧ P256Spec.OnCurve (P256Spec.be x) (P256Spec.be yb) ∧
      uncompressPoint junk x osize = .ok (4 :: (x ++ yb))) ∨
    ((∀ y, ¬ P256Spec.OnCurve (P256Spec.be x) y) ∧
      uncompressPoint junk x osize = .err .wrong_parameter) := by
  unfold uncompressPoint
  rw [if_neg (by simp [hx]), if_neg (by omega)]
  obtain ⟨f1, f2⟩ := fromBytes_spec x hx
  by_cases hlt : beVal x < P256Spec.p
  · obtain ⟨z, e, hz, hf⟩ := f1 hlt
    rw [e]
    simp only []
    obtain ⟨r1, r2⟩ := rhs_spec z hz
    obtain ⟨o1, o2⟩ := one_spec
    rw [cmov_one junk (curveRhs z) (by rw [r1.1, hj])]
    obtain ⟨s1, s2⟩ := expLoop_spec p256exp _ _ o1 r1
    rw [cmov_one junk _ (by rw [s1.1, hj])]
    obtain ⟨t1, t2, t3⟩ := toBytes_spec junk _ hj s1
    generalize m256ToBytes junk (expLoop p256exp (m256Set32 1 p256p) (curveRhs z)) p256p = yb at *
    obtain ⟨g1, _⟩ := fromBytes_spec yb t1
    obtain ⟨w, ew, hw, hfw⟩ := g1 t2
    have hpt : pointFromBytes x yb = true ↔ fe w ^ 2 = fe z ^ 3 - 3 * fe z + (P256Spec.b : F) := by
      unfold pointFromBytes
      rw [e, ew]
      simp only [beq_iff_eq]
      exact pointCheck_spec z w hz hw
    by_cases hp : pointFromBytes x yb = true
    · refine .inl ⟨yb, t1, ?_, by rw [if_pos hp]⟩
      rw [onCurve_iff, be_eq, be_eq]
      refine ⟨hlt, t2, ?_⟩
      rw [← hfw, ← hf]
      exact hpt.1 hp
    · refine .inr ⟨?_, by rw [if_neg hp]⟩
      intro y hy
      rw [onCurve_iff, be_eq, ← hf] at hy
      apply hp
      rw [hpt, hfw, t3, s2, o2, one_mul, exp_val, r2]
      exact sqrt_spec _ _ hy.2.2
  · rw [f2 hlt]
    refine .inr ⟨?_, rfl⟩
    intro y hy
    rw [onCurve_iff, be_eq] at hy
    exact hlt hy.1

/-- **C51** For every 32-byte string and every output buffer of at least 65 bytes, decompression
succeeds exactly if the string is the x-coordinate of a point of the curve, and what it then writes is
`04 ‖ x ‖ y` for such a point; whatever the uninitialised memory it starts from contains. -/
theorem C51_uncompress (junk : Limbs) (x : Bytes) (osize : Nat) (hj : junk.length = 8)
    (hx : x.length = 32) (ho : 65 ≤ osize) :
    ((∃ out, uncompressPoint junk x osize = .ok out) ↔ ∃ y, P256Spec.OnCurve (P256Spec.be x) y) ∧
    (∀ out, uncompressPoint junk x osize = .ok out →
      ∃ yb : Bytes, yb.length = 32 ∧ out = 4 :: (x ++ yb) ∧
        P256Spec.OnCurve (P256Spec.be x) (P256Spec.be yb)) := by
  rcases uncompress_cases junk x osize hj hx ho with ⟨yb, h1, h2, h3⟩ | ⟨h1, h2⟩
  · rw [h3]
    refine ⟨⟨fun _ => ⟨_, h2⟩, fun _ => ⟨_, rfl⟩⟩, ?_⟩
    rintro out h
    cases h
    exact ⟨yb, h1, rfl, h2⟩
  · rw [h2]
    refine ⟨⟨?_, ?_⟩, ?_⟩
    · rintro ⟨_, h⟩; cases h
    · rintro ⟨y, hy⟩; exact absurd hy (h1 y)
    · rintro _ h; cases h

/-- **C51** Anything else is refused, never undefined behaviour. -/
theorem C51_refused (junk : Limbs) (x : Bytes) (osize : Nat) (hj : junk.length = 8)
    (h : x.length ≠ 32 ∨ osize < 65 ∨ ∀ y, ¬ P256Spec.OnCurve (P256Spec.be x) y) :
    uncompressPoint junk x osize = .err .wrong_parameter := by
  by_cases hx : x.length = 32
  · by_cases ho : osize < 65
    · unfold uncompressPoint; rw [if_neg (by simp [hx]), if_pos ho]
    · rcases uncompress_cases junk x osize hj hx (by omega) with ⟨yb, h1, h2, h3⟩ | ⟨_, h2⟩
      · rcases h with h | h | h
        · exact absurd hx h
        · exact absurd h ho
        · exact absurd h2 (h _)
      · exact h2
  · unfold uncompressPoint; rw [if_pos hx]

/-- **C51** The result does not depend on the contents of the uninitialised local arrays. -/
theorem C51_no_stack_junk (j1 j2 : Limbs) (h1 : j1.length = 8) (h2 : j2.length = 8) (x : Bytes)
    (osize : Nat) : uncompressPoint j1 x osize = uncompressPoint j2 x osize := by
  have key : ∀ z : Limbs, Red z → u256Cmov j1 z 1 = u256Cmov j2 z 1 := fun z hz => by
    rw [cmov_one _ _ (by rw [hz.1, h1]), cmov_one _ _ (by rw [hz.1, h2])]
  unfold uncompressPoint
  by_cases hx : x.length = 32
  · simp only [hx, ne_eq, not_true_eq_false, if_false]
    by_cases ho : osize < 65
    · simp only [if_pos ho]
    · simp only [if_neg ho]
      by_cases hlt : beVal x < P256Spec.p
      · obtain ⟨z, e, hz, hf⟩ := (fromBytes_spec x hx).1 hlt
        rw [e]
        simp only []
        have r1 := (rhs_spec z hz).1
        rw [key _ r1]
        have c2 : u256Cmov j2 (curveRhs z) 1 = curveRhs z := cmov_one _ _ (by rw [r1.1, h2])
        have s1 := (expLoop_spec p256exp _ _ one_spec.1 r1).1
        have c3 : m256ToBytes j1 (expLoop p256exp (m256Set32 1 p256p) (curveRhs z)) p256p
            = m256ToBytes j2 (expLoop p256exp (m256Set32 1 p256p) (curveRhs z)) p256p := by
          unfold m256ToBytes; rw [key _ s1]
        rw [c2, key _ s1, cmov_one j2 _ (by rw [s1.1, h2]), c3]
      · rw [(fromBytes_spec x hx).2 hlt]
  · rw [if_pos hx, if_pos hx]

/-- **C51** The y-coordinate is determined up to sign: any point with that x has y or p - y. -/
theorem C51_up_to_sign (x y y' : Nat) (h : P256Spec.OnCurve x y) (h' : P256Spec.OnCurve x y') :
    y' = y ∨ y' + y = P256Spec.p := by
  rw [onCurve_iff] at h h'
  have e : (y' : F) ^ 2 = (y : F) ^ 2 := h'.2.2.trans h.2.2.symm
  rcases sq_eq_sq_iff_eq_or_eq_neg.1 e with h1 | h1
  · left
    have := (ZMod.natCast_eq_natCast_iff' y' y P256Spec.p).1 h1
    rwa [Nat.mod_eq_of_lt h'.2.1, Nat.mod_eq_of_lt h.2.1] at this
  · have : ((y' + y : Nat) : F) = 0 := by push_cast; rw [h1]; ring
    have := (ZMod.natCast_eq_zero_iff _ _).1 this
    obtain ⟨k, hk⟩ := this
    have a := h.2.1; have b := h'.2.1
    have hp : 0 < P256Spec.p := by decide +kernel
    match k, hk with
    | 0, hk => left; omega
    | 1, hk => right; omega
    | k + 2, hk =>
      have : P256Spec.p * 2 ≤ P256Spec.p * (k + 2) := Nat.mul_le_mul_left _ (by omega)
      omega

/-- the x-coordinate of the generator -/
def gx : Bytes :=
  [0x6B, 0x17, 0xD1, 0xF2, 0xE1, 0x2C, 0x42, 0x47, 0xF8, 0xBC, 0xE6, 0xE5, 0x63, 0xA4, 0x40, 0xF2,
   0x77, 0x03, 0x7D, 0x81, 0x2D, 0xEB, 0x33, 0xA0, 0xF4, 0xA1, 0x39, 0x45, 0xD8, 0x98, 0xC2, 0x96]

/-- the y-coordinate of the generator -/
def gy : Nat := 0x4FE342E2FE1A7F9B8EE7EB4A7C0F9E162BCE33576B315ECECBB6406837BF51F5

example : gx.length = 32 ∧ P256Spec.OnCurve (P256Spec.be gx) gy := by
  refine ⟨rfl, ?_⟩
  unfold P256Spec.OnCurve
  decide +kernel

example : ∃ out, uncompressPoint [1, 2, 3, 4, 5, 6, 7, 8] gx 65 = .ok out :=
  (C51_uncompress _ gx 65 rfl rfl (by decide)).1.2 ⟨gy, by unfold P256Spec.OnCurve; decide +kernel⟩

/-- a string that is no x-coordinate: `x^3 - 3x + b` is not a square for x = 1 -/
theorem one_no_point (y : Nat) : ¬ P256Spec.OnCurve 1 y := by
  rw [onCurve_iff]
  rintro ⟨_, _, h⟩
  have e : ((y : F)) ^ 2 = ((P256Spec.b - 2 : Nat) : F) := by
    rw [h, Nat.cast_sub (by decide +kernel)]; push_cast; ring
  have h2 : (((P256Spec.b - 2 : Nat) : F)) ^ ((P256Spec.p + 1) / 2) = ((P256Spec.b - 2 : Nat) : F) := by
    rw [← e, ← pow_mul, show 2 * ((P256Spec.p + 1) / 2) = P256Spec.p + 1 by decide +kernel, pow_succ,
      ZMod.pow_card, pow_two]
  rw [← Nat.cast_pow, ZMod.natCast_eq_natCast_iff'] at h2
  rw [← powMod_eq 256 _ _ _ (by decide +kernel)] at h2
  exact absurd h2 (by decide +kernel)

example : uncompressPoint [1, 2, 3, 4, 5, 6, 7, 8] (List.replicate 31 0 ++ [1]) 65 = .err .wrong_parameter :=
  C51_refused _ _ 65 rfl (.inr (.inr fun y => one_no_point y))

/-! ### C52: the arithmetic -/

/-- **C52** Multiply-and-add of 32-bit words: both versions are exact. -/
theorem C52_muladd64 (x y z t : UInt32) :
    (muladd64 x y z t).toNat = x.toNat * y.toNat + z.toNat + t.toNat ∧
    (muladd64Direct x y z t).toNat = x.toNat * y.toNat + z.toNat + t.toNat := by
  refine ⟨muladd64_spec x y z t, ?_⟩
  rw [← muladd64_eq_direct]; exact muladd64_spec x y z t

/-- what the comments at crypto_p256.c:406-413 require of the constants (specification): an odd 256-bit
modulus with its two derived values -/
structure ValidMod (mod : Mod) : Prop where
  len : mod.m.length = 8
  len2 : mod.r2.length = 8
  pos : 0 < limbNum mod.m
  r2 : limbNum mod.r2 = 2 ^ 512 % limbNum mod.m
  ni : (mod.ni.toNat * limbNum mod.m + 1) % 2 ^ 32 = 0

theorem ValidMod.good {mod : Mod} (v : ValidMod mod) : mod.Good where
  len := v.len
  len2 := v.len2
  ni := by
    have := v.ni
    rw [limbNum_eq] at this
    obtain ⟨k, hk⟩ := val_head mod.m
    rw [hk, Nat.mul_add, show mod.ni.toNat * (2 ^ 32 * k) = 2 ^ 32 * (mod.ni.toNat * k) by ring] at this
    omega
  r2 := by simpa [limbNum_eq] using v.r2
  pos := by simpa [limbNum_eq] using v.pos

/-- the constants of the code are of this kind, for the prime of P-256 -/
theorem C52_constants : ValidMod p256p ∧ limbNum p256p.m = P256Spec.p ∧
    limbNum p256b = P256Spec.b * 2 ^ 256 % P256Spec.p ∧ Nat.Prime P256Spec.p :=
  ⟨⟨rfl, rfl, by decide +kernel, by decide +kernel, by decide +kernel⟩, by decide +kernel, by decide +kernel,
    prime_p256⟩

/-- **C52** Addition, subtraction and Montgomery multiplication are exact modulo every valid modulus,
for all reduced operands, and give reduced results. -/
theorem C52_modular (mod : Mod) (v : ValidMod mod) (x y : Limbs) (hx : x.length = 8) (hy : y.length = 8)
    (hxa : limbNum x < limbNum mod.m) (hya : limbNum y < limbNum mod.m) :
    limbNum (m256Add x y mod) = (limbNum x + limbNum y) % limbNum mod.m ∧
    (limbNum (m256Sub x y mod) : Int) = ((limbNum x : Int) - limbNum y) % (limbNum mod.m : Int) ∧
    limbNum (m256Mul x y mod) < limbNum mod.m ∧
    limbNum (m256Mul x y mod) * 2 ^ 256 % limbNum mod.m = limbNum x * limbNum y % limbNum mod.m := by
  simp only [limbNum_eq] at *
  have g := v.good
  obtain ⟨a1, _, a3⟩ := madd_spec x y mod g hx hy hxa hya
  obtain ⟨s1, _, s3⟩ := msub_spec x y mod g hx hy hxa hya
  obtain ⟨m1, _, m3⟩ := mul_spec x y mod g hx hy hya
  refine ⟨?_, ?_, m1, m3⟩
  · have := a3
    unfold Nat.ModEq at this
    rwa [Nat.mod_eq_of_lt a1] at this
  · have h : ((val (m256Sub x y mod) : Int) + val y) % (val mod.m : Int) = (val x : Int) % (val mod.m : Int) := by
      exact_mod_cast s3
    have h2 : (val (m256Sub x y mod) : Int) % (val mod.m : Int) = ((val x : Int) - val y) % (val mod.m : Int) := by
      have : (val (m256Sub x y mod) : Int) = (val (m256Sub x y mod) : Int) + val y - val y := by ring
      rw [this, Int.sub_emod, h, ← Int.sub_emod]
    rw [← h2, Int.emod_eq_of_lt (by omega) (by omega)]

/-- **C52** Conversion into and out of the Montgomery domain are inverse to each other. -/
theorem C52_roundtrip (junk : Limbs) (hj : junk.length = 8) (x : Bytes) (hx : x.length = 32) :
    (P256Spec.be x < P256Spec.p →
      ∃ z, m256FromBytes x p256p = some z ∧ m256ToBytes junk z p256p = x) ∧
    (P256Spec.p ≤ P256Spec.be x → m256FromBytes x p256p = none) := by
  rw [be_eq]
  obtain ⟨f1, f2⟩ := fromBytes_spec x hx
  refine ⟨fun hlt => ?_, fun h => f2 (by omega)⟩
  obtain ⟨z, e, hz, hf⟩ := f1 hlt
  refine ⟨z, e, ?_⟩
  obtain ⟨t1, t2, t3⟩ := toBytes_spec junk z hj hz
  generalize m256ToBytes junk z p256p = w at *
  rw [hf] at t3
  have := (ZMod.natCast_eq_natCast_iff' _ _ P256Spec.p).1 t3
  rw [Nat.mod_eq_of_lt t2, Nat.mod_eq_of_lt hlt] at this
  exact beVal_inj (by rw [t1, hx]) this

end Verif.P256
