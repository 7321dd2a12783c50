import Verif.Props.P256Dh
import Verif.Lemmas.TinyP256Lemmas
import Mathlib.NumberTheory.LegendreSymbol.Basic
/-
C56: P-256 key agreement in the TINYCRYPT configuration.
-/
namespace Verif.TinyP256
open Verif.P256 hiding gen
open Verif.P256Spec (OnCurve be curve Enc EncPoint Ecdh)

/-- What is assumed of the TinyCrypt library (specification): field arithmetic modulo p on 8-word numbers,
and scalar multiplication for points of the curve.  Nothing is assumed about points off the curve. -/
structure UeccOk (u : Uecc) (G : curve.Point) : Prop where
  modMult : ∀ x y : Limbs, x.length = 8 → y.length = 8 → (u.modMult x y).length = 8 ∧
    limbNum (u.modMult x y) = limbNum x * limbNum y % P256Spec.p
  xSide : ∀ x : Limbs, x.length = 8 → (u.xSide x).length = 8 ∧
    (limbNum (u.xSide x) : Int) = ((limbNum x : Int) ^ 3 - 3 * (limbNum x : Int) + (P256Spec.b : Int)) % (P256Spec.p : Int)
  sub : ∀ x y : Limbs, x.length = 8 → y.length = 8 → limbNum y ≤ limbNum x → (u.sub x y).length = 8 ∧
    limbNum (u.sub x y) = limbNum x - limbNum y
  shared : ∀ q P sk s, EncPoint (4 :: q) P → (u.shared q sk = some s ↔ Ecdh (be sk) P s)
  makeKey : ∀ n sk q, u.makeKey n = some (sk, q) → EncPoint (4 :: q) (be sk • G)

/-- **C56** Addition of word lists is exact, for any number of words: result and carry together are the sum. -/
theorem C56_vli_add (x y : Limbs) (h : x.length = y.length) :
    limbNum (vliAdd x y).1 + 2 ^ (32 * x.length) * (vliAdd x y).2.toNat = limbNum x + limbNum y ∧
    (vliAdd x y).2.toNat ≤ 1 ∧ (vliAdd x y).1.length = x.length := by
  have := vliAddGo_spec x y h 0 (by decide)
  simpa [vliAdd, limbNum_eq] using this

theorem toBytes_fromBytes (x : Bytes) (hx : x.length = 32) : u256ToBytes (u256FromBytes x) = x := by
  have l := fromBytes_len 8 x hx
  have v := fromBytes_val 8 x hx
  apply beVal_inj
  · rw [toBytes_len, l, hx]
  · rw [toBytes_val, v]

theorem p_odd : P256Spec.p % 2 = 1 := by decide +kernel

theorem head_parity (y : Limbs) (hy : y.length = 8) : ((y.headD 0 % 2 == 1) = true) ↔ val y % 2 = 1 := by
  cases y with
  | nil => simp at hy
  | cons a y =>
    rw [val, List.headD_cons, beq_iff_eq, ← UInt32.toNat_inj, UInt32.toNat_mod]
    show a.toNat % 2 = 1 ↔ _
    omega

/-- everything the decompression computes, for 32 bytes -/
theorem decompress_spec {u : Uecc} {G : curve.Point} (hu : UeccOk u G) (x : Bytes) (hx : x.length = 32) :
    ∃ yb : Bytes, decompress u x = .ok (x ++ yb) ∧ yb.length = 32 ∧ be yb < P256Spec.p ∧
      (be yb % 2 = 1 ↔ x.headD 0 = 3) ∧
      (((be yb : Nat) : F) ^ 2 = (((be x : Nat) : F) ^ 3 - 3 * ((be x : Nat) : F) + (P256Spec.b : F)) ^ ((P256Spec.p + 1) / 4 * 2)) := by
  unfold decompress
  rw [if_neg (by omega)]
  simp only []
  rw [List.take_of_length_le (by omega)]
  have l := fromBytes_len 8 x hx
  have v := fromBytes_val 8 x hx
  obtain ⟨s1, s2⟩ := hu.xSide _ l
  rw [limbNum_eq, limbNum_eq, v, ← be_eq] at s2
  generalize u.xSide (u256FromBytes x) = a at *
  have ha : Red a := by
    refine ⟨s1, ?_⟩
    have := Int.emod_lt_of_pos ((be x : Int) ^ 3 - 3 * (be x : Int) + (P256Spec.b : Int)) (b := (P256Spec.p : Int)) (by decide +kernel)
    rw [← s2] at this
    exact_mod_cast this
  have fa : (val a : F) = ((be x : Nat) : F) ^ 3 - 3 * ((be x : Nat) : F) + (P256Spec.b : F) := by
    have e := congrArg (fun z : Int => (z : F)) s2
    simp only [ZMod.intCast_mod] at e
    push_cast at e
    exact e
  have hm : ∀ x y, Red x → Red y → Red (u.modMult x y) ∧ (val (u.modMult x y) : F) = val x * val y := by
    intro x y hx hy
    obtain ⟨m1, m2⟩ := hu.modMult x y hx.1 hy.1
    rw [limbNum_eq, limbNum_eq, limbNum_eq] at m2
    refine ⟨⟨m1, ?_⟩, ?_⟩
    · rw [m2]; exact Nat.mod_lt _ (by decide +kernel)
    · rw [m2, ZMod.natCast_mod, Nat.cast_mul]
  obtain ⟨q1, q2⟩ := modSqrt_spec u hm a ha
  generalize modSqrt u a = y at *
  have hy0 : val y ≠ 0 := by
    intro e
    rw [e, fa, Nat.cast_zero] at q2
    exact no_root _ (pow_eq_zero_iff (by decide +kernel) |>.1 q2.symm)
  have hpm : p256p.m.length = 8 := rfl
  obtain ⟨d1, d2⟩ := hu.sub p256p.m y hpm q1.1 (by rw [limbNum_eq, limbNum_eq, val_p]; exact q1.2.le)
  rw [limbNum_eq, limbNum_eq, limbNum_eq, val_p] at d2
  have key : (chooseY u (x.headD 0) y).length = 8 ∧ val (chooseY u (x.headD 0) y) < P256Spec.p ∧
      (val (chooseY u (x.headD 0) y) % 2 = 1 ↔ x.headD 0 = 3) ∧
      (val (chooseY u (x.headD 0) y) : F) ^ 2 = (val y : F) ^ 2 := by
    have hp := head_parity y q1.1
    have hodd := p_odd
    have hlt := q1.2
    unfold chooseY
    by_cases h1 : val y % 2 = 1
    · rw [hp.2 h1]
      by_cases h3 : x.headD 0 = 3
      · rw [if_neg (by rw [h3]; decide)]
        exact ⟨q1.1, hlt, ⟨fun _ => h3, fun _ => h1⟩, rfl⟩
      · rw [if_pos (by simpa using h3)]
        refine ⟨d1, by rw [d2]; omega, ⟨fun h => ?_, fun h => absurd h h3⟩, ?_⟩
        · rw [d2] at h; omega
        · rw [d2, Nat.cast_sub hlt.le, ZMod.natCast_self, zero_sub, neg_pow_two]
    · have h1' : (y.headD 0 % 2 == 1) = false := by
        rw [← Bool.not_eq_true]; exact fun h => h1 (hp.1 h)
      rw [h1']
      by_cases h3 : x.headD 0 = 3
      · rw [if_pos (by rw [h3]; decide)]
        refine ⟨d1, by rw [d2]; omega, ⟨fun _ => h3, fun _ => ?_⟩, ?_⟩
        · rw [d2]; omega
        · rw [d2, Nat.cast_sub hlt.le, ZMod.natCast_self, zero_sub, neg_pow_two]
      · rw [if_neg (by simpa using h3)]
        exact ⟨q1.1, hlt, ⟨fun h => absurd h h1, fun h => absurd h h3⟩, rfl⟩
  obtain ⟨k1, k2, k3, k4⟩ := key
  refine ⟨u256ToBytes (chooseY u (x.headD 0) y), by rw [toBytes_fromBytes x hx], by rw [toBytes_len, k1], ?_, ?_, ?_⟩
  · rw [be_eq, toBytes_val]; exact k2
  · rw [be_eq, toBytes_val]; exact k3
  · rw [be_eq (u256ToBytes _), toBytes_val, k4, q2, fa, ← pow_mul]

/-- **C56** For every 32-byte string that is the x-coordinate of a point, decompression gives a point of the
curve with that x-coordinate; which of the two depends on the first byte of x (it is read as the format
byte of a compressed point). -/
theorem C56_decompress_partial (u : Uecc) (G : curve.Point) (hu : UeccOk u G) (x : Bytes) (hx : x.length = 32)
    (h : ∃ y, OnCurve (be x) y) :
    ∃ yb : Bytes, decompress u x = .ok (x ++ yb) ∧ yb.length = 32 ∧ OnCurve (be x) (be yb) ∧
      (be yb % 2 = 1 ↔ x.headD 0 = 3) := by
  obtain ⟨yb, h1, h2, h3, h4, h5⟩ := decompress_spec hu x hx
  obtain ⟨y, hy⟩ := h
  refine ⟨yb, h1, h2, ?_, h4⟩
  rw [onCurve_iff] at hy ⊢
  refine ⟨hy.1, h3, ?_⟩
  rw [h5, pow_mul]
  exact sqrt_spec _ _ hy.2.2

/-- **C56_false** There is no check that the value received is on the curve: for every 32-byte value that is
no x-coordinate of a point, a pair of coordinates (x, y) off the curve, with y² = -(x³ - 3x + b), is given
to the library's scalar multiplication, and what that returns is the shared secret, for every secret key. -/
theorem C56_false_invalid (u : Uecc) (G : curve.Point) (hu : UeccOk u G) (x : Bytes) (hx : x.length = 32)
    (hp : be x < P256Spec.p) (h : ∀ y, ¬ OnCurve (be x) y) :
    ∃ yb : Bytes, yb.length = 32 ∧ ¬ OnCurve (be x) (be yb) ∧
      (P256Spec.p : Int) ∣ (be yb : Int) ^ 2 + ((be x : Int) ^ 3 - 3 * (be x : Int) + (P256Spec.b : Int)) ∧
      ∀ sk s, tinyShared u sk x = .ok s ↔ u.shared (x ++ yb) sk = some s := by
  obtain ⟨yb, h1, h2, h3, h4, h5⟩ := decompress_spec hu x hx
  refine ⟨yb, h2, h _, ?_, ?_⟩
  · rw [← ZMod.intCast_zmod_eq_zero_iff_dvd]
    push_cast
    rw [h5]
    generalize hr : ((be x : Nat) : F) ^ 3 - 3 * ((be x : Nat) : F) + (P256Spec.b : F) = r
    have hr0 : r ≠ 0 := by rw [← hr]; exact no_root _
    have e : (P256Spec.p + 1) / 4 * 2 = P256Spec.p / 2 + 1 := by decide +kernel
    rw [e, pow_succ]
    rcases ZMod.pow_div_two_eq_neg_one_or_one P256Spec.p hr0 with h6 | h6
    · exfalso
      obtain ⟨w, hw⟩ := (ZMod.euler_criterion P256Spec.p hr0).2 h6
      apply h w.val
      rw [onCurve_iff, ZMod.natCast_val, ZMod.cast_id, hr]
      exact ⟨hp, ZMod.val_lt w, by rw [hw, pow_two]⟩
    · rw [h6]; ring
  · intro sk s
    unfold tinyShared
    rw [h1, R.ok_bind]
    cases u.shared (x ++ yb) sk <;> simp

/-- the public value of a generated key is an x-coordinate -/
theorem keyGen_spec {u : Uecc} {G : curve.Point} (hu : UeccOk u G) {n cap : Nat} {sk pk : Bytes}
    (h : tinyKeyGen u n cap = .ok (sk, pk)) : ∃ X Y h, be sk • G = .some X Y h ∧ Enc pk X := by
  unfold tinyKeyGen at h
  split at h
  · cases h
  · cases hg : u.makeKey n with
    | none => rw [hg] at h; cases h
    | some r =>
      obtain ⟨s', q⟩ := r
      rw [hg] at h
      simp only [R.ok.injEq, Prod.mk.injEq] at h
      obtain ⟨rfl, rfl⟩ := h
      obtain ⟨x, y, hn, xb, yb, e, hx, hy, hq⟩ := hu.makeKey n _ _ hg
      refine ⟨x, y, hn, e, ?_⟩
      have : q = xb ++ yb := (List.cons.inj hq).2
      rw [this, List.take_left' hx.1]
      exact hx

/-- the shared secret with any point of the curve whose x-coordinate is received -/
theorem shared_point {u : Uecc} {G : curve.Point} (hu : UeccOk u G) {P : curve.Point} {X Y : F} {hn}
    {skA pk : Bytes} (eB : P = .some X Y hn) (hX : Enc pk X) (s : Bytes) :
    tinyShared u skA pk = .ok s ↔ Ecdh (be skA) P s := by
  have hcurve : OnCurve (be pk) Y.val := by
    rw [onCurve_iff, hX.2]
    refine ⟨ZMod.val_lt X, ZMod.val_lt Y, ?_⟩
    rw [ZMod.natCast_val, ZMod.natCast_val, ZMod.cast_id, ZMod.cast_id]
    exact (equation_iff' X Y).1 hn.1
  obtain ⟨yb, h1, h2, h3, -⟩ := C56_decompress_partial u G hu pk hX.1 ⟨_, hcurve⟩
  have hQ : EncPoint (4 :: (pk ++ yb)) (.some ((be pk : Nat) : F) ((be yb : Nat) : F) (onCurve_point h3)) :=
    ⟨_, _, _, pk, yb, rfl, ⟨hX.1, (val_cast h3.1).symm⟩, ⟨h2, (val_cast h3.2.1).symm⟩, rfl⟩
  have hs := hu.shared (pk ++ yb) _ skA s hQ
  have exx : ((be pk : Nat) : F) = X := hX.cast
  have hpm : Ecdh (be skA) (.some ((be pk : Nat) : F) ((be yb : Nat) : F) (onCurve_point h3)) s ↔
      Ecdh (be skA) P s := by
    rcases same_x rfl eB exx with h | h
    · rw [h]
    · rw [h, ecdh_neg]
  rw [← hpm, ← hs]
  unfold tinyShared
  rw [h1, R.ok_bind]
  cases u.shared (pk ++ yb) skA <;> simp

/-- **C56** Two parties that generate ephemeral P-256 keys and send each other only the x-coordinate get the
same shared secret: the x-coordinate of the product of both secret scalars and the generator. -/
theorem C56_agreement_partial (u v : Uecc) (G : curve.Point) (hu : UeccOk u G) (hv : UeccOk v G)
    (n m capA capB : Nat) (skA pkA skB pkB : Bytes)
    (ha : tinyKeyGen u n capA = .ok (skA, pkA)) (hb : tinyKeyGen v m capB = .ok (skB, pkB)) :
    (∀ s, tinyShared u skA pkB = .ok s ↔ tinyShared v skB pkA = .ok s) ∧
    (∀ s, tinyShared u skA pkB = .ok s ↔ Ecdh (be skA * be skB) G s) := by
  have e1 : ∀ (a b : Nat) (s : Bytes), Ecdh a (b • G) s ↔ Ecdh (a * b) G s := by
    intro a b s; unfold P256Spec.Ecdh; rw [mul_smul]
  obtain ⟨_, _, _, eA, hA⟩ := keyGen_spec hu ha
  obtain ⟨_, _, _, eB, hB⟩ := keyGen_spec hv hb
  have g1 := fun s => shared_point hu (skA := skA) eB hB s
  have g2 := fun s => shared_point hv (skA := skB) eA hA s
  refine ⟨fun s => ?_, fun s => ?_⟩
  · rw [g1, g2, e1, e1, Nat.mul_comm]
  · rw [g1, e1]

/-- **C56** A TINYCRYPT device and an MBEDTLS device agree as well. -/
theorem C56_interop_partial (u : Uecc) (psa : Psa) (junk : Limbs) (hj : junk.length = 8) (G : curve.Point)
    (hu : UeccOk u G) (hp : PsaOk psa G) (n m capA capB : Nat) (skA pkA skB pkB : Bytes)
    (ha : tinyKeyGen u n capA = .ok (skA, pkA)) (hb : p256KeyGen psa m capB = .ok (skB, pkB)) (s : Bytes) :
    tinyShared u skA pkB = .ok s ↔ p256Shared psa junk skB pkA = .ok s := by
  obtain ⟨_, _, _, eA, hA⟩ := keyGen_spec hu ha
  obtain ⟨hi, _, _, _, eB, hB⟩ := P256.keyGen_spec hp hb
  rw [shared_point hu eB hB, P256.shared_point hp hj hi eA hA]
  unfold P256Spec.Ecdh
  rw [← mul_smul, ← mul_smul, Nat.mul_comm]

/-- **C56** a generated key pair fits the caller's buffer: 32 bytes are written, and only if the buffer has them -/
theorem C56_keygen_fits {u : Uecc} {G : curve.Point} (hu : UeccOk u G) {n cap : Nat} {sk pk : Bytes}
    (h : tinyKeyGen u n cap = .ok (sk, pk)) : pk.length = 32 ∧ pk.length ≤ cap := by
  obtain ⟨_, _, _, _, e⟩ := keyGen_spec hu h
  have hl : pk.length = 32 := e.1
  refine ⟨hl, ?_⟩
  rw [hl]
  unfold tinyKeyGen at h
  split at h
  · cases h
  · omega

/-- **C56_false** A public value of fewer than 32 bytes is not refused: memory behind it is read. -/
theorem C56_false_short (u : Uecc) (sk pk : Bytes) (h : pk.length < 32) : tinyShared u sk pk = .ub := by
  unfold tinyShared decompress
  rw [if_pos h]; rfl

/-- **C56_false** A value of 33 bytes (format byte and x-coordinate, which is what retrieve_cred.c:115-122
makes of a stored uncompressed key) is used as the 32-byte x-coordinate 02 ‖ x[0..30]: the last byte of the
key does not matter, and two different keys give the same shared secret. -/
theorem C56_false_compressed (u : Uecc) (sk x x' : Bytes) (hx : x.length = 32) (hx' : x'.length = 32)
    (h : x.take 31 = x'.take 31) :
    tinyShared u sk (2 :: x) = tinyShared u sk (2 :: x.take 31) ∧
    tinyShared u sk (2 :: x) = tinyShared u sk (2 :: x') := by
  have key : ∀ x : Bytes, x.length = 32 → tinyShared u sk (2 :: x) = tinyShared u sk (2 :: x.take 31) := by
    intro x hx
    have e : decompress u (2 :: x) = decompress u (2 :: x.take 31) := by
      unfold decompress
      rw [if_neg (by simp only [List.length_cons]; omega),
        if_neg (by simp only [List.length_cons, List.length_take]; omega)]
      have : (2 :: x).take 32 = (2 :: x.take 31).take 32 := by simp [List.take_take]
      rw [this]
      rfl
    unfold tinyShared
    rw [e]
  exact ⟨key x hx, by rw [key x hx, key x' hx', h]⟩

/-! ### a library that meets the assumption -/

/-- the words of a number -/
def limbsOf : Nat → Nat → Limbs
  | 0, _ => []
  | k + 1, n => UInt32.ofNat n :: limbsOf k (n / 2 ^ 32)

theorem limbsOf_spec (k n : Nat) (h : n < 2 ^ (32 * k)) : (limbsOf k n).length = k ∧ val (limbsOf k n) = n := by
  induction k generalizing n with
  | zero => simp at h; simp [limbsOf, val, h]
  | succ k ih =>
    have h2 : n / 2 ^ 32 < 2 ^ (32 * k) := by
      rw [Nat.div_lt_iff_lt_mul (by decide), ← Nat.pow_add]
      exact h
    obtain ⟨a, b⟩ := ih _ h2
    refine ⟨congrArg Nat.succ a, ?_⟩
    rw [limbsOf, val, b, UInt32.toNat_ofNat']
    omega

theorem p_lt : P256Spec.p < 2 ^ (32 * 8) := by decide +kernel

open Classical in
/-- a library that always generates the secret key 1 -/
noncomputable def exampleUecc : Uecc where
  modMult := fun x y => limbsOf 8 (val x * val y % P256Spec.p)
  xSide := fun x => limbsOf 8 (((val x : Int) ^ 3 - 3 * (val x : Int) + (P256Spec.b : Int)) % (P256Spec.p : Int)).toNat
  sub := fun x y => limbsOf 8 (val x - val y)
  shared := fun q sk => if h : ∃ s P, EncPoint (4 :: q) P ∧ Ecdh (be sk) P s then some h.choose else none
  makeKey := fun _ => some (List.replicate 31 0 ++ [1], gx ++ gyb)

theorem exampleUecc_ok : UeccOk exampleUecc P256.gen where
  modMult := by
    intro x y _ _
    have := limbsOf_spec 8 (val x * val y % P256Spec.p) (lt_trans (Nat.mod_lt _ (by decide +kernel)) p_lt)
    simpa [exampleUecc, limbNum_eq] using this
  xSide := by
    intro x _
    have h0 := Int.emod_nonneg ((val x : Int) ^ 3 - 3 * (val x : Int) + (P256Spec.b : Int)) (b := (P256Spec.p : Int)) (by decide +kernel)
    have h1 := Int.emod_lt_of_pos ((val x : Int) ^ 3 - 3 * (val x : Int) + (P256Spec.b : Int)) (b := (P256Spec.p : Int)) (by decide +kernel)
    have := limbsOf_spec 8 (((val x : Int) ^ 3 - 3 * (val x : Int) + (P256Spec.b : Int)) % (P256Spec.p : Int)).toNat (by
      have := p_lt; omega)
    rw [limbNum_eq, limbNum_eq]
    refine ⟨this.1, ?_⟩
    show ((val (limbsOf 8 _) : Nat) : Int) = _
    rw [this.2, Int.toNat_of_nonneg h0]
  sub := by
    intro x y hx _ _
    have hv := val_lt x
    rw [hx] at hv
    have := limbsOf_spec 8 (val x - val y) (by omega)
    rw [limbNum_eq, limbNum_eq, limbNum_eq]
    exact this
  shared := by
    intro q P sk s hq
    unfold exampleUecc
    simp only []
    constructor
    · intro h
      split at h
      · rename_i hex
        obtain ⟨P', hq', he⟩ := hex.choose_spec
        simp only [Option.some.injEq] at h
        rw [encPoint_inj hq hq', ← h]
        exact he
      · cases h
    · intro h
      have hex : ∃ s P, EncPoint (4 :: q) P ∧ Ecdh (be sk) P s := ⟨s, P, hq, h⟩
      rw [dif_pos hex]
      obtain ⟨P', hq', he⟩ := hex.choose_spec
      rw [encPoint_inj hq' hq] at he
      exact congrArg some (ecdh_fun he h)
  makeKey := by
    intro n sk q h
    cases h
    have : be (List.replicate 31 0 ++ [1]) = 1 := by decide +kernel
    rw [this, one_nsmul]
    exact gen_enc

/-- the hypotheses of `C56_agreement_partial` and `C56_interop_partial` are met, and the agreement succeeds -/
example : ∃ sk pk, tinyKeyGen exampleUecc 7 32 = .ok (sk, pk) ∧ tinyShared exampleUecc sk pk = .ok gx := by
  have hk : tinyKeyGen exampleUecc 7 32 = .ok (List.replicate 31 0 ++ [1], gx) := rfl
  refine ⟨_, _, hk, ?_⟩
  have hp : p256KeyGen examplePsa 7 32 = .ok (List.replicate 31 0 ++ [1], gx) := rfl
  exact (C56_interop_partial exampleUecc examplePsa [1, 2, 3, 4, 5, 6, 7, 8] rfl _ exampleUecc_ok examplePsa_ok
    7 7 32 32 _ _ _ _ hk hp gx).2 (example_shared _ rfl)

/-- the hypotheses of `C56_false_invalid` are met by x = 1 -/
example : (List.replicate 31 0 ++ [1] : Bytes).length = 32 ∧ be (List.replicate 31 0 ++ [1]) < P256Spec.p ∧
    ∀ y, ¬ OnCurve (be (List.replicate 31 0 ++ [1])) y :=
  ⟨rfl, by decide +kernel, fun y => one_no_point y⟩

end Verif.TinyP256
