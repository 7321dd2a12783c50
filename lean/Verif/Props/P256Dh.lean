import Verif.Props.P256
import Verif.Model.PsaP256
import Verif.Spec.P256Group
/-
C53: key agreement on P-256 (MBEDTLS configuration of src/common/crypto_wrapper.c).
-/
namespace Verif.P256
open WeierstrassCurve.Affine
open Verif.P256Spec (curve Enc EncPoint Ecdh)

theorem disc_ne : curve.Δ ≠ 0 := by
  have e : curve.Δ = 1728 - 432 * ((P256Spec.b : F)) ^ 2 := by
    simp only [WeierstrassCurve.Δ, WeierstrassCurve.b₂, WeierstrassCurve.b₄, WeierstrassCurve.b₆,
      WeierstrassCurve.b₈, curve]
    ring
  rw [e, sub_ne_zero]
  intro h
  have h2 : ((1728 : Nat) : F) = ((432 * P256Spec.b ^ 2 : Nat) : F) := by push_cast; exact h
  rw [ZMod.natCast_eq_natCast_iff'] at h2
  exact absurd h2 (by decide +kernel)

theorem equation_iff' (x y : F) : curve.Equation x y ↔ y ^ 2 = x ^ 3 - 3 * x + (P256Spec.b : F) := by
  rw [equation_iff]
  simp only [curve]
  constructor <;> intro h <;> linear_combination h

theorem onCurve_point {x y : Nat} (h : P256Spec.OnCurve x y) : curve.Nonsingular (x : F) (y : F) := by
  rw [← equation_iff_nonsingular_of_Δ_ne_zero disc_ne, equation_iff']
  exact ((onCurve_iff x y).1 h).2.2

theorem val_cast {n : Nat} (h : n < P256Spec.p) : ((n : F)).val = n := by
  rw [ZMod.val_natCast, Nat.mod_eq_of_lt h]

theorem _root_.Verif.P256Spec.Enc.inj {s t : Bytes} {x : F} (h : Enc s x) (k : Enc t x) : s = t := by
  refine beVal_inj (by rw [h.1, k.1]) ?_
  rw [← be_eq, ← be_eq, h.2, k.2]

theorem _root_.Verif.P256Spec.Enc.cast {s : Bytes} {x : F} (h : Enc s x) : ((P256Spec.be s : Nat) : F) = x := by
  rw [h.2, ZMod.natCast_val, ZMod.cast_id]

/-- What is assumed of the PSA library (specification): it implements ECDH on the curve. -/
structure PsaOk (psa : Psa) (G : curve.Point) : Prop where
  /-- `psa_raw_key_agreement` computes ECDH for the encoding of any point -/
  agree : ∀ sk q P s, psa.importKey sk = true → EncPoint q P →
    (psa.agree sk q = some s ↔ Ecdh (P256Spec.be sk) P s)
  /-- a generated key pair can be imported again, and its public key is the secret times the generator -/
  gen : ∀ n sk pub, psa.generate n = some (sk, pub) →
    psa.importKey sk = true ∧ EncPoint pub (P256Spec.be sk • G)

/-- the points that decompression gives for a peer's key -/
theorem uncompress_point (junk : Limbs) (x : Bytes) (hj : junk.length = 8) {q : Bytes}
    (h : uncompressPoint junk x 65 = .ok q) : ∃ P, EncPoint q P ∧
      ∃ X Y h, P = .some X Y h ∧ Enc x X := by
  have hx : x.length = 32 := by
    by_cases hx : x.length = 32
    · exact hx
    · rw [C51_refused junk x 65 hj (.inl hx)] at h; cases h
  obtain ⟨yb, hy, rfl, hc⟩ := (C51_uncompress junk x 65 hj hx (by decide)).2 q h
  have e1 : Enc x ((P256Spec.be x : Nat) : F) := ⟨hx, (val_cast hc.1).symm⟩
  have e2 : Enc yb ((P256Spec.be yb : Nat) : F) := ⟨hy, (val_cast hc.2.1).symm⟩
  exact ⟨.some _ _ (onCurve_point hc), ⟨_, _, _, x, yb, rfl, e1, e2, rfl⟩, _, _, _, rfl, e1⟩

/-- a point with the same x-coordinate is the same point or its negative -/
theorem same_x {P Q : curve.Point} {x y x' y' : F} {h h'} (hP : P = .some x y h) (hQ : Q = .some x' y' h')
    (e : x = x') : P = Q ∨ P = -Q := by
  subst hP hQ e
  rcases Y_eq_of_X_eq h.1 h'.1 rfl with rfl | hy
  · left; rfl
  · right; subst hy; rfl

/-- ECDH only depends on the point up to sign -/
theorem ecdh_neg (d : Nat) (P : curve.Point) (s : Bytes) : Ecdh d (-P) s ↔ Ecdh d P s := by
  have key : ∀ Q : curve.Point, Ecdh d Q s → Ecdh d (-Q) s := by
    rintro Q ⟨x, y, h, e, hs⟩
    refine ⟨x, curve.negY x y, (nonsingular_neg ..).2 h, ?_, hs⟩
    rw [neg_nsmul, e]; rfl
  constructor
  · intro h; have := key _ h; rwa [neg_neg] at this
  · exact key P

theorem ecdh_fun {d : Nat} {P : curve.Point} {s t : Bytes} (h : Ecdh d P s) (k : Ecdh d P t) : s = t := by
  obtain ⟨x, y, hn, e, hs⟩ := h
  obtain ⟨x', y', hn', e', ht⟩ := k
  rw [e] at e'
  injection e' with e1 e2
  subst e1
  exact hs.inj ht

/-- **C53** A peer's public value reaches the library only as the encoding of a point of the curve that
has exactly that x-coordinate; every value that is not the x-coordinate of a point is refused, as is
everything that is not 32 bytes long. -/
theorem C53_invalid_refused (psa : Psa) (junk : Limbs) (sk pk : Bytes) (hj : junk.length = 8)
    (h : pk.length ≠ 32 ∨ ∀ y, ¬ P256Spec.OnCurve (P256Spec.be pk) y) :
    p256Shared psa junk sk pk = .err .unexpected_result_from_ext_lib := by
  unfold p256Shared
  split
  · rfl
  · rw [C51_refused junk pk 65 hj (by tauto)]

/-- **C53** The agreement never has undefined behaviour, and whatever succeeds is ECDH with a point of
the curve that has the peer's value as x-coordinate. -/
theorem C53_valid_point (psa : Psa) (G : curve.Point) (hp : PsaOk psa G) (junk : Limbs) (sk pk : Bytes)
    (hj : junk.length = 8) :
    p256Shared psa junk sk pk ≠ .ub ∧
    ∀ s, p256Shared psa junk sk pk = .ok s →
      ∃ X Y h, Enc pk X ∧ Ecdh (P256Spec.be sk) (.some X Y h) s := by
  unfold p256Shared
  split
  · exact ⟨by simp, by rintro s h; cases h⟩
  · rename_i hi
    have hi : psa.importKey sk = true := by simpa using hi
    cases hu : uncompressPoint junk pk 65 with
    | err e => exact ⟨by simp, by rintro s h; cases h⟩
    | ub =>
      exfalso
      by_cases hx : pk.length = 32
      · rcases uncompress_cases junk pk 65 hj hx (by decide) with ⟨_, _, _, h⟩ | ⟨_, h⟩ <;>
          (rw [hu] at h; cases h)
      · rw [C51_refused junk pk 65 hj (.inl hx)] at hu; cases hu
    | ok q =>
      simp only []
      obtain ⟨P, hq, X, Y, hn, rfl, hX⟩ := uncompress_point junk pk hj hu
      cases ha : psa.agree sk q with
      | none => exact ⟨by simp, by rintro s h; cases h⟩
      | some s =>
        refine ⟨by simp, ?_⟩
        rintro s' h
        cases h
        exact ⟨X, Y, hn, hX, (hp.agree sk q _ s hi hq).1 ha⟩

/-- a generated key can be imported again, and its public value is an x-coordinate -/
theorem keyGen_spec {psa : Psa} {G : curve.Point} (hp : PsaOk psa G) {n cap : Nat} {sk pk : Bytes}
    (h : p256KeyGen psa n cap = .ok (sk, pk)) : psa.importKey sk = true ∧
      ∃ X Y h, P256Spec.be sk • G = .some X Y h ∧ Enc pk X := by
  unfold p256KeyGen at h
  split at h
  · cases h
  · cases hg : psa.generate n with
    | none => rw [hg] at h; cases h
    | some r =>
      obtain ⟨s', pub⟩ := r
      rw [hg] at h
      simp only [] at h
      split at h
      · cases h
      · cases h
        obtain ⟨hi, x, y, hn, xb, yb, e, hx, hy, rfl⟩ := hp.gen n _ _ hg
        refine ⟨hi, x, y, hn, e, ?_⟩
        have : (List.drop 1 (4 :: (xb ++ yb))).take 32 = xb := by
          simp [hx.1]
        rw [this]; exact hx

/-- the shared secret with any point of the curve whose x-coordinate is received -/
theorem shared_point {psa : Psa} {G : curve.Point} (hp : PsaOk psa G) {junk : Limbs} (hj : junk.length = 8)
    {P : curve.Point} {X Y : F} {hn} {skA pkB : Bytes} (hiA : psa.importKey skA = true)
    (eB : P = .some X Y hn) (hX : Enc pkB X) (s : Bytes) :
    p256Shared psa junk skA pkB = .ok s ↔ Ecdh (P256Spec.be skA) P s := by
  have hcurve : ∃ y, P256Spec.OnCurve (P256Spec.be pkB) y := by
    refine ⟨Y.val, ?_⟩
    rw [onCurve_iff, hX.2]
    refine ⟨ZMod.val_lt X, ZMod.val_lt Y, ?_⟩
    rw [ZMod.natCast_val, ZMod.natCast_val, ZMod.cast_id, ZMod.cast_id]
    exact (equation_iff' X Y).1 hn.1
  obtain ⟨q, hq⟩ := (C51_uncompress junk pkB 65 hj hX.1 (by decide)).1.2 hcurve
  obtain ⟨P', hqP, X', Y', hn', eP, hX'⟩ := uncompress_point junk pkB hj hq
  have exx : X' = X := by rw [← hX'.cast, ← hX.cast]
  have hag := hp.agree skA q P' s hiA hqP
  have hpm : Ecdh (P256Spec.be skA) P' s ↔ Ecdh (P256Spec.be skA) P s := by
    rcases same_x eP eB exx with h | h
    · rw [h]
    · rw [h, ecdh_neg]
  rw [← hpm, ← hag]
  unfold p256Shared
  rw [if_neg (by simp [hiA]), hq]
  simp only []
  cases psa.agree skA q with
  | none => simp
  | some t => simp

/-- the shared secret from a generated public key -/
theorem shared_of_gen {psa : Psa} {G : curve.Point} (hp : PsaOk psa G) {junk : Limbs}
    (hj : junk.length = 8) {n m capA capB : Nat} {skA pkA skB pkB : Bytes}
    (ha : p256KeyGen psa n capA = .ok (skA, pkA)) (hb : p256KeyGen psa m capB = .ok (skB, pkB)) (s : Bytes) :
    p256Shared psa junk skA pkB = .ok s ↔ Ecdh (P256Spec.be skA) (P256Spec.be skB • G) s := by
  obtain ⟨hiA, -⟩ := keyGen_spec hp ha
  obtain ⟨-, X, Y, hn, eB, hX⟩ := keyGen_spec hp hb
  exact shared_point hp hj hiA eB hX s

/-- **C53** Two parties that generate ephemeral P-256 keys and send each other only the x-coordinate get
the same shared secret, the x-coordinate of the product of both secret scalars and the generator –
although each of them may have reconstructed the negative of the other's point. -/
theorem C53_agreement_partial (psa : Psa) (G : curve.Point) (hp : PsaOk psa G) (jA jB : Limbs)
    (hA : jA.length = 8) (hB : jB.length = 8) (n m capA capB : Nat) (skA pkA skB pkB : Bytes)
    (ha : p256KeyGen psa n capA = .ok (skA, pkA)) (hb : p256KeyGen psa m capB = .ok (skB, pkB)) :
    (∀ s, p256Shared psa jA skA pkB = .ok s ↔ p256Shared psa jB skB pkA = .ok s) ∧
    (∀ s, p256Shared psa jA skA pkB = .ok s ↔ Ecdh (P256Spec.be skA * P256Spec.be skB) G s) := by
  have h1 := fun s => shared_of_gen hp hA ha hb s
  have h2 := fun s => shared_of_gen hp hB hb ha s
  have e1 : ∀ (a b : Nat) (s : Bytes), Ecdh a (b • G) s ↔ Ecdh (a * b) G s := by
    intro a b s; unfold P256Spec.Ecdh; rw [mul_smul]
  refine ⟨fun s => ?_, fun s => ?_⟩
  · rw [h1, h2, e1, e1, Nat.mul_comm]
  · rw [h1, e1]

/-! ### a library that meets the assumption -/

/-- the generator -/
noncomputable def gen : curve.Point :=
  .some ((P256Spec.be gx : Nat) : F) ((gy : Nat) : F)
    (onCurve_point (by unfold P256Spec.OnCurve; decide +kernel))

/-- the bytes of the generator's y-coordinate -/
def gyb : Bytes :=
  [0x4F, 0xE3, 0x42, 0xE2, 0xFE, 0x1A, 0x7F, 0x9B, 0x8E, 0xE7, 0xEB, 0x4A, 0x7C, 0x0F, 0x9E, 0x16,
   0x2B, 0xCE, 0x33, 0x57, 0x6B, 0x31, 0x5E, 0xCE, 0xCB, 0xB6, 0x40, 0x68, 0x37, 0xBF, 0x51, 0xF5]

theorem gen_enc : EncPoint (4 :: (gx ++ gyb)) gen := by
  refine ⟨_, _, _, gx, gyb, rfl, ⟨rfl, ?_⟩, ⟨rfl, ?_⟩, rfl⟩
  · rw [val_cast (by decide +kernel)]
  · rw [val_cast (by decide +kernel)]; decide +kernel

theorem encPoint_inj {q : Bytes} {P Q : curve.Point} (h : EncPoint q P) (k : EncPoint q Q) : P = Q := by
  obtain ⟨x, y, hn, xb, yb, rfl, hx, hy, rfl⟩ := h
  obtain ⟨x', y', hn', xb', yb', rfl, hx', hy', e⟩ := k
  have e1 := List.append_inj (List.cons.inj e).2 (by rw [hx.1, hx'.1])
  obtain ⟨rfl, rfl⟩ := e1
  have ex : x = x' := by rw [← hx.cast, hx'.cast]
  have ey : y = y' := by rw [← hy.cast, hy'.cast]
  subst ex ey
  rfl

open Classical in
/-- a library that always generates the secret key 1 -/
noncomputable def examplePsa : Psa where
  importKey := fun _ => true
  agree := fun sk q =>
    if h : ∃ s P, EncPoint q P ∧ Ecdh (P256Spec.be sk) P s then some h.choose else none
  generate := fun _ => some (List.replicate 31 0 ++ [1], 4 :: (gx ++ gyb))

theorem examplePsa_ok : PsaOk examplePsa gen where
  agree := by
    intro sk q P s _ hq
    unfold examplePsa
    simp only []
    constructor
    · intro h
      split at h
      · rename_i hex
        obtain ⟨P', hq', he⟩ := hex.choose_spec
        simp only [Option.some.injEq] at h
        rw [encPoint_inj hq hq', ← h]
        exact he
      · cases h
    · intro h
      have hex : ∃ s P, EncPoint q P ∧ Ecdh (P256Spec.be sk) P s := ⟨s, P, hq, h⟩
      rw [dif_pos hex]
      obtain ⟨P', hq', he⟩ := hex.choose_spec
      rw [encPoint_inj hq' hq] at he
      exact congrArg some (ecdh_fun he h)
  gen := by
    intro n sk pub h
    cases h
    refine ⟨rfl, ?_⟩
    have : P256Spec.be (List.replicate 31 0 ++ [1]) = 1 := by decide +kernel
    rw [this, one_nsmul]
    exact gen_enc

theorem example_shared (junk : Limbs) (hj : junk.length = 8) :
    p256Shared examplePsa junk (List.replicate 31 0 ++ [1]) gx = .ok gx := by
  have hk : p256KeyGen examplePsa 7 32 = .ok (List.replicate 31 0 ++ [1], gx) := rfl
  rw [(C53_agreement_partial examplePsa gen examplePsa_ok junk junk hj hj 7 7 32 32 _ _ _ _ hk hk).2]
  have : P256Spec.be (List.replicate 31 0 ++ [1]) = 1 := by decide +kernel
  refine ⟨((P256Spec.be gx : Nat) : F), ((gy : Nat) : F),
    onCurve_point (by unfold P256Spec.OnCurve; decide +kernel), ?_, ⟨rfl, ?_⟩⟩
  · rw [this, Nat.mul_one, one_nsmul]; rfl
  · rw [val_cast (by decide +kernel)]

/-- the hypotheses of `C53_agreement_partial` are met, and the agreement succeeds -/
example : ∃ sk pk, p256KeyGen examplePsa 7 32 = .ok (sk, pk) ∧
    p256Shared examplePsa [1, 2, 3, 4, 5, 6, 7, 8] sk pk = .ok gx :=
  ⟨_, _, rfl, example_shared _ rfl⟩

end Verif.P256
