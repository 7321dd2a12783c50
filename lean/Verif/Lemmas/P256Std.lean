import Verif.Lemmas.P256Jac
import Verif.Lemmas.P256OrderPrime
import Verif.Lemmas.FipsLemmas
import Verif.Props.P256Dh
/-
ECDH and ECDSA of `Spec/Curves` on Mathlib's group of P-256: scalars, base point, public keys, signatures.
-/
namespace Verif.P256
open WeierstrassCurve.Affine Verif.Curves Verif.Fips
open Verif.P256Spec (curve Enc EncPoint Ecdh)

/-! ### numbers and bytes -/

theorem beNat_eq (l : Bytes) : beNat l = beVal l := by rw [← be_eq]; rfl

theorem toBe_val (k n : Nat) : beVal (toBe k n) = n % 256 ^ k := by
  induction k with
  | zero => simp [toBe, beVal, Nat.mod_one]
  | succ k ih =>
    rw [toBe, show UInt8.ofNat (n / 256 ^ k) :: toBe k n = [UInt8.ofNat (n / 256 ^ k)] ++ toBe k n from rfl,
      beVal_append, ih, toBe_length, Nat.mod_pow_succ]
    have : beVal [UInt8.ofNat (n / 256 ^ k)] = n / 256 ^ k % 256 := by simp [beVal]
    rw [this]; ring

theorem enc_toBe (x : F) : Enc (toBe 32 x.val) x := by
  refine ⟨toBe_length _ _, ?_⟩
  rw [be_eq, toBe_val, Nat.mod_eq_of_lt]
  exact lt_of_lt_of_le (ZMod.val_lt x) (by decide)

theorem powMod_cast (m : Nat) : ∀ (n x e acc : Nat), e < 2 ^ n →
    ((Curves.powMod m n x e acc : Nat) : ZMod m) = (acc : ZMod m) * (x : ZMod m) ^ e
  | 0, x, e, acc, h => by
    have : e = 0 := by simpa using h
    subst this; simp [Curves.powMod]
  | n + 1, x, e, acc, h => by
    rw [Curves.powMod]
    simp only [Curves.force_eq]
    rw [powMod_cast m n _ _ _ (by rw [pow_succ] at h; omega), ZMod.natCast_mod, Nat.cast_mul, ← pow_two, ← pow_mul]
    by_cases h1 : e % 2 = 1
    · rw [if_pos h1, ZMod.natCast_mod, Nat.cast_mul]
      conv_rhs => rw [show e = 2 * (e / 2) + 1 by omega, pow_succ]
      ring
    · rw [if_neg h1]
      conv_rhs => rw [show e = 2 * (e / 2) by omega]

theorem powMod_lt {m : Nat} (hm : 0 < m) : ∀ (n x e acc : Nat), acc < m → Curves.powMod m n x e acc < m
  | 0, x, e, acc, h => h
  | n + 1, x, e, acc, h => by
    rw [Curves.powMod]
    simp only [Curves.force_eq]
    refine powMod_lt hm n _ _ _ ?_
    split
    · exact Nat.mod_lt _ hm
    · exact h

theorem invMod_cast {m : Nat} [Fact m.Prime] (hm : m < 2 ^ 256) {x : Nat} (hx : (x : ZMod m) ≠ 0) :
    ((invMod m x : Nat) : ZMod m) = (x : ZMod m)⁻¹ := by
  rw [invMod, powMod_cast _ _ _ _ _ (by omega), ZMod.natCast_mod, Nat.cast_one, one_mul]
  have h2 := (Fact.out : m.Prime).two_le
  refine eq_inv_of_mul_eq_one_left ?_
  rw [← pow_succ, show m - 2 + 1 = m - 1 by omega]
  exact ZMod.pow_card_sub_one_eq_one hx

/-- affine coordinates -/
theorem Rep.affine {J : JPoint} {P : curve.Point} (h : Rep J P) :
    (P = 0 ∧ jAffine J = none) ∨ ∃ x y hn, P = .some x y hn ∧ jAffine J = some (x.val, y.val) := by
  rcases h.pt with ⟨hz, rfl⟩ | ⟨x, y, hn, rfl, hz, ex, ey⟩
  · exact .inl ⟨rfl, by rw [jAffine, if_pos hz]⟩
  · refine .inr ⟨x, y, hn, rfl, ?_⟩
    have hZ : ((J.z : F)) ≠ 0 := by rwa [Ne, cast_eq_zero h.z]
    rw [jAffine, if_neg hz]
    simp only [Curves.force_eq, p256_eq]
    have hi : ((invMod P256Spec.p J.z : Nat) : F) = (J.z : F)⁻¹ := invMod_cast (by decide) hZ
    have e1 : ((J.x * (invMod P256Spec.p J.z * invMod P256Spec.p J.z % P256Spec.p) % P256Spec.p : Nat) : F) = x := by
      rw [cast_mod, Nat.cast_mul, cast_mod, Nat.cast_mul, hi, ex]
      field_simp
    have e2 : ((J.y * (invMod P256Spec.p J.z * invMod P256Spec.p J.z % P256Spec.p) % P256Spec.p * invMod P256Spec.p J.z %
        P256Spec.p : Nat) : F) = y := by
      rw [cast_mod, Nat.cast_mul, cast_mod, Nat.cast_mul, cast_mod, Nat.cast_mul, hi, ey]
      field_simp
    rw [← e1, ← e2, val_cast (Nat.mod_lt _ p_pos), val_cast (Nat.mod_lt _ p_pos)]

/-- an affine point -/
theorem Rep.mk_affine {x y : Nat} (hx : x < P256Spec.p) (hy : y < P256Spec.p) {hn : curve.Nonsingular (x : F) (y : F)} :
    Rep ⟨x, y, 1⟩ (.some _ _ hn) :=
  ⟨hx, hy, by show 1 < P256Spec.p; decide, .inr ⟨_, _, hn, rfl, by simp, by simp, by simp⟩⟩

/-! ### the base point -/

theorem nonsing {x y : F} (h : y ^ 2 = x ^ 3 - 3 * x + (P256Spec.b : F)) : curve.Nonsingular x y := by
  rw [← equation_iff_nonsingular_of_Δ_ne_zero disc_ne, equation_iff']; exact h

theorem g_on : curve.Nonsingular (g256.x : F) (g256.y : F) := by
  apply nonsing
  have : ((g256.y ^ 2 : Nat) : F) = ((g256.x ^ 3 + 3 * (P256Spec.p - g256.x) + P256Spec.b : Nat) : F) := by
    rw [ZMod.natCast_eq_natCast_iff']; decide +kernel
  rw [Nat.cast_add, Nat.cast_add, Nat.cast_mul, cast_psub (by decide +kernel)] at this
  push_cast at this
  rw [this]
  ring

/-- the base point of P-256 (SEC 2, 2.4.2) -/
def G : curve.Point := .some _ _ g_on

theorem rep_g : Rep g256 G := Rep.mk_affine (by decide +kernel) (by decide +kernel)

theorem G_ne : G ≠ 0 := Point.some_ne_zero _

set_option maxRecDepth 100000 in
theorem n_eval : (jSmul n256 g256).z = 0 := by decide +kernel

theorem n_G : n256 • G = 0 := by
  have h := rep_g.smul (s := n256) (by decide)
  rcases h.pt with ⟨_, h⟩ | ⟨_, _, _, _, h, _⟩
  · exact h
  · exact absurd n_eval h

instance : Fact (Nat.Prime n256) := ⟨prime_n256⟩

theorem smul_G_eq_zero {k : Nat} : k • G = 0 ↔ n256 ∣ k := by
  have ho : addOrderOf G = n256 := addOrderOf_eq_prime n_G G_ne
  rw [← ho]
  exact addOrderOf_dvd_iff_nsmul_eq_zero.symm

theorem smul_G_mod (k : Nat) : (k % n256) • G = k • G := (nsmul_eq_mod_nsmul k n_G).symm

theorem smul_G_congr {k l : Nat} (h : (k : ZMod n256) = (l : ZMod n256)) : k • G = l • G := by
  rw [ZMod.natCast_eq_natCast_iff'] at h
  rw [← smul_G_mod k, ← smul_G_mod l, h]

/-! ### public keys -/

theorem rhs_cast (x : Nat) (hx : x < P256Spec.p) :
    (((x * x % P256Spec.p * x + 3 * (P256Spec.p - x) + b256) % P256Spec.p : Nat) : F) = (x : F) ^ 3 - 3 * (x : F) + (P256Spec.b : F) := by
  rw [cast_mod, Nat.cast_add, Nat.cast_add, Nat.cast_mul, cast_mod, Nat.cast_mul, Nat.cast_mul, cast_psub hx.le,
    show b256 = P256Spec.b from rfl]
  push_cast
  ring

/-- a point from its x-coordinate: one of the two with that coordinate -/
theorem point_x {pk : Bytes} {X Y : F} {hn : curve.Nonsingular X Y} (h : Enc pk X) :
    ∃ J, p256Point pk = some J ∧ (Rep J (.some X Y hn) ∨ Rep J (-.some X Y hn)) := by
  have hlen := h.1
  have hx : beNat pk < P256Spec.p := by rw [beNat_eq, ← be_eq, h.2]; exact ZMod.val_lt X
  have hX : ((beNat pk : Nat) : F) = X := by rw [beNat_eq, ← be_eq]; exact h.cast
  have heq : Y ^ 2 = X ^ 3 - 3 * X + (P256Spec.b : F) := (equation_iff' X Y).1 hn.1
  unfold p256Point
  simp only [hlen, true_or, if_true, Curves.force_eq, p256_eq]
  rw [if_neg (by omega)]
  generalize hy2 : (beNat pk * beNat pk % P256Spec.p * beNat pk + 3 * (P256Spec.p - beNat pk) + b256) % P256Spec.p = y2
  have c2 : ((y2 : Nat) : F) = Y ^ 2 := by rw [← hy2, rhs_cast _ hx, hX, heq]
  have l2 : y2 < P256Spec.p := by rw [← hy2]; exact Nat.mod_lt _ p_pos
  generalize hy : Curves.powMod P256Spec.p 256 y2 ((P256Spec.p + 1) / 4) 1 = y
  have ly : y < P256Spec.p := by rw [← hy]; exact powMod_lt p_pos _ _ _ _ (by decide)
  have cy : ((y : Nat) : F) ^ 2 = Y ^ 2 := by
    rw [← hy, powMod_cast _ _ _ _ _ (by decide), Nat.cast_one, one_mul, c2]
    exact sqrt_spec _ Y rfl
  have e : y * y % P256Spec.p = y2 := by
    rw [← cast_inj' (Nat.mod_lt _ p_pos) l2, cast_mod, Nat.cast_mul, ← pow_two, cy, c2]
  rw [if_neg (by simpa using e)]
  have key : ∀ y' : Nat, y' < P256Spec.p → ((y' : Nat) : F) ^ 2 = Y ^ 2 →
      (Rep ⟨beNat pk, y', 1⟩ (.some X Y hn) ∨ Rep ⟨beNat pk, y', 1⟩ (-.some X Y hn)) := by
    intro y' h1 h2
    rcases sq_eq_sq_iff_eq_or_eq_neg.1 h2 with h3 | h3
    · left
      subst hX h3
      exact Rep.mk_affine hx h1
    · right
      have : (-.some X Y hn : curve.Point) = .some X (-Y) (nonsing (by rw [neg_sq, heq])) := by
        rw [Point.neg_some]; simp only [negY_eq]
      rw [this]
      have h4 : -Y = ((y' : Nat) : F) := h3.symm
      subst hX
      simp only [h4]
      exact Rep.mk_affine hx h1
  refine ⟨_, rfl, key _ ?_ ?_⟩
  · split
    · exact ly
    · exact Nat.mod_lt _ p_pos
  · split
    · exact cy
    · rw [cast_subMod ly, Nat.cast_zero, zero_sub, neg_sq, cy]

/-- nothing else is accepted as an x-coordinate -/
theorem point_onCurve {pk : Bytes} (hlen : pk.length = 32) {J : JPoint} (h : p256Point pk = some J) :
    ∃ y, P256Spec.OnCurve (P256Spec.be pk) y := by
  unfold p256Point at h
  simp only [hlen, true_or, if_true, Curves.force_eq, p256_eq] at h
  split at h
  · cases h
  · rename_i hx
    split at h
    · cases h
    · rename_i he
      have hx' : beNat pk < P256Spec.p := by omega
      refine ⟨Curves.powMod P256Spec.p 256 ((beNat pk * beNat pk % P256Spec.p * beNat pk + 3 * (P256Spec.p - beNat pk) + b256) % P256Spec.p)
        ((P256Spec.p + 1) / 4) 1, ?_⟩
      rw [onCurve_iff, be_eq, ← beNat_eq]
      refine ⟨hx', powMod_lt p_pos _ _ _ _ (by decide), ?_⟩
      have he' := not_not.1 he
      rw [← rhs_cast _ hx']
      generalize (beNat pk * beNat pk % P256Spec.p * beNat pk + 3 * (P256Spec.p - beNat pk) + b256) % P256Spec.p = c at he' ⊢
      generalize Curves.powMod P256Spec.p 256 c ((P256Spec.p + 1) / 4) 1 = y at he' ⊢
      rw [← he', cast_mod, Nat.cast_mul, pow_two]

/-- an uncompressed point -/
theorem point_full {pk : Bytes} {P : curve.Point} (h : EncPoint pk P) : ∃ J, p256Point pk = some J ∧ Rep J P := by
  obtain ⟨x, y, hn, xb, yb, rfl, hx, hy, rfl⟩ := h
  have heq : y ^ 2 = x ^ 3 - 3 * x + (P256Spec.b : F) := (equation_iff' x y).1 hn.1
  have bx : beNat xb < P256Spec.p := by rw [beNat_eq, ← be_eq, hx.2]; exact ZMod.val_lt x
  have by' : beNat yb < P256Spec.p := by rw [beNat_eq, ← be_eq, hy.2]; exact ZMod.val_lt y
  have cx : ((beNat xb : Nat) : F) = x := by rw [beNat_eq, ← be_eq]; exact hx.cast
  have cy : ((beNat yb : Nat) : F) = y := by rw [beNat_eq, ← be_eq]; exact hy.cast
  have hl : (4 :: (xb ++ yb) : Bytes).length = 65 := by simp [hx.1, hy.1]
  have hd : (4 :: (xb ++ yb) : Bytes).drop 33 = yb := by simp [hx.1]
  have ht : ((4 :: (xb ++ yb) : Bytes).drop 1).take 32 = xb := by simp [hx.1]
  unfold p256Point
  simp only [hl, hd, ht, Curves.force_eq, p256_eq]
  refine ⟨⟨beNat xb, beNat yb, 1⟩, ?_, ?_⟩
  · rw [if_neg (by simp), if_pos (by simp)]
    simp only [show ¬ (65 = 32) by decide, if_false]
    rw [if_neg]
    rintro (h | h | h)
    · omega
    · omega
    · apply h
      rw [← cast_inj' (Nat.mod_lt _ p_pos) (Nat.mod_lt _ p_pos), rhs_cast _ bx, cast_mod, Nat.cast_mul, cx, cy, ← heq]
      ring
  · subst cx cy
    exact Rep.mk_affine bx by'

/-- a secret key: 32 bytes with a value from 1 to n - 1 -/
def SkOk (sk : Bytes) : Prop := sk.length = 32 ∧ 0 < beNat sk ∧ beNat sk < n256

theorem SkOk.lt {sk : Bytes} (h : SkOk sk) : beNat sk < 2 ^ 256 := lt_trans h.2.2 (by decide)

theorem SkOk.ndvd {sk : Bytes} (h : SkOk sk) : ¬ n256 ∣ beNat sk := fun hd => absurd (Nat.le_of_dvd h.2.1 hd) (by have := h.2.2; omega)

/-- the public key of a secret key -/
theorem public_spec {sk : Bytes} (h : SkOk sk) : ∃ pub, p256Public sk = some pub ∧ EncPoint pub (beNat sk • G) := by
  have hr := rep_g.smul h.lt
  rcases hr.affine with ⟨h0, _⟩ | ⟨x, y, hn, hP, ha⟩
  · exact absurd (smul_G_eq_zero.1 h0) h.ndvd
  · refine ⟨[4] ++ toBe 32 x.val ++ toBe 32 y.val, ?_, x, y, hn, _, _, hP, enc_toBe x, enc_toBe y, by simp⟩
    rw [p256Public, ha]

/-- ECDH with a point given by a representation -/
theorem dh_rep {sk pk : Bytes} (hk : SkOk sk) {J : JPoint} {P : curve.Point} (hJ : p256Point pk = some J) (hR : Rep J P) (s : Bytes) :
    p256Dh sk pk = some s ↔ Ecdh (beNat sk) P s := by
  rw [p256Dh, Curves.force_eq, if_pos (show sk.length = 32 ∧ 0 < beNat sk ∧ beNat sk < n256 from hk), hJ]
  simp only []
  rcases (hR.smul hk.lt).affine with ⟨h0, ha⟩ | ⟨x, y, hn, hP, ha⟩
  · rw [ha]
    constructor
    · intro h; cases h
    · rintro ⟨x, y, hn, e, _⟩
      rw [h0] at e; exact absurd e.symm (Point.some_ne_zero _)
  · rw [ha]
    simp only [Option.some.injEq]
    constructor
    · rintro rfl; exact ⟨x, y, hn, hP, enc_toBe x⟩
    · rintro ⟨x', y', hn', e, hs⟩
      rw [hP] at e
      injection e with e1 e2
      subst e1
      exact (enc_toBe x).inj hs

/-- ECDH with a peer's key given as x-coordinate -/
theorem dh_x {sk pk : Bytes} (hk : SkOk sk) {X Y : F} {hn : curve.Nonsingular X Y} (h : Enc pk X) (s : Bytes) :
    p256Dh sk pk = some s ↔ Ecdh (beNat sk) (.some X Y hn) s := by
  obtain ⟨J, hJ, hR | hR⟩ := point_x (hn := hn) h
  · exact dh_rep hk hJ hR s
  · rw [dh_rep hk hJ hR s, ecdh_neg]

theorem dh_full {sk pk : Bytes} (hk : SkOk sk) {P : curve.Point} (h : EncPoint pk P) (s : Bytes) :
    p256Dh sk pk = some s ↔ Ecdh (beNat sk) P s := by
  obtain ⟨J, hJ, hR⟩ := point_full h
  exact dh_rep hk hJ hR s

/-- the forms of a public key: uncompressed point or x-coordinate alone -/
def PkOf (sk pk : Bytes) : Prop :=
  ∃ pub, p256Public sk = some pub ∧ (pk = pub ∨ pk = (pub.drop 1).take 32)

theorem PkOf.dh {a b pk : Bytes} (ha : SkOk a) (hb : SkOk b) (h : PkOf b pk) (s : Bytes) :
    p256Dh a pk = some s ↔ Ecdh (beNat a) (beNat b • G) s := by
  obtain ⟨pub, h1, h2⟩ := h
  obtain ⟨pub', h3, h4⟩ := public_spec hb
  rw [h1] at h3
  cases h3
  rcases h2 with rfl | rfl
  · exact dh_full ha h4 s
  · obtain ⟨x, y, hn, xb, yb, hP, hx, hy, rfl⟩ := h4
    have : (List.drop 1 (4 :: (xb ++ yb))).take 32 = xb := by simp [hx.1]
    rw [this, hP]
    exact dh_x ha hx s

/-- both parties of an exchange compute the same secret, and they do compute one -/
theorem dh_agree {a b pa pb : Bytes} (ha : SkOk a) (hb : SkOk b) (hpa : PkOf a pa) (hpb : PkOf b pb) :
    ∃ s, p256Dh a pb = some s ∧ p256Dh b pa = some s := by
  have hne : ¬ n256 ∣ beNat a * beNat b := by
    intro h
    rcases (Nat.Prime.dvd_mul prime_n256).1 h with h | h
    · exact ha.ndvd h
    · exact hb.ndvd h
  have e1 : beNat a • (beNat b • G) = (beNat a * beNat b) • G := by rw [mul_nsmul']
  have e2 : beNat b • (beNat a • G) = (beNat a * beNat b) • G := by rw [mul_nsmul]
  match hQ : (beNat a * beNat b) • G, (mt smul_G_eq_zero.1 hne) with
  | .some x y hn, _ =>
    refine ⟨toBe 32 x.val, (hpb.dh ha hb _).2 ⟨x, y, hn, ?_, enc_toBe x⟩, (hpa.dh hb ha _).2 ⟨x, y, hn, ?_, enc_toBe x⟩⟩
    · rw [e1, hQ]
    · rw [e2, hQ]
  | 0, h => exact absurd rfl h

/-! ### signatures -/

theorem beNat_toBe {x : Nat} (h : x < n256) : beNat (toBe 32 x) = x := by
  rw [beNat_eq, toBe_val, Nat.mod_eq_of_lt (lt_trans h (by decide))]

theorem n_pos : 0 < n256 := by decide

theorem cast_n_ne {k : Nat} (h0 : 0 < k) (h : k < n256) : ((k : Nat) : ZMod n256) ≠ 0 := by
  rw [Ne, ZMod.natCast_eq_zero_iff]
  intro hd
  exact absurd (Nat.le_of_dvd h0 hd) (by omega)

/-- a signature made with a nonce from 1 to n - 1 verifies with the signer's public key -/
theorem ecdsa_ok {k : Nat} {sk pk m sig : Bytes} (hsk : SkOk sk) (hpk : p256Public sk = some pk) (hk0 : 0 < k) (hk : k < n256)
    (hs : ecdsaSign k sk m = some sig) : ecdsaVerify pk m sig = true := by
  have hk2 : k < 2 ^ 256 := lt_trans hk (by decide)
  obtain ⟨pub, hp1, hp2⟩ := public_spec hsk
  rw [hpk] at hp1
  cases hp1
  obtain ⟨J, hJ, hR⟩ := point_full hp2
  rcases (rep_g.smul hk2).affine with ⟨h0, _⟩ | ⟨x, y, hn, hP, ha⟩
  · exact absurd (Nat.le_of_dvd hk0 (smul_G_eq_zero.1 h0)) (by omega)
  rw [ecdsaSign, ha] at hs
  simp only [Curves.force_eq] at hs
  generalize hr : x.val % n256 = r at hs
  generalize hss : invMod n256 k * (beNat (sha256 m) + r * beNat sk) % n256 = s at hs
  have rlt : r < n256 := by rw [← hr]; exact Nat.mod_lt _ n_pos
  have slt : s < n256 := by rw [← hss]; exact Nat.mod_lt _ n_pos
  split at hs
  · cases hs
  rename_i h0
  cases hs
  have r0 : r ≠ 0 := fun h => h0 (.inl h)
  have s0 : s ≠ 0 := fun h => h0 (.inr h)
  rw [ecdsaVerify, hJ]
  have ht : (toBe 32 r ++ toBe 32 s).take 32 = toBe 32 r := by
    rw [List.take_append_of_le_length (by rw [toBe_length]), List.take_of_length_le (by rw [toBe_length])]
  have hd : (toBe 32 r ++ toBe 32 s).drop 32 = toBe 32 s := List.drop_left' (toBe_length _ _)
  have hl : (toBe 32 r ++ toBe 32 s).length = 64 := by simp [toBe_length]
  simp only [Curves.force_eq, ht, hd, beNat_toBe rlt, beNat_toBe slt, hl]
  rw [if_neg (by rintro (h | h | h | h | h) <;> first | exact h rfl | exact r0 h | exact s0 h | omega), jAdd_k]
  generalize hu : beNat (sha256 m) * invMod n256 s % n256 = u1
  generalize hv : r * invMod n256 s % n256 = u2
  have u1lt : u1 < 2 ^ 256 := by rw [← hu]; exact lt_trans (Nat.mod_lt _ n_pos) (by decide)
  have u2lt : u2 < 2 ^ 256 := by rw [← hv]; exact lt_trans (Nat.mod_lt _ n_pos) (by decide)
  have hsum := (rep_g.smul u1lt).add (hR.smul u2lt)
  have ck := cast_n_ne hk0 hk
  have cs := cast_n_ne (Nat.pos_of_ne_zero s0) slt
  have ik : ((invMod n256 k : Nat) : ZMod n256) = (k : ZMod n256)⁻¹ := invMod_cast (by decide) ck
  have is' : ((invMod n256 s : Nat) : ZMod n256) = (s : ZMod n256)⁻¹ := invMod_cast (by decide) cs
  have es : (s : ZMod n256) * (k : ZMod n256) = (beNat (sha256 m) : ZMod n256) + (r : ZMod n256) * (beNat sk : ZMod n256) := by
    rw [← hss, ZMod.natCast_mod, Nat.cast_mul, ik, Nat.cast_add, Nat.cast_mul]
    field_simp
  have ek : u1 • G + u2 • (beNat sk • G) = k • G := by
    rw [← mul_nsmul', ← add_nsmul]
    apply smul_G_congr
    rw [Nat.cast_add, Nat.cast_mul, ← hu, ← hv, ZMod.natCast_mod, ZMod.natCast_mod, Nat.cast_mul, Nat.cast_mul, is']
    field_simp
    exact es.symm
  rw [ek] at hsum
  rcases hsum.affine with ⟨h, _⟩ | ⟨x', y', hn', hP', ha'⟩
  · rw [hP] at h; exact absurd h (Point.some_ne_zero _)
  · rw [hP] at hP'
    injection hP' with e1 e2
    subst e1
    rw [ha']
    simp [hr]

/-- for every key and message one of the nonces 1 and 2 gives a signature -/
theorem ecdsa_nonce {sk : Bytes} (hsk : SkOk sk) (m : Bytes) : ecdsaSign 1 sk m ≠ none ∨ ecdsaSign 2 sk m ≠ none := by
  have e1 : ((jAffine (jSmul 1 g256)).map (fun q => q.1 % n256)) = some (0x6b17d1f2e12c4247f8bce6e563a440f277037d812deb33a0f4a13945d898c296) := by
    decide +kernel
  have e2 : ((jAffine (jSmul 2 g256)).map (fun q => q.1 % n256)) = some (0x7cf27b188d034f7e8a52380304b51ac3c08969e277f21b35a60b48fc47669978) := by
    decide +kernel
  have key : ∀ (k r : Nat), 0 < k → k < n256 → 0 < r → r < n256 → (jAffine (jSmul k g256)).map (fun q => q.1 % n256) = some r →
      ecdsaSign k sk m = none → (beNat (sha256 m) : ZMod n256) + (r : ZMod n256) * (beNat sk : ZMod n256) = 0 := by
    intro k r hk0 hk hr0 hr he hs
    rw [ecdsaSign] at hs
    match ha : jAffine (jSmul k g256) with
    | none => rw [ha] at he; cases he
    | some (x, y) =>
      rw [ha] at he hs
      simp only [Option.map_some, Option.some.injEq] at he
      simp only [Curves.force_eq, he] at hs
      split at hs
      · rename_i h
        rcases h with h | h
        · omega
        · have := congrArg (fun n : Nat => (n : ZMod n256)) h
          have ck := cast_n_ne hk0 hk
          simp only [ZMod.natCast_mod, Nat.cast_mul, Nat.cast_add, Nat.cast_zero, invMod_cast (m := n256) (by decide) ck] at this
          rcases mul_eq_zero.1 this with h | h
          · exact absurd h (inv_ne_zero ck)
          · exact h
      · cases hs
  by_contra hc
  rw [not_or, not_not, not_not] at hc
  have h1 := key 1 _ (by decide) (by decide) (by decide) (by decide) e1 hc.1
  have h2 := key 2 _ (by decide) (by decide) (by decide) (by decide) e2 hc.2
  have hd := cast_n_ne hsk.2.1 hsk.2.2
  have : ((0x6b17d1f2e12c4247f8bce6e563a440f277037d812deb33a0f4a13945d898c296 : Nat) : ZMod n256) =
      ((0x7cf27b188d034f7e8a52380304b51ac3c08969e277f21b35a60b48fc47669978 : Nat) : ZMod n256) := by
    apply mul_right_cancel₀ hd
    exact add_left_cancel (h1.trans h2.symm)
  rw [ZMod.natCast_eq_natCast_iff'] at this
  exact absurd this (by decide +kernel)

end Verif.P256
