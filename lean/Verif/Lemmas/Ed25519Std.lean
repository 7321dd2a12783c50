import Verif.Lemmas.Ed25519Add
/-
The functions of Spec/Curves for Ed25519 (RFC 8032) in terms of the group: encodings are inverse to decodings,
multiples are multiples, and every signature verifies.
-/
namespace Verif.C25519
open WeierstrassCurve.Affine Verif.Curves

/-- extended coordinates (X : Y : Z : T) of a point -/
structure ERep (P : EdPoint) (x y : K) (Q : curve.Point) : Prop where
  lx : P.x < p25519
  ly : P.y < p25519
  lz : P.z < p25519
  ez : (P.z : K) ≠ 0
  ex : (P.x : K) = x * P.z
  ey : (P.y : K) = y * P.z
  et : (P.t : K) = x * y * P.z
  pt : EPt x y Q

/-- the result of `edAdd` -/
def edSum (P Q : EdPoint) : EdPoint := edAdd P Q id

theorem edAdd_k {α : Type} (P Q : EdPoint) (k : EdPoint → α) : edAdd P Q k = k (edSum P Q) := by
  simp only [edSum, edAdd, Curves.force_eq, id]

theorem ERep.add {P P' : EdPoint} {x y x' y' : K} {Q Q' : curve.Point} (h : ERep P x y Q) (h' : ERep P' x' y' Q') :
    ∃ x₃ y₃, ERep (edSum P P') x₃ y₃ (Q + Q') := by
  obtain ⟨n1, n2⟩ := den_ne h.pt.1 h'.pt.1
  refine ⟨(x * y' + x' * y) / (1 + d * x * x' * y * y'), (y * y' + x * x') / (1 - d * x * x' * y * y'), ?_⟩
  have hE := EPt.add h.pt h'.pt (div_mul_cancel₀ (x * y' + x' * y) n1) (div_mul_cancel₀ (y * y' + x * x') n2)
  have pp : 0 < p25519 := p_pos
  simp only [edSum, edAdd, Curves.force_eq, id]
  set a := subMod p25519 P.y P.x * subMod p25519 P'.y P'.x % p25519 with ha
  set b := (P.y + P.x) * (P'.y + P'.x) % p25519 with hb
  set c := P.t * 2 * edD * P'.t % p25519 with hc
  set e := P.z * 2 * P'.z % p25519 with he
  have ca : (a : K) = (y - x) * (y' - x') * ((P.z : K) * P'.z) := by
    rw [ha, cast_mod, Nat.cast_mul, cast_subMod h.lx, cast_subMod h'.lx, h.ex, h.ey, h'.ex, h'.ey]; ring
  have cb : (b : K) = (y + x) * (y' + x') * ((P.z : K) * P'.z) := by
    rw [hb, cast_mod]; push_cast; rw [h.ex, h.ey, h'.ex, h'.ey]; ring
  have cc : (c : K) = 2 * (d * x * x' * y * y') * ((P.z : K) * P'.z) := by
    rw [hc, cast_mod]; push_cast; rw [h.et, h'.et, show (edD : K) = d from rfl]; ring
  have ce : (e : K) = 2 * ((P.z : K) * P'.z) := by
    rw [he, cast_mod]; push_cast; ring
  have la : a < p25519 := Nat.mod_lt _ pp
  have lc : c < p25519 := Nat.mod_lt _ pp
  clear_value a b c e
  have cE : ((subMod p25519 b a : Nat) : K) = 2 * (x * y' + x' * y) * ((P.z : K) * P'.z) := by
    rw [cast_subMod la, ca, cb]; ring
  have cF : ((subMod p25519 e c : Nat) : K) = 2 * (1 - d * x * x' * y * y') * ((P.z : K) * P'.z) := by
    rw [cast_subMod lc, cc, ce]; ring
  have cG : (((e + c) % p25519 : Nat) : K) = 2 * (1 + d * x * x' * y * y') * ((P.z : K) * P'.z) := by
    rw [cast_mod, Nat.cast_add, cc, ce]; ring
  have cH : (((b + a) % p25519 : Nat) : K) = 2 * (y * y' + x * x') * ((P.z : K) * P'.z) := by
    rw [cast_mod, Nat.cast_add, ca, cb]; ring
  have hz : (P.z : K) * P'.z ≠ 0 := mul_ne_zero h.ez h'.ez
  have h2 := two_ne
  refine ⟨Nat.mod_lt _ pp, Nat.mod_lt _ pp, Nat.mod_lt _ pp, ?_, ?_, ?_, ?_, hE⟩
  · show ((_ % p25519 : Nat) : K) ≠ 0
    rw [cast_mod, Nat.cast_mul, cF, cG]
    exact mul_ne_zero (mul_ne_zero (mul_ne_zero h2 n2) hz) (mul_ne_zero (mul_ne_zero h2 n1) hz)
  · show ((_ % p25519 : Nat) : K) = _ * ((_ % p25519 : Nat) : K)
    rw [cast_mod, cast_mod, Nat.cast_mul, Nat.cast_mul, cE, cF, cG]
    rw [div_mul_eq_mul_div, eq_div_iff n1]; ring
  · show ((_ % p25519 : Nat) : K) = _ * ((_ % p25519 : Nat) : K)
    rw [cast_mod, cast_mod, Nat.cast_mul, Nat.cast_mul, cH, cF, cG]
    rw [div_mul_eq_mul_div, eq_div_iff n2]; ring
  · show ((_ % p25519 : Nat) : K) = _ * _ * ((_ % p25519 : Nat) : K)
    rw [cast_mod, cast_mod, Nat.cast_mul, Nat.cast_mul, cE, cF, cG, cH]
    rw [div_mul_div_comm, div_mul_eq_mul_div, eq_div_iff (mul_ne_zero n1 n2)]; ring

/-- double and add -/
theorem ERep.mul {P : EdPoint} {x y : K} {Q : curve.Point} (hP : ERep P x y Q) (s : Nat) : ∀ (n : Nat) {R : EdPoint} {m : Nat} {a b : K},
    ERep R a b (m • Q) → ∃ a' b', ERep (edMul s P n R) a' b' ((m * 2 ^ n + s % 2 ^ n) • Q)
  | 0, R, m, a, b, hR => by
    refine ⟨a, b, ?_⟩
    simpa [edMul, Nat.mod_one] using hR
  | n + 1, R, m, a, b, hR => by
    rw [edMul, edAdd_k]
    obtain ⟨a2, b2, hD⟩ := hR.add hR
    rw [← add_smul] at hD
    by_cases hb : s.testBit n = true
    · rw [if_pos hb, edAdd_k]
      obtain ⟨a3, b3, hA⟩ := hD.add hP
      rw [← succ_nsmul] at hA
      have := ERep.mul hP s n hA
      have e : (m + m + 1) * 2 ^ n + s % 2 ^ n = m * 2 ^ (n + 1) + s % 2 ^ (n + 1) := by
        rw [Nat.testBit_eq_decide_div_mod_eq, decide_eq_true_eq] at hb
        rw [Nat.mod_pow_succ, hb, pow_succ]; ring
      rwa [e] at this
    · rw [if_neg hb]
      have := ERep.mul hP s n hD
      have e : (m + m) * 2 ^ n + s % 2 ^ n = m * 2 ^ (n + 1) + s % 2 ^ (n + 1) := by
        rw [Nat.testBit_eq_decide_div_mod_eq, decide_eq_true_eq] at hb
        have hb' : s / 2 ^ n % 2 = 0 := by omega
        rw [Nat.mod_pow_succ, hb', pow_succ]; ring
      rwa [e] at this

theorem on_zero : On 0 1 := by unfold On; ring

theorem ERep.smul {P : EdPoint} {x y : K} {Q : curve.Point} (hP : ERep P x y Q) {s : Nat} (hs : s < 2 ^ 256) :
    ∃ a b, ERep (edSmul s P) a b (s • Q) := by
  have h0 : ERep ⟨0, 1, 1, 0⟩ 0 1 ((0 : Nat) • Q) :=
    ⟨(by decide : 0 < p25519), (by decide : 1 < p25519), (by decide : 1 < p25519), by simp, by simp, by simp, by simp,
      on_zero, .inl ⟨zero_nsmul _, rfl, rfl⟩⟩
  have := hP.mul s 256 h0
  rwa [Nat.zero_mul, Nat.zero_add, Nat.mod_eq_of_lt hs] at this

/-- the encoding of an affine point -/
def enc (x y : K) : Bytes := toLe 32 (y.val + 2 ^ 255 * (x.val % 2))

theorem ERep.pack {P : EdPoint} {x y : K} {Q : curve.Point} (h : ERep P x y Q) : edPack P = enc x y := by
  have hi := P256.invMod_cast (m := p25519) (by decide) h.ez
  simp only [edPack, Curves.force_eq, enc]
  have e1 : P.x * invMod p25519 P.z % p25519 = x.val := by
    rw [← cast_inj' (Nat.mod_lt _ p_pos) (ZMod.val_lt x), cast_mod, Nat.cast_mul, hi, h.ex, ZMod.natCast_val, ZMod.cast_id]
    exact mul_inv_cancel_right₀ h.ez x
  have e2 : P.y * invMod p25519 P.z % p25519 = y.val := by
    rw [← cast_inj' (Nat.mod_lt _ p_pos) (ZMod.val_lt y), cast_mod, Nat.cast_mul, hi, h.ey, ZMod.natCast_val, ZMod.cast_id]
    exact mul_inv_cancel_right₀ h.ez y
  rw [e1, e2]

/-- equal points have equal encodings -/
theorem ERep.pack_eq {P P' : EdPoint} {x y x' y' : K} {Q : curve.Point} (h : ERep P x y Q) (h' : ERep P' x' y' Q) :
    edPack P = edPack P' := by
  obtain ⟨rfl, rfl⟩ := h.pt.inj h'.pt
  rw [h.pack, h'.pack]

theorem cast_val (x : K) : ((x.val : Nat) : K) = x := by rw [ZMod.natCast_val, ZMod.cast_id]

/-- the square root -/
theorem root {x y : K} (o : On x y) :
    let u := y ^ 2 - 1
    let w := d * y ^ 2 + 1
    let x0 := u * w ^ 3 * (u * w ^ 7) ^ ((p25519 - 5) / 8)
    (w * x0 ^ 2 = u → x0 = x ∨ x0 = -x) ∧ (w * x0 ^ 2 = u ∨ (w * x0 ^ 2 = -u ∧ (x0 * im = x ∨ x0 * im = -x))) := by
  intro u w x0
  have hu : u = x ^ 2 * w := by unfold On at o; simp only [u, w]; linear_combination o
  have hw : w ≠ 0 := by
    intro h
    have hy : y ^ 2 = 1 := by
      have : u = 0 := by rw [hu, h, mul_zero]
      simp only [u] at this; linear_combination this
    apply one_d_ne
    simp only [w, hy] at h
    linear_combination h
  have pm : ∀ c : K, c ^ 2 = 1 → ∀ x : K, x * c = x ∨ x * c = -x := by
    intro c hc x
    have : (c - 1) * (c + 1) = 0 := by linear_combination hc
    rcases mul_eq_zero.1 this with h | h
    · left; rw [show c = 1 by linear_combination h, mul_one]
    · right; rw [show c = -1 by linear_combination h, mul_neg, mul_one]
  have e0 : x0 = x * (x * w ^ 4) ^ ((p25519 - 1) / 4) := by
    have : x0 = x ^ 2 * w ^ 4 * ((x * w ^ 4) ^ 2) ^ ((p25519 - 5) / 8) := by
      have g : ∀ n : Nat, u * w ^ 3 * (u * w ^ 7) ^ n = x ^ 2 * w ^ 4 * ((x * w ^ 4) ^ 2) ^ n := by
        intro n
        have e1 : u * w ^ 3 = x ^ 2 * w ^ 4 := by rw [hu]; ring
        have e2 : u * w ^ 7 = (x * w ^ 4) ^ 2 := by rw [hu]; ring
        rw [e1, e2]
      exact g _
    rw [this, ← pow_mul, show (p25519 - 1) / 4 = 2 * ((p25519 - 5) / 8) + 1 by decide]
    generalize 2 * ((p25519 - 5) / 8) = n
    rw [pow_succ]; ring
  clear_value x0
  by_cases hx : x = 0
  · subst hx
    rw [zero_mul] at e0
    subst e0
    refine ⟨fun _ => .inl rfl, .inl ?_⟩
    rw [hu]; ring
  · have hq : x * w ^ 4 ≠ 0 := mul_ne_zero hx (pow_ne_zero _ hw)
    set c := (x * w ^ 4) ^ ((p25519 - 1) / 4) with hc
    have c4 : (c ^ 2) ^ 2 = 1 := by
      rw [hc, ← pow_mul, ← pow_mul, show (p25519 - 1) / 4 * (2 * 2) = p25519 - 1 by decide]
      exact ZMod.pow_card_sub_one_eq_one hq
    clear_value c
    have hv : w * x0 ^ 2 = u * c ^ 2 := by rw [e0, hu]; ring
    have hu0 : u ≠ 0 := by rw [hu]; exact mul_ne_zero (pow_ne_zero _ hx) hw
    have c2 : c ^ 2 = 1 ∨ c ^ 2 = -1 := by
      have : (c ^ 2 - 1) * (c ^ 2 + 1) = 0 := by linear_combination c4
      rcases mul_eq_zero.1 this with h | h
      · left; linear_combination h
      · right; linear_combination h
    constructor
    · intro h
      have : c ^ 2 = 1 := by apply mul_left_cancel₀ hu0; rw [← hv, h, mul_one]
      rw [e0]; exact pm c this x
    · rcases c2 with h | h
      · left; rw [hv, h, mul_one]
      · right
        refine ⟨by rw [hv, h]; ring, ?_⟩
        rw [e0, mul_assoc]
        exact pm _ (by rw [mul_pow, h, im_sq]; ring) x

/-- the sign bit picks the right root -/
theorem pick {x : K} {x1 : Nat} (h1 : x1 < p25519) (h : (x1 : K) = x ∨ (x1 : K) = -x) :
    (if x1 % 2 = x.val % 2 then x1 else subMod p25519 0 x1) = x.val := by
  have hx := ZMod.val_lt x
  have hpo : p25519 % 2 = 1 := by decide
  rcases h with h | h
  · have : x1 = x.val := by rw [← cast_inj' h1 hx, h, cast_val]
    rw [this, if_pos rfl]
  · by_cases h0 : x1 = 0
    · have : x.val = 0 := by
        rw [h0, Nat.cast_zero] at h
        rw [show x = 0 from (neg_eq_zero.1 h.symm)]; exact ZMod.val_zero
      rw [h0, this, if_pos rfl]
    · have e : x.val = p25519 - x1 := by
        rw [← cast_inj' hx (by omega), cast_val, Nat.cast_sub h1.le, ZMod.natCast_self, h]; ring
      rw [if_neg (by rw [e]; omega), e, subMod, Nat.mod_eq_of_lt (by omega)]
      omega

/-- decoding an encoded point gives its coordinates -/
theorem unpack_enc {x y : K} {Q : curve.Point} (h : EPt x y Q) : ∃ P, edUnpack (enc x y) = some P ∧ ERep P x y Q := by
  have hx := ZMod.val_lt x
  have hy := ZMod.val_lt y
  have p255 : p25519 < 2 ^ 255 := by decide
  have hv : leNat (enc x y) = y.val + 2 ^ 255 * (x.val % 2) := by
    rw [enc, leNat_toLe]
    have : x.val % 2 < 2 := Nat.mod_lt _ (by decide)
    omega
  have v1 : (y.val + 2 ^ 255 * (x.val % 2)) % 2 ^ 255 = y.val := by omega
  have v2 : (y.val + 2 ^ 255 * (x.val % 2)) / 2 ^ 255 = x.val % 2 := by omega
  refine ⟨⟨x.val, y.val, 1, x.val * y.val % p25519⟩, ?_, ?_⟩
  · simp only [edUnpack, Curves.force_eq, hv, v1, v2]
    rw [if_neg (by omega)]
    set u := subMod p25519 (y.val * y.val % p25519) 1 with hu
    set w := (edD * (y.val * y.val % p25519) + 1) % p25519 with hw
    have cu : (u : K) = y ^ 2 - 1 := by rw [hu, cast_subMod (by decide), cast_mod, Nat.cast_mul, cast_val, Nat.cast_one]; ring
    have cw : (w : K) = d * y ^ 2 + 1 := by
      rw [hw, cast_mod, Nat.cast_add, Nat.cast_mul, cast_mod, Nat.cast_mul, cast_val, show (edD : K) = d from rfl, Nat.cast_one]; ring
    have lu : u < p25519 := Nat.mod_lt _ p_pos
    have lw : w < p25519 := Nat.mod_lt _ p_pos
    clear_value u w
    set w3 := w * w % p25519 * w % p25519 with hw3
    have c3 : (w3 : K) = (w : K) ^ 3 := by rw [hw3, cast_mod, Nat.cast_mul, cast_mod, Nat.cast_mul]; ring
    set w7 := w3 * w3 % p25519 * w % p25519 with hw7
    have c7 : (w7 : K) = (w : K) ^ 7 := by rw [hw7, cast_mod, Nat.cast_mul, cast_mod, Nat.cast_mul, c3]; ring
    clear_value w3 w7
    set x0 := u * w3 % p25519 * powMod p25519 256 (u * w7 % p25519) ((p25519 - 5) / 8) 1 % p25519 with hx0
    have l0 : x0 < p25519 := Nat.mod_lt _ p_pos
    have c0 : (x0 : K) = u * w ^ 3 * (u * w ^ 7 : K) ^ ((p25519 - 5) / 8) := by
      rw [hx0, cast_mod, Nat.cast_mul, cast_mod, Nat.cast_mul, c3, P256.powMod_cast _ _ _ _ _ (by decide), cast_mod, Nat.cast_mul, c7,
        Nat.cast_one, one_mul]
    clear_value x0
    have R := root h.1
    simp only at R
    rw [← cu, ← cw, ← c0] at R
    have cvx : ((w * (x0 * x0 % p25519) % p25519 : Nat) : K) = w * x0 ^ 2 := by
      rw [cast_mod, Nat.cast_mul, cast_mod, Nat.cast_mul]; ring
    have lvx : w * (x0 * x0 % p25519) % p25519 < p25519 := Nat.mod_lt _ p_pos
    have e1 : w * (x0 * x0 % p25519) % p25519 = u ↔ (w : K) * x0 ^ 2 = u := by
      rw [← cast_inj' lvx lu, cvx]
    have e2 : w * (x0 * x0 % p25519) % p25519 = subMod p25519 0 u ↔ (w : K) * x0 ^ 2 = -u := by
      rw [← cast_inj' lvx (show subMod p25519 0 u < p25519 from Nat.mod_lt _ p_pos), cvx, cast_subMod lu, Nat.cast_zero, zero_sub]
    have key : ∃ x1, (if w * (x0 * x0 % p25519) % p25519 = u then some x0
        else if w * (x0 * x0 % p25519) % p25519 = subMod p25519 0 u then some (x0 * edI % p25519) else none) = some x1 ∧
        x1 < p25519 ∧ ((x1 : K) = x ∨ (x1 : K) = -x) := by
      by_cases g1 : (w : K) * x0 ^ 2 = u
      · exact ⟨x0, by rw [if_pos (e1.2 g1)], l0, R.1 g1⟩
      · obtain ⟨g2, g3⟩ := R.2.resolve_left g1
        refine ⟨x0 * edI % p25519, by rw [if_neg (mt e1.1 g1), if_pos (e2.2 g2)], Nat.mod_lt _ p_pos, ?_⟩
        rw [cast_mod, Nat.cast_mul]; exact g3
    obtain ⟨x1, k1, k2, k3⟩ := key
    rw [k1]
    dsimp only
    have np : ¬ (x1 = 0 ∧ y.val + 2 ^ 255 * (x.val % 2) ≥ 2 ^ 255) := by
      rintro ⟨rfl, hge⟩
      have : x = 0 := by
        rcases k3 with h | h
        · rw [← h, Nat.cast_zero]
        · rw [Nat.cast_zero] at h; exact neg_eq_zero.1 h.symm
      rw [this, ZMod.val_zero] at hge
      omega
    rw [if_neg np, pick k2 k3]
  · refine ⟨hx, hy, (by decide : 1 < p25519), by simp, ?_, ?_, ?_, h⟩
    · show ((x.val : Nat) : K) = _; rw [cast_val]; simp
    · show ((y.val : Nat) : K) = _; rw [cast_val]; simp
    · show ((_ % p25519 : Nat) : K) = _; rw [cast_mod, Nat.cast_mul, cast_val, cast_val]; simp

/-- the base point -/
theorem edB_rep : ERep edB (edB.x : K) (edB.y : K) B := by
  refine ⟨by decide, by decide, (by decide : 1 < p25519), by simp [edB], by simp [edB], by simp [edB], ?_, ?_⟩
  · show ((edB.x * edB.y % p25519 : Nat) : K) = _
    rw [cast_mod, Nat.cast_mul]; simp [edB]
  · refine EPt.finish (h := b_on) ?_ ?_ ?_
    · unfold On d
      have : ((edB.y ^ 2 : Nat) : K) = ((1 + edD * edB.x ^ 2 * edB.y ^ 2 + edB.x ^ 2 : Nat) : K) := by
        rw [ZMod.natCast_eq_natCast_iff']; decide +kernel
      push_cast at this
      linear_combination this
    · have : ((9 : Nat) : K) = ((1 + edB.y + 9 * edB.y : Nat) : K) := by
        rw [ZMod.natCast_eq_natCast_iff']; decide +kernel
      push_cast at this
      push_cast
      linear_combination this
    · have : ((vB * edB.x : Nat) : K) = ((51042569399160536130206135233146329284152202253034631822681833788666877215207 * 9 : Nat) : K) := by
        rw [ZMod.natCast_eq_natCast_iff']; decide +kernel
      rw [Nat.cast_mul, Nat.cast_mul] at this
      exact this

theorem edB_smul {s : Nat} (hs : s < 2 ^ 256) : ∃ x y, ERep (edSmul s edB) x y (s • B) := edB_rep.smul hs

theorem smul_B_congr {a b : Nat} (h : a % edL = b % edL) : a • B = b • B := by
  have key : ∀ a : Nat, a • B = (a % edL) • B := by
    intro a
    conv_lhs => rw [← Nat.div_add_mod a edL]
    rw [add_nsmul, mul_nsmul, l_B, nsmul_zero, zero_add]
  rw [key a, key b, h]

/-- every Ed25519 signature verifies -/
theorem ed_ok (sk m : Bytes) : edVerify (edPublic sk) m (edSign sk (edPublic sk) m) = true := by
  simp only [edSign, edPublic, Curves.force_eq]
  have hs : (edExpand sk).1 < 2 ^ 256 := lt_trans (scalar_bounds _).2.1 (by decide)
  generalize (edExpand sk).1 = s at hs
  generalize hr0 : leNat (Fips.sha512 ((edExpand sk).2 ++ m)) % edL = r
  have hr : r < 2 ^ 256 := by
    rw [← hr0]; exact lt_trans (Nat.mod_lt _ (by decide)) (by decide)
  obtain ⟨xa, ya, ha⟩ := edB_smul hs
  obtain ⟨xr, yr, hR⟩ := edB_smul hr
  rw [ha.pack, hR.pack]
  have la : (enc xa ya).length = 32 := toLe_length _ _
  have lr : (enc xr yr).length = 32 := toLe_length _ _
  have ta : (enc xa ya).take 32 = enc xa ya := List.take_of_length_le (by rw [la])
  rw [ta]
  generalize hh : leNat (Fips.sha512 (enc xr yr ++ enc xa ya ++ m)) % edL = h
  have lh : h < 2 ^ 256 := by
    rw [← hh]; exact lt_trans (Nat.mod_lt _ (by decide)) (by decide)
  have lS : (r + h * s) % edL < edL := Nat.mod_lt _ (by decide)
  have lS' : (r + h * s) % edL < 2 ^ 256 := lt_trans lS (by decide)
  have tr : (enc xr yr ++ toLe 32 ((r + h * s) % edL)).take 32 = enc xr yr := by
    rw [List.take_append_of_le_length (by rw [lr]), List.take_of_length_le (by rw [lr])]
  have dr : ((enc xr yr ++ toLe 32 ((r + h * s) % edL)).drop 32).take 32 = toLe 32 ((r + h * s) % edL) := by
    rw [List.drop_append_of_le_length (by rw [lr]), List.drop_eq_nil_of_le (by rw [lr]), List.nil_append,
      List.take_of_length_le (by rw [toLe_length])]
  obtain ⟨A, uA, rA⟩ := unpack_enc ha.pt
  obtain ⟨R, uR, rR⟩ := unpack_enc hR.pt
  rw [edVerify, ta, tr, dr, uA, uR]
  simp only [Curves.force_eq]
  rw [hh, leNat_toLe _ lS', if_neg (by omega), edAdd_k, beq_iff_eq]
  obtain ⟨x1, y1, h1⟩ := edB_smul lS'
  obtain ⟨x2, y2, h2⟩ := rA.smul lh
  obtain ⟨x3, y3, h3⟩ := h2.add rR
  have e : ((r + h * s) % edL) • B = h • s • B + r • B := by
    rw [smul_B_congr (a := (r + h * s) % edL) (b := r + h * s) (Nat.mod_mod _ _), add_nsmul, add_comm, mul_nsmul']
  rw [e] at h1
  exact h1.pack_eq h3

end Verif.C25519
