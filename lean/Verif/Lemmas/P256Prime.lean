import Mathlib.NumberTheory.LucasPrimality
import Mathlib.Tactic.NormNum.Prime
import Mathlib.Tactic.Ring

/-
The modulus of P-256 is a prime number: a Pratt certificate checked by the kernel.
-/
namespace Verif.P256

/-- evaluate `n` to a literal before going on (the kernel is lazy) -/
def force (n : Nat) (k : Nat → Nat) : Nat :=
  match n with
  | 0 => k 0
  | n + 1 => k (n + 1)

theorem force_eq (n : Nat) (k : Nat → Nat) : force n k = k n := by cases n <;> rfl

/-- modular exponentiation by squaring; `fuel` bounds the number of bits of the exponent -/
def powMod : Nat → Nat → Nat → Nat → Nat
  | 0, _, _, m => 1 % m
  | f + 1, a, e, m =>
    force (a * a % m) fun a2 => force (e / 2) fun e2 => force (powMod f a2 e2 m) fun r =>
      if e % 2 = 1 then a * r % m else r

theorem powMod_eq (f a e m : Nat) (h : e < 2 ^ f) : powMod f a e m = a ^ e % m := by
  induction f generalizing a e with
  | zero =>
    have : e = 0 := by simpa using h
    subst this; simp [powMod]
  | succ f ih =>
    unfold powMod
    simp only [force_eq]
    have hlt : e / 2 < 2 ^ f := by rw [Nat.pow_succ] at h; omega
    rw [ih _ _ hlt]
    have e1 : (a * a % m) ^ (e / 2) % m = a ^ (2 * (e / 2)) % m := by
      rw [← Nat.pow_mod, pow_mul, pow_two]
    by_cases h1 : e % 2 = 1
    · rw [if_pos h1, e1, Nat.mul_mod, Nat.mod_mod, ← Nat.mul_mod]
      have : e = 2 * (e / 2) + 1 := by omega
      conv_rhs => rw [this, pow_succ, mul_comm]
    · rw [if_neg h1, e1]
      have : 2 * (e / 2) = e := by omega
      rw [this]

/-- Pratt certificate: `a` has order `p - 1`, whose prime factors are listed. -/
theorem pratt (p a : Nat) (fs : List (Nat × Nat)) (hp : 1 < p ∧ p < 2 ^ 256)
    (hq : ∀ q ∈ fs, q.1.Prime) (hf : (fs.map fun q => q.1 ^ q.2).prod = p - 1)
    (h1 : powMod 256 a (p - 1) p = 1) (h2 : ∀ q ∈ fs, powMod 256 a ((p - 1) / q.1) p ≠ 1) :
    p.Prime := by
  have key : ∀ e, e < 2 ^ 256 → (((a : ZMod p) ^ e = 1) ↔ powMod 256 a e p = 1) := by
    intro e he
    rw [powMod_eq _ _ _ _ he]
    have : ((a : ZMod p) ^ e = 1) ↔ ((a ^ e : Nat) : ZMod p) = ((1 : Nat) : ZMod p) := by
      simp
    rw [this, ZMod.natCast_eq_natCast_iff']
    rw [Nat.mod_eq_of_lt hp.1]
  refine lucas_primality p (a : ZMod p) ?_ ?_
  · exact (key _ (by omega)).2 h1
  · intro q hqp hqd
    rw [← hf] at hqd
    obtain ⟨x, hx, hdx⟩ := (Prime.dvd_prod_iff hqp.prime).1 hqd
    obtain ⟨y, hy, rfl⟩ := List.mem_map.1 hx
    have e : q = y.1 := (Nat.prime_dvd_prime_iff_eq hqp (hq y hy)).1 (hqp.dvd_of_dvd_pow hdx)
    subst e
    intro h
    exact h2 y hy ((key _ (lt_of_le_of_lt (Nat.div_le_self _ _) (by omega))).1 h)

theorem prime_65537 : Nat.Prime 65537 :=
  pratt 65537 3 [(2, 16)] (by decide +kernel)
    (List.forall_mem_cons.2 ⟨(by norm_num : Nat.Prime 2), (List.forall_mem_nil _)⟩)
    (by decide +kernel) (by decide +kernel) (by decide +kernel)

theorem prime_490463 : Nat.Prime 490463 :=
  pratt 490463 14 [(2, 1), (7, 1), (53, 1), (661, 1)] (by decide +kernel)
    (List.forall_mem_cons.2 ⟨(by norm_num : Nat.Prime 2), (List.forall_mem_cons.2 ⟨(by norm_num : Nat.Prime 7), (List.forall_mem_cons.2 ⟨(by norm_num : Nat.Prime 53), (List.forall_mem_cons.2 ⟨(by norm_num : Nat.Prime 661), (List.forall_mem_nil _)⟩)⟩)⟩)⟩)
    (by decide +kernel) (by decide +kernel) (by decide +kernel)

theorem prime_17449 : Nat.Prime 17449 :=
  pratt 17449 14 [(2, 3), (3, 1), (727, 1)] (by decide +kernel)
    (List.forall_mem_cons.2 ⟨(by norm_num : Nat.Prime 2), (List.forall_mem_cons.2 ⟨(by norm_num : Nat.Prime 3), (List.forall_mem_cons.2 ⟨(by norm_num : Nat.Prime 727), (List.forall_mem_nil _)⟩)⟩)⟩)
    (by decide +kernel) (by decide +kernel) (by decide +kernel)

theorem prime_6700417 : Nat.Prime 6700417 :=
  pratt 6700417 5 [(2, 7), (3, 1), (17449, 1)] (by decide +kernel)
    (List.forall_mem_cons.2 ⟨(by norm_num : Nat.Prime 2), (List.forall_mem_cons.2 ⟨(by norm_num : Nat.Prime 3), (List.forall_mem_cons.2 ⟨prime_17449, (List.forall_mem_nil _)⟩)⟩)⟩)
    (by decide +kernel) (by decide +kernel) (by decide +kernel)

theorem prime_2411 : Nat.Prime 2411 :=
  pratt 2411 6 [(2, 1), (5, 1), (241, 1)] (by decide +kernel)
    (List.forall_mem_cons.2 ⟨(by norm_num : Nat.Prime 2), (List.forall_mem_cons.2 ⟨(by norm_num : Nat.Prime 5), (List.forall_mem_cons.2 ⟨(by norm_num : Nat.Prime 241), (List.forall_mem_nil _)⟩)⟩)⟩)
    (by decide +kernel) (by decide +kernel) (by decide +kernel)

theorem prime_3769 : Nat.Prime 3769 :=
  pratt 3769 7 [(2, 3), (3, 1), (157, 1)] (by decide +kernel)
    (List.forall_mem_cons.2 ⟨(by norm_num : Nat.Prime 2), (List.forall_mem_cons.2 ⟨(by norm_num : Nat.Prime 3), (List.forall_mem_cons.2 ⟨(by norm_num : Nat.Prime 157), (List.forall_mem_nil _)⟩)⟩)⟩)
    (by decide +kernel) (by decide +kernel) (by decide +kernel)

theorem prime_204061199 : Nat.Prime 204061199 :=
  pratt 204061199 11 [(2, 1), (11, 1), (23, 1), (107, 1), (3769, 1)] (by decide +kernel)
    (List.forall_mem_cons.2 ⟨(by norm_num : Nat.Prime 2), (List.forall_mem_cons.2 ⟨(by norm_num : Nat.Prime 11), (List.forall_mem_cons.2 ⟨(by norm_num : Nat.Prime 23), (List.forall_mem_cons.2 ⟨(by norm_num : Nat.Prime 107), (List.forall_mem_cons.2 ⟨prime_3769, (List.forall_mem_nil _)⟩)⟩)⟩)⟩)⟩)
    (by decide +kernel) (by decide +kernel) (by decide +kernel)

theorem prime_34282281433 : Nat.Prime 34282281433 :=
  pratt 34282281433 17 [(2, 3), (3, 1), (7, 1), (204061199, 1)] (by decide +kernel)
    (List.forall_mem_cons.2 ⟨(by norm_num : Nat.Prime 2), (List.forall_mem_cons.2 ⟨(by norm_num : Nat.Prime 3), (List.forall_mem_cons.2 ⟨(by norm_num : Nat.Prime 7), (List.forall_mem_cons.2 ⟨prime_204061199, (List.forall_mem_nil _)⟩)⟩)⟩)⟩)
    (by decide +kernel) (by decide +kernel) (by decide +kernel)

theorem prime_3677 : Nat.Prime 3677 :=
  pratt 3677 2 [(2, 2), (919, 1)] (by decide +kernel)
    (List.forall_mem_cons.2 ⟨(by norm_num : Nat.Prime 2), (List.forall_mem_cons.2 ⟨(by norm_num : Nat.Prime 919), (List.forall_mem_nil _)⟩)⟩)
    (by decide +kernel) (by decide +kernel) (by decide +kernel)

theorem prime_66417393611 : Nat.Prime 66417393611 :=
  pratt 66417393611 6 [(2, 1), (5, 1), (53, 1), (173, 1), (197, 1), (3677, 1)] (by decide +kernel)
    (List.forall_mem_cons.2 ⟨(by norm_num : Nat.Prime 2), (List.forall_mem_cons.2 ⟨(by norm_num : Nat.Prime 5), (List.forall_mem_cons.2 ⟨(by norm_num : Nat.Prime 53), (List.forall_mem_cons.2 ⟨(by norm_num : Nat.Prime 173), (List.forall_mem_cons.2 ⟨(by norm_num : Nat.Prime 197), (List.forall_mem_cons.2 ⟨prime_3677, (List.forall_mem_nil _)⟩)⟩)⟩)⟩)⟩)⟩)
    (by decide +kernel) (by decide +kernel) (by decide +kernel)

theorem prime_11290956913871 : Nat.Prime 11290956913871 :=
  pratt 11290956913871 13 [(2, 1), (5, 1), (17, 1), (66417393611, 1)] (by decide +kernel)
    (List.forall_mem_cons.2 ⟨(by norm_num : Nat.Prime 2), (List.forall_mem_cons.2 ⟨(by norm_num : Nat.Prime 5), (List.forall_mem_cons.2 ⟨(by norm_num : Nat.Prime 17), (List.forall_mem_cons.2 ⟨prime_66417393611, (List.forall_mem_nil _)⟩)⟩)⟩)⟩)
    (by decide +kernel) (by decide +kernel) (by decide +kernel)

theorem prime_18169 : Nat.Prime 18169 :=
  pratt 18169 11 [(2, 3), (3, 1), (757, 1)] (by decide +kernel)
    (List.forall_mem_cons.2 ⟨(by norm_num : Nat.Prime 2), (List.forall_mem_cons.2 ⟨(by norm_num : Nat.Prime 3), (List.forall_mem_cons.2 ⟨(by norm_num : Nat.Prime 757), (List.forall_mem_nil _)⟩)⟩)⟩)
    (by decide +kernel) (by decide +kernel) (by decide +kernel)

theorem prime_4349 : Nat.Prime 4349 :=
  pratt 4349 2 [(2, 2), (1087, 1)] (by decide +kernel)
    (List.forall_mem_cons.2 ⟨(by norm_num : Nat.Prime 2), (List.forall_mem_cons.2 ⟨(by norm_num : Nat.Prime 1087), (List.forall_mem_nil _)⟩)⟩)
    (by decide +kernel) (by decide +kernel) (by decide +kernel)

theorem prime_78283 : Nat.Prime 78283 :=
  pratt 78283 3 [(2, 1), (3, 2), (4349, 1)] (by decide +kernel)
    (List.forall_mem_cons.2 ⟨(by norm_num : Nat.Prime 2), (List.forall_mem_cons.2 ⟨(by norm_num : Nat.Prime 3), (List.forall_mem_cons.2 ⟨prime_4349, (List.forall_mem_nil _)⟩)⟩)⟩)
    (by decide +kernel) (by decide +kernel) (by decide +kernel)

theorem prime_704251 : Nat.Prime 704251 :=
  pratt 704251 2 [(2, 1), (3, 2), (5, 3), (313, 1)] (by decide +kernel)
    (List.forall_mem_cons.2 ⟨(by norm_num : Nat.Prime 2), (List.forall_mem_cons.2 ⟨(by norm_num : Nat.Prime 3), (List.forall_mem_cons.2 ⟨(by norm_num : Nat.Prime 5), (List.forall_mem_cons.2 ⟨(by norm_num : Nat.Prime 313), (List.forall_mem_nil _)⟩)⟩)⟩)⟩)
    (by decide +kernel) (by decide +kernel) (by decide +kernel)

theorem prime_46076956964474543 : Nat.Prime 46076956964474543 :=
  pratt 46076956964474543 5 [(2, 1), (23, 1), (18169, 1), (78283, 1), (704251, 1)] (by decide +kernel)
    (List.forall_mem_cons.2 ⟨(by norm_num : Nat.Prime 2), (List.forall_mem_cons.2 ⟨(by norm_num : Nat.Prime 23), (List.forall_mem_cons.2 ⟨prime_18169, (List.forall_mem_cons.2 ⟨prime_78283, (List.forall_mem_cons.2 ⟨prime_704251, (List.forall_mem_nil _)⟩)⟩)⟩)⟩)⟩)
    (by decide +kernel) (by decide +kernel) (by decide +kernel)

theorem prime_774023187263532362759620327192479577272145303 : Nat.Prime 774023187263532362759620327192479577272145303 :=
  pratt 774023187263532362759620327192479577272145303 3 [(2, 1), (3, 2), (2411, 1), (34282281433, 1), (11290956913871, 1), (46076956964474543, 1)] (by decide +kernel)
    (List.forall_mem_cons.2 ⟨(by norm_num : Nat.Prime 2), (List.forall_mem_cons.2 ⟨(by norm_num : Nat.Prime 3), (List.forall_mem_cons.2 ⟨prime_2411, (List.forall_mem_cons.2 ⟨prime_34282281433, (List.forall_mem_cons.2 ⟨prime_11290956913871, (List.forall_mem_cons.2 ⟨prime_46076956964474543, (List.forall_mem_nil _)⟩)⟩)⟩)⟩)⟩)⟩)
    (by decide +kernel) (by decide +kernel) (by decide +kernel)

theorem prime_835945042244614951780389953367877943453916927241 : Nat.Prime 835945042244614951780389953367877943453916927241 :=
  pratt 835945042244614951780389953367877943453916927241 11 [(2, 3), (3, 3), (5, 1), (774023187263532362759620327192479577272145303, 1)] (by decide +kernel)
    (List.forall_mem_cons.2 ⟨(by norm_num : Nat.Prime 2), (List.forall_mem_cons.2 ⟨(by norm_num : Nat.Prime 3), (List.forall_mem_cons.2 ⟨(by norm_num : Nat.Prime 5), (List.forall_mem_cons.2 ⟨prime_774023187263532362759620327192479577272145303, (List.forall_mem_nil _)⟩)⟩)⟩)⟩)
    (by decide +kernel) (by decide +kernel) (by decide +kernel)

theorem prime_115792089210356248762697446949407573530086143415290314195533631308867097853951 : Nat.Prime 115792089210356248762697446949407573530086143415290314195533631308867097853951 :=
  pratt 115792089210356248762697446949407573530086143415290314195533631308867097853951 6 [(2, 1), (3, 1), (5, 2), (17, 1), (257, 1), (641, 1), (1531, 1), (65537, 1), (490463, 1), (6700417, 1), (835945042244614951780389953367877943453916927241, 1)] (by decide +kernel)
    (List.forall_mem_cons.2 ⟨(by norm_num : Nat.Prime 2), (List.forall_mem_cons.2 ⟨(by norm_num : Nat.Prime 3), (List.forall_mem_cons.2 ⟨(by norm_num : Nat.Prime 5), (List.forall_mem_cons.2 ⟨(by norm_num : Nat.Prime 17), (List.forall_mem_cons.2 ⟨(by norm_num : Nat.Prime 257), (List.forall_mem_cons.2 ⟨(by norm_num : Nat.Prime 641), (List.forall_mem_cons.2 ⟨(by norm_num : Nat.Prime 1531), (List.forall_mem_cons.2 ⟨prime_65537, (List.forall_mem_cons.2 ⟨prime_490463, (List.forall_mem_cons.2 ⟨prime_6700417, (List.forall_mem_cons.2 ⟨prime_835945042244614951780389953367877943453916927241, (List.forall_mem_nil _)⟩)⟩)⟩)⟩)⟩)⟩)⟩)⟩)⟩)⟩)⟩)
    (by decide +kernel) (by decide +kernel) (by decide +kernel)


/-- p = 2^256 - 2^224 + 2^192 + 2^96 - 1 -/
theorem prime_p256 : Nat.Prime (2 ^ 256 - 2 ^ 224 + 2 ^ 192 + 2 ^ 96 - 1) := by
  have := prime_115792089210356248762697446949407573530086143415290314195533631308867097853951
  exact this

end Verif.P256
