import Verif.Spec.HkdfSpec
import Verif.Lemmas.Toy
import Verif.Lemmas.BytesLemmas
/-
C37: `hkdf_expand` computes HKDF-Expand of RFC 5869.
-/
namespace Verif
open Hkdf

/-- the primitive produces 32 bytes -/
theorem T_length {C : Crypto} (hC : C.Lawful) (prk info : Bytes) (i : Nat) :
    (T C.hmac prk info (i + 1)).length = 32 := by rw [T]; exact hC.hmac_len _ _

theorem concatT_length {C : Crypto} (hC : C.Lawful) (prk info : Bytes) : ∀ n,
    (concatT C.hmac prk info n).length = n * 32
  | 0 => rfl
  | n + 1 => by rw [concatT, List.length_append, concatT_length hC prk info n, T_length hC]; omega

/-- one block appended to the first `n` blocks, cut to `L` -/
theorem block_append {C : Crypto} (hC : C.Lawful) (prk info : Bytes) (L n : Nat) (hn : n * 32 < L) :
    (concatT C.hmac prk info n).take L ++
      (if L < (n + 1) * 32 then (T C.hmac prk info (n + 1)).take (L % 32) else T C.hmac prk info (n + 1)) =
    (concatT C.hmac prk info (n + 1)).take L := by
  have hl := concatT_length hC prk info n
  have ht := T_length hC prk info n
  rw [concatT, List.take_append, hl, List.take_of_length_le (by omega)]
  congr 1
  split
  · congr 1; omega
  · rw [List.take_of_length_le (by omega)]

theorem expandLoop_eq {C : Crypto} (hC : C.Lawful) (prk info : Bytes) (L : Nat) : ∀ (m i : Nat) (t : Bytes),
    (i ≠ 0 → t = T C.hmac prk info i) → (i + m = (L + 31) / 32) →
    expandLoop C prk info L m (i + 1) t (decide (i = 0)) ((concatT C.hmac prk info i).take L) =
      (concatT C.hmac prk info (i + m)).take L
  | 0, i, t, _, _ => rfl
  | m + 1, i, t, ht, hm => by
    have hT : C.hmac prk ((if decide (i = 0) = true then [] else t) ++ info ++ [byte (i + 1)]) =
        T C.hmac prk info (i + 1) := by
      rw [T]
      by_cases h0 : i = 0
      · subst h0; rfl
      · rw [if_neg (by simpa using h0), ht h0]
    rw [expandLoop, hT]
    rw [block_append hC prk info L i (by omega)]
    have := expandLoop_eq hC prk info L m (i + 1) (T C.hmac prk info (i + 1)) (fun _ => rfl) (by omega)
    simp only [Nat.add_eq_zero_iff, Nat.one_ne_zero, and_false, decide_false] at this
    rw [this, show i + 1 + m = i + (m + 1) by omega]

/-- C37 (MBEDTLS): for every PRK, every `info` that fits the library's buffer and every output length
up to 255 * 32 the result is HKDF-Expand of RFC 5869. -/
theorem C37_expand_rfc5869 {cfg : Cfg} {C : Crypto} (hC : C.Lawful) (prk info : Bytes) {L : Nat}
    (hL : L ≤ 255 * 32) (hi : info.length ≤ cfg.infoMax) :
    hkdfExpand cfg C prk info L = .ok (expand C.hmac prk info L) := by
  unfold hkdfExpand
  simp only
  rw [Nat.mod_eq_of_lt (by omega), if_neg (by omega), if_neg (by omega)]
  have := expandLoop_eq hC prk info L ((L + 31) / 32) 0 (List.replicate 32 0) (by simp) (by omega)
  rw [Nat.zero_add 1, Nat.zero_add (_ / 32), concatT, List.take_nil] at this
  rw [expand, ← this]
  try rfl

/-- C37: the output has the requested length -/
theorem C37_length {C : Crypto} (hC : C.Lawful) (prk info : Bytes) (L : Nat) :
    (expand C.hmac prk info L).length = L := by
  rw [expand, List.length_take, concatT_length hC]; omega

/-- C37: longer outputs are refused (lengths that do not wrap in 32 bits) -/
theorem C37_too_long {cfg : Cfg} {C : Crypto} (prk info : Bytes) {L : Nat}
    (hL : 255 * 32 < L) (hL' : L + 31 < 2 ^ 32) : hkdfExpand cfg C prk info L = .err .hkdf_failed := by
  unfold hkdfExpand
  simp only
  rw [Nat.mod_eq_of_lt hL', if_pos (by omega)]

/-- C37 is false for the 31 largest 32-bit lengths: the rounding `out->len + 31` wraps, no block is
computed and `ok` is returned with nothing written. -/
theorem C37_false_wrap {cfg : Cfg} {C : Crypto} (prk info : Bytes) {L : Nat} (hi : info.length ≤ cfg.infoMax)
    (hL : 2 ^ 32 - 31 ≤ L) (hL' : L < 2 ^ 32) : hkdfExpand cfg C prk info L = .ok [] := by
  unfold hkdfExpand
  simp only
  have : (L + 31) % 2 ^ 32 / 32 = 0 := by omega
  rw [this, if_neg (by omega), if_neg (by omega)]
  rfl

theorem expandLoopTc_eq {C : Crypto} (hC : C.Lawful) (prk info : Bytes) (L : Nat) (hL : (L + 31) / 32 ≤ 254) :
    ∀ (m fuel i : Nat) (t : Bytes), (i ≠ 0 → t = T C.hmac prk info i) → (i + m = (L + 31) / 32) → m < fuel →
    expandLoopTc C prk info L ((L + 31) / 32) fuel (i + 1) t ((concatT C.hmac prk info i).take L) =
      .ok ((concatT C.hmac prk info (i + m)).take L)
  | 0, fuel + 1, i, t, _, hm, _ => by
    rw [expandLoopTc, if_neg (by omega)]; rfl
  | m + 1, fuel + 1, i, t, ht, hm, hf => by
    rw [expandLoopTc, if_pos (by omega), if_neg (by omega)]
    have hT : C.hmac prk ((if i + 1 > 1 then t else []) ++ info ++ [byte (i + 1)]) =
        T C.hmac prk info (i + 1) := by
      rw [T]
      by_cases h0 : i = 0
      · subst h0; rfl
      · rw [if_pos (by omega), ht h0]
    simp only
    rw [hT, block_append hC prk info L i (by omega), Nat.mod_eq_of_lt (by omega),
      expandLoopTc_eq hC prk info L hL m fuel (i + 1) _ (fun _ => rfl) (by omega) (by omega)]
    rw [show i + 1 + m = i + (m + 1) by omega]

/-- C37 (TINYCRYPT): up to 254 blocks the result is HKDF-Expand of RFC 5869 -/
theorem C37_expand_tinycrypt_partial {C : Crypto} (hC : C.Lawful) (prk info : Bytes) {L : Nat}
    (hL : L ≤ 254 * 32) : hkdfExpandTc C prk info L = .ok (expand C.hmac prk info L) := by
  unfold hkdfExpandTc
  simp only
  rw [Nat.mod_eq_of_lt (by omega), if_neg (by omega)]
  have := expandLoopTc_eq hC prk info L (by omega) ((L + 31) / 32) 257 0 (List.replicate 32 0) (by simp)
    (by omega) (by omega)
  rw [Nat.zero_add 1, Nat.zero_add (_ / 32), concatT, List.take_nil] at this
  rw [expand, ← this]
  try rfl

theorem expandLoopTc_wrap (C : Crypto) (prk info : Bytes) (L : Nat) :
    ∀ (m fuel i : Nat) (t out : Bytes), i + m = 256 → 0 < i → i < 256 → m < fuel →
    expandLoopTc C prk info L 255 fuel i t out = .ub
  | 0, fuel + 1, i, t, out, hm, _, _, _ => by omega
  | 1, fuel + 1, i, t, out, hm, h0, _, hf => by
    obtain rfl : i = 255 := by omega
    rw [expandLoopTc, if_pos (by omega), if_neg (by omega)]
    match fuel, hf with
    | f + 1, _ =>
      show expandLoopTc C prk info L 255 (f + 1) 0 _ _ = .ub
      rw [expandLoopTc, if_pos (by omega), if_pos rfl]
  | m + 2, fuel + 1, i, t, out, hm, h0, _, hf => by
    rw [expandLoopTc, if_pos (by omega), if_neg (by omega)]
    simp only
    rw [Nat.mod_eq_of_lt (by omega)]
    exact expandLoopTc_wrap C prk info L (m + 1) fuel (i + 1) _ _ (by omega) (by omega) (by omega) (by omega)

/-- C37 is false in the TINYCRYPT build for the longest outputs RFC 5869 allows (255 blocks): the 8-bit
loop counter wraps and the loop writes in front of the output. -/
theorem C37_false_tinycrypt (C : Crypto) (prk info : Bytes) {L : Nat}
    (hL : 254 * 32 < L) (hL' : L ≤ 255 * 32) : hkdfExpandTc C prk info L = .ub := by
  unfold hkdfExpandTc
  simp only
  have : (L + 31) % 2 ^ 32 / 32 = 255 := by omega
  rw [this, if_neg (by omega)]
  exact expandLoopTc_wrap C prk info L 255 257 1 _ _ (by omega) (by omega) (by omega) (by omega)

/-- C37: extract is HKDF-Extract of RFC 5869, and `hkdf_sha_256` is extract-then-expand -/
theorem C37_hkdf {cfg : Cfg} {C : Crypto} (hC : C.Lawful) (secret salt info : Bytes) {L : Nat}
    (hL : L ≤ 255 * 32) (hi : info.length ≤ cfg.infoMax) :
    hkdfSha256 cfg C secret salt info L = .ok (expand C.hmac (extract C.hmac salt secret) info L) := by
  rw [hkdfSha256, C37_expand_rfc5869 hC _ _ hL hi]
  simp [hkdfExtract, extract, List.length_eq_zero_iff]

/-- non-vacuity: a two-block output of a lawful instance -/
example : hkdfExpand {} toyCrypto [1] [2, 3] 40 = .ok (expand toyCrypto.hmac [1] [2, 3] 40) ∧
    (expand toyCrypto.hmac [1] [2, 3] 40).length = 40 :=
  ⟨C37_expand_rfc5869 toyCrypto_lawful _ _ (by omega) (by decide), C37_length toyCrypto_lawful _ _ _⟩

end Verif
