import Verif.Spec.Fips
/-
Sizes of the standard primitives, and CCM decryption inverts CCM encryption.
-/
namespace Verif.Fips

theorem toBe_length (k n : Nat) : (toBe k n).length = k := by
  induction k with
  | zero => rfl
  | succ k ih => simp [toBe, ih]

theorem round_length (s : Sha2) (v : List Nat) (k w : Nat) : (round s v k w).length = v.length := by
  unfold round; split <;> rfl

theorem rounds_length (s : Sha2) (ks ws v : List Nat) : (rounds s ks ws v).length = v.length := by
  induction ks generalizing ws v with
  | nil => rfl
  | cons k ks ih => rw [rounds, ih, round_length]

theorem compress_length (s : Sha2) (h : List Nat) (b : Bytes) : (compress s h b).length = h.length := by
  simp [compress, rounds_length]

theorem foldl_compress_length (s : Sha2) (l : List Bytes) (h : List Nat) : (l.foldl (compress s) h).length = h.length := by
  induction l generalizing h with
  | nil => rfl
  | cons b l ih => rw [List.foldl_cons, ih, compress_length]

theorem flatten_toBe_length (k : Nat) (l : List Nat) : (l.map (toBe k)).flatten.length = k * l.length := by
  induction l with
  | nil => simp
  | cons a l ih => simp [toBe_length, ih, Nat.mul_add, Nat.add_comm]

theorem sha2_length (s : Sha2) (m : Bytes) : (sha2 s m).length = s.w / 8 * s.h0.length := by
  rw [sha2, flatten_toBe_length, foldl_compress_length]

theorem sha256_length (m : Bytes) : (sha256 m).length = 32 := sha2_length _ _
theorem sha512_length (m : Bytes) : (sha512 m).length = 64 := sha2_length _ _
theorem hmacSha256_length (k m : Bytes) : (hmacSha256 k m).length = 32 := sha256_length _

theorem addKey_length (k s : List Nat) : (addKey k s).length = min k.length s.length := by simp [addKey]

theorem shiftRows_length (s : List Nat) : (shiftRows s).length = s.length := by unfold shiftRows; split <;> rfl
theorem mixColumns_length (s : List Nat) : (mixColumns s).length = s.length := by unfold mixColumns; split <;> rfl
theorem nextKey_length (r : Nat) (s : List Nat) : (nextKey r s).length = s.length := by unfold nextKey; split <;> rfl

theorem aesRounds_length (rcs k s : List Nat) (hk : k.length = s.length) : (aesRounds rcs k s).length = s.length := by
  induction rcs generalizing k s with
  | nil => rfl
  | cons r rs ih =>
    match rs with
    | [] => simp [aesRounds, addKey_length, shiftRows_length, nextKey_length, hk]
    | r' :: rs' =>
      rw [aesRounds]
      · rw [ih]
        · simp [addKey_length, mixColumns_length, shiftRows_length, nextKey_length, hk]
        · simp [addKey_length, mixColumns_length, shiftRows_length, nextKey_length, hk]
      · simp

theorem aes128_length (k b : Bytes) (h : k.length = b.length) : (aes128 k b).length = b.length := by
  simp only [aes128, List.length_map]
  rw [aesRounds_length]
  · simp [addKey_length, h]
  · simp [addKey_length, h]

theorem xor_length (a b : Bytes) : (xor a b).length = min a.length b.length := by simp [xor]

theorem xor_xor (p k : Bytes) (h : p.length ≤ k.length) : xor (xor p k) k = p := by
  induction p generalizing k with
  | nil => rfl
  | cons a p ih =>
    cases k with
    | nil => simp at h
    | cons b k =>
      simp only [List.length_cons, Nat.add_le_add_iff_right] at h
      simp only [xor, List.zipWith_cons_cons] at ih ⊢
      rw [ih k h]
      simp [UInt8.xor_assoc]

theorem pad16_mod (l : Bytes) : (pad16 l).length % 16 = 0 := by
  simp [pad16]; omega

theorem chunks_length (fuel : Nat) (l : Bytes) (h : l.length % 16 = 0) : ∀ c ∈ chunks 16 fuel l, c.length = 16 := by
  induction fuel generalizing l with
  | zero => simp [chunks]
  | succ f ih =>
    intro c hc
    rw [chunks] at hc
    split at hc
    · simp at hc
    · rename_i he
      have : l.length ≠ 0 := by
        intro h0; apply he; cases l <;> simp_all
      rcases List.mem_cons.1 hc with rfl | hc
      · simp; omega
      · exact ih _ (by simp; omega) c hc

theorem block0_length (n : Bytes) (t a p : Nat) (h : n.length ≤ 15) : (block0 n t a p).length = 16 := by
  simp [block0, toBe_length]; omega

theorem ctrBlock_length (n : Bytes) (i : Nat) (h : n.length ≤ 15) : (ctrBlock n i).length = 16 := by
  simp [ctrBlock, toBe_length]; omega

/-- `E` maps blocks to blocks -/
def BlockFn (E : Bytes → Bytes) : Prop := ∀ b, b.length = 16 → (E b).length = 16

theorem foldl_mac_length {E : Bytes → Bytes} (hE : BlockFn E) (l : List Bytes) (y : Bytes) (hy : y.length = 16)
    (hl : ∀ c ∈ l, c.length = 16) : (l.foldl (fun y b => E (xor y b)) y).length = 16 := by
  induction l generalizing y with
  | nil => exact hy
  | cons b l ih =>
    rw [List.foldl_cons]
    refine ih _ (hE _ ?_) (fun c hc => hl c (List.mem_cons_of_mem _ hc))
    rw [xor_length, hy, hl b List.mem_cons_self]; rfl

theorem cbcMac_length {E : Bytes → Bytes} (hE : BlockFn E) (l : Bytes) (h : l.length % 16 = 0) : (cbcMac E l).length = 16 :=
  foldl_mac_length hE _ _ (by simp) (chunks_length _ _ h)

theorem keyStream_length {E : Bytes → Bytes} (hE : BlockFn E) (n : Bytes) (hn : n.length ≤ 15) (m i : Nat) :
    (keyStream E n m i).length = 16 * m := by
  induction m generalizing i with
  | zero => rfl
  | succ m ih => rw [keyStream, List.length_append, ih, hE _ (ctrBlock_length n i hn)]; omega

theorem ctrCrypt_length {E : Bytes → Bytes} (hE : BlockFn E) (n p : Bytes) (hn : n.length ≤ 15) : (ctrCrypt E n p).length = p.length := by
  rw [ctrCrypt, xor_length, keyStream_length hE n hn]; omega

theorem ctrCrypt_ctrCrypt {E : Bytes → Bytes} (hE : BlockFn E) (n p : Bytes) (hn : n.length ≤ 15) : ctrCrypt E n (ctrCrypt E n p) = p := by
  conv => lhs; rw [ctrCrypt]
  rw [ctrCrypt_length hE n p hn]
  exact xor_xor _ _ (by rw [keyStream_length hE n hn]; omega)

theorem ccmTag_length {E : Bytes → Bytes} (hE : BlockFn E) (n a : Bytes) (t : Nat) (p : Bytes) (hn : n.length ≤ 15) (ht : t ≤ 16) :
    (ccmTag E n a t p).length = t := by
  rw [ccmTag, List.length_take, xor_length, hE _ (ctrBlock_length n 0 hn), cbcMac_length hE]
  · omega
  · have h1 := pad16_mod (aadLen a.length ++ a)
    have h2 := pad16_mod p
    rw [List.length_append, List.length_append, block0_length _ _ _ _ hn]; omega

theorem ccmOk_iff {k n a : Bytes} {t l : Nat} (h : ccmOk k n a t l = true) : k.length = 16 ∧ n.length ≤ 15 ∧ t ≤ 16 := by
  simp [ccmOk] at h; omega

/-- the ciphertexts CCM accepts are exactly those it produces -/
theorem ccmDec_iff (E : Bytes → Bytes → Bytes) (hE : ∀ k, k.length = 16 → BlockFn (E k)) (k n a : Bytes) (t : Nat) (p c : Bytes) :
    ccmDec E k n a t c = some p ↔ ccmEnc E k n a t p = some c := by
  constructor
  · intro h
    rw [ccmDec] at h
    split at h
    · cases h
    · rename_i hlen
      split at h
      · rename_i hok
        simp only at h
        split at h
        · rename_i htag
          obtain ⟨hk, hn, ht⟩ := ccmOk_iff hok
          cases h
          have hl : (ctrCrypt (E k) n (c.take (c.length - t))).length = c.length - t := by
            rw [ctrCrypt_length (hE k hk) _ _ hn, List.length_take]; omega
          rw [ccmEnc, hl, if_pos hok, ctrCrypt_ctrCrypt (hE k hk) _ _ hn, htag, List.take_append_drop]
        · cases h
      · cases h
  · intro h
    rw [ccmEnc] at h
    split at h
    · rename_i hok
      obtain ⟨hk, hn, ht⟩ := ccmOk_iff hok
      cases h
      have h1 := ctrCrypt_length (hE k hk) n p hn
      have h2 := ccmTag_length (hE k hk) n a t p hn ht
      have h3 : (ctrCrypt (E k) n p ++ ccmTag (E k) n a t p).length - t = (ctrCrypt (E k) n p).length := by
        rw [List.length_append, h2]; omega
      rw [ccmDec, if_neg (by rw [List.length_append, h2]; omega), h3, List.take_left', List.drop_left', h1, if_pos hok]
      · simp only
        rw [ctrCrypt_ctrCrypt (hE k hk) _ _ hn, if_pos rfl]
      · rfl
      · rfl
    · cases h

theorem ccmEnc_length (E : Bytes → Bytes → Bytes) (hE : ∀ k, k.length = 16 → BlockFn (E k)) (k n a : Bytes) (t : Nat) (p c : Bytes)
    (h : ccmEnc E k n a t p = some c) : c.length = p.length + t := by
  rw [ccmEnc] at h
  split at h
  · rename_i hok
    obtain ⟨hk, hn, ht⟩ := ccmOk_iff hok
    cases h
    rw [List.length_append, ctrCrypt_length (hE k hk) _ _ hn, ccmTag_length (hE k hk) _ _ _ _ hn ht]
  · cases h

theorem aes128_block (k : Bytes) (h : k.length = 16) : BlockFn (aes128 k) := by
  intro b hb; rw [aes128_length k b (by rw [h, hb]), hb]

end Verif.Fips
