import Verif.Model.Unprotect
/-
A concrete (cryptographically worthless) instance of the primitives that satisfies the laws
`Crypto.Lawful`.  It is used only for examples and counterexample witnesses.
-/
namespace Verif

/-- a 61-bit polynomial checksum -/
def toyH (x : Bytes) : Nat := x.foldl (fun h b => (h * 257 + b.toNat + 1) % (2 ^ 61 - 1)) 7

/-- `n` bytes from a checksum -/
def toyBytes (n h : Nat) : Bytes := (List.range n).map (fun i => byte (h / 256 ^ (i % 7) + i))

/-- toy authentication tag -/
def toyTag (k n a : Bytes) (t : Nat) (p : Bytes) : Bytes :=
  toyBytes t (toyH (k ++ [1] ++ n ++ [2] ++ a ++ [3] ++ p))

/-- toy primitives: "encryption" appends a tag -/
def toyCrypto : Crypto where
  hmac k m := toyBytes 32 (toyH (k ++ [0] ++ m))
  hash m := toyBytes 32 (toyH m)
  aeadEnc k n a t p := some (p ++ toyTag k n a t p)
  aeadDec k n a t c :=
    if t ≤ c.length ∧ c.drop (c.length - t) = toyTag k n a t (c.take (c.length - t)) then
      some (c.take (c.length - t))
    else none

theorem toyTag_length {k n a t p} : (toyTag k n a t p).length = t := by simp [toyTag, toyBytes]

theorem toyCrypto_lawful : toyCrypto.Lawful where
  hmac_len k m := by simp [toyCrypto, toyBytes]
  hash_len m := by simp [toyCrypto, toyBytes]
  dec_enc k n a t p c h := by
    simp only [toyCrypto, Option.some.injEq] at *
    subst h
    have : (p ++ toyTag k n a t p).length - t = p.length := by simp [toyTag_length]
    rw [this, List.take_left, List.drop_left, if_pos ⟨by simp [toyTag_length], rfl⟩]
  enc_len k n a t p c h := by
    simp only [toyCrypto, Option.some.injEq] at h
    subst h; simp [toyTag_length]
  dec_len k n a t p c h := by
    simp only [toyCrypto] at h
    split at h
    · rename_i hh
      simp only [Option.some.injEq] at h
      subst h; simp; omega
    · cases h

end Verif
