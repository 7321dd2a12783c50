import Verif.Model.KeyGen
/-
C54: what an ephemeral X25519 key pair depends on.
-/
namespace Verif.KeyGen
open Verif

/-- C54 (specification): the key pair is the one `keygen` makes from the hash of the caller's seed,
whatever the memory contains. -/
def FromSeed (b : Backend) : Prop :=
  ∀ (sha : Bytes → Bytes) (keygen : Bytes → Bytes × Bytes) (seed : UInt32) (junk : Bytes),
    (∀ m, (sha m).length = 32) →
    x25519KeyGen b sha keygen seed junk = .ok (keygen (sha
      [UInt8.ofNat seed.toNat, UInt8.ofNat (seed.toNat / 256), UInt8.ofNat (seed.toNat / 65536),
        UInt8.ofNat (seed.toNat / 16777216)]))

theorem seedBytes_eq (seed : UInt32) : seedBytes seed =
    [UInt8.ofNat seed.toNat, UInt8.ofNat (seed.toNat / 256), UInt8.ofNat (seed.toNat / 65536),
      UInt8.ofNat (seed.toNat / 16777216)] := by
  have h : ∀ x : UInt32, x.toUInt8 = UInt8.ofNat x.toNat := fun x => by
    apply UInt8.toNat_inj.1; simp
  simp only [seedBytes, h, UInt32.toNat_shiftRight, Nat.shiftRight_eq_div_pow]
  rfl

/-- **C54** holds in the TINYCRYPT configuration. -/
theorem C54_tinycrypt_partial : FromSeed .tinycrypt := by
  intro sha keygen seed junk _
  unfold x25519KeyGen
  simp only [seedBytes_eq]

/-- **C54_false** In the MBEDTLS configuration the key pair does not depend on the seed at all: it is made
from the uninitialised memory of a local array. -/
theorem C54_false : ¬ FromSeed .mbedtls := by
  intro h
  have h1 := h (fun _ => List.replicate 32 0) (fun s => (s, s)) 0 [7] (fun _ => rfl)
  simp [x25519KeyGen] at h1

theorem C54_mbedtls (sha : Bytes → Bytes) (keygen : Bytes → Bytes × Bytes) (seed : UInt32) (junk : Bytes)
    (hs : ∀ m, (sha m).length = 32) :
    x25519KeyGen .mbedtls sha keygen seed junk = .ok (keygen junk) := by
  unfold x25519KeyGen
  simp [hs]

/-- **C54** and what a caller should know of the other configuration: there are at most 2^32 key pairs,
since the seed has 32 bits. -/
theorem C54_keyspace (sha : Bytes → Bytes) (keygen : Bytes → Bytes × Bytes) :
    ∃ l : List (R (Bytes × Bytes)), l.length = 2 ^ 32 ∧
      ∀ seed junk, x25519KeyGen .tinycrypt sha keygen seed junk ∈ l := by
  refine ⟨(List.range (2 ^ 32)).map fun n => x25519KeyGen .tinycrypt sha keygen (UInt32.ofNat n) [],
    by simp, ?_⟩
  intro seed junk
  refine List.mem_map.2 ⟨seed.toNat, List.mem_range.2 seed.toNat_lt, ?_⟩
  rw [UInt32.ofNat_toNat]
  rfl

/-- the hypothesis is met, for instance, by a function that returns 32 bytes; two seeds give two pairs -/
example : x25519KeyGen .tinycrypt (fun m => m ++ List.replicate 28 0) (fun s => (s, s)) 1 [] ≠
    x25519KeyGen .tinycrypt (fun m => m ++ List.replicate 28 0) (fun s => (s, s)) 2 [] := by
  decide +kernel

end Verif.KeyGen
