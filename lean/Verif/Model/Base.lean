/-
Basic vocabulary of the model: error codes, outcomes, byte strings, copy primitives.
-/
namespace Verif

/-- A C `byte_array` (ptr,len) is modelled by its contents.
inc/common/byte_array.h:22-31.  Simplification: pointer identity and aliasing are not modelled,
and a NULL array is the empty list. -/
abbrev Bytes := List UInt8

/-- inc/common/oscore_edhoc_error.h:17-83 (`enum err` without `ok`). -/
inductive Err where
  | buffer_to_small | hkdf_failed | unexpected_result_from_ext_lib | wrong_parameter
  | crypto_operation_not_implemented | not_supported_feature | transport_deinitialized
  | not_implemented | vla_insufficient_size
  | error_message_received | error_message_sent | sign_failed | sha_failed
  | unsupported_cipher_suite | unsupported_ecdh_curve | unsupported_signature_algorithm
  | signature_authentication_failed | mac_authentication_failed
  | certificate_authentication_failed | credential_not_found | no_such_ca
  | cbor_encoding_error | cbor_decoding_error | suites_i_list_to_long | xor_error
  | suites_i_list_empty
  | not_oscore_pkt | first_request_after_reboot | echo_validation_failed | oscore_unknown_hkdf
  | token_mismatch | oscore_invalid_algorithm_aead | oscore_invalid_algorithm_hkdf
  | oscore_kid_recipient_id_mismatch | too_many_options | oscore_valuelen_to_long_error
  | oscore_inpkt_invalid_tkl | oscore_inpkt_invalid_option_delta
  | oscore_inpkt_invalid_optionlen | oscore_inpkt_invalid_piv | not_valid_input_packet
  | oscore_replay_window_protection_error | oscore_replay_notification_protection_error
  | no_echo_option | echo_val_mismatch | oscore_ssn_overflow | oscore_max_interactions
  | oscore_interaction_duplicated_token | oscore_interaction_not_found | oscore_wrong_uri_path
  deriving DecidableEq, Repr

/-- Outcome of a C function returning `enum err`.
`ub` is an access outside the object, a NULL dereference or use of indeterminate bytes.
Inc/common/oscore_edhoc_error.h:17-82 `enum err`. -/
inductive R (α : Type) where
  | ok (a : α)
  | err (e : Err)
  | ub
  deriving DecidableEq, Repr

namespace R
/-- The `TRY` macro (inc/common/oscore_edhoc_error.h:86-93): stop at the first error. -/
def bind {α β} (x : R α) (f : α → R β) : R β :=
  match x with
  | ok a => f a
  | err e => err e
  | ub => ub

instance : Monad R where
  pure := R.ok
  bind := R.bind

@[simp] theorem ok_bind {α β} (a : α) (f : α → R β) : (R.ok a >>= f) = f a := rfl
@[simp] theorem err_bind {α β} (e : Err) (f : α → R β) : ((R.err e : R α) >>= f) = R.err e := rfl
@[simp] theorem ub_bind {α β} (f : α → R β) : ((R.ub : R α) >>= f) = R.ub := rfl
@[simp] theorem pure_eq {α} (a : α) : (pure a : R α) = R.ok a := rfl

theorem bind_eq_ok {α β} {x : R α} {f : α → R β} {b : β} :
    (x >>= f) = R.ok b ↔ ∃ a, x = R.ok a ∧ f a = R.ok b := by
  cases x <;> simp

/-- The call returned `ok`. Auxiliary, no counterpart in the C code. -/
def isOk {α} : R α → Bool
  | ok _ => true
  | _ => false

/-- the value of a successful call (used in examples) (auxiliary, no counterpart in the C code) -/
def getD {α} : R α → α → α
  | ok a, _ => a
  | _, d => d

theorem eq_getD {α} {x : R α} (d : α) (h : x.isOk = true) : x = .ok (x.getD d) := by
  cases x <;> simp_all [isOk, getD]
end R

/-- State-carrying outcome.  The state is returned on error paths too, because the C code does
not roll back what it changed before a `TRY` failed. `TRY`, inc/common/oscore_edhoc_error.h:86-93. -/
def M (σ α : Type) := σ → R α × σ

namespace M
variable {σ α β : Type}

/-- `return ok` -/
def pure (a : α) : M σ α := fun s => (R.ok a, s)

/-- `TRY` for state-changing functions: on error the state reached so far is kept. Inc/common/oscore_edhoc_error.h:86-93. -/
def bind (m : M σ α) (f : α → M σ β) : M σ β := fun s =>
  match m s with
  | (R.ok a, s') => f a s'
  | (R.err e, s') => (R.err e, s')
  | (R.ub, s') => (R.ub, s')

instance : Monad (M σ) where
  pure := M.pure
  bind := M.bind

/-- Lift a function that does not touch the state. Auxiliary, no counterpart in the C code. -/
def lift (x : R α) : M σ α := fun s => (x, s)
/-- auxiliary, no counterpart in the C code: reads the state -/
def get : M σ σ := fun s => (R.ok s, s)
/-- auxiliary, no counterpart in the C code: changes the state -/
def modify (f : σ → σ) : M σ Unit := fun s => (R.ok (), f s)
/-- `return <error>`, inc/common/oscore_edhoc_error.h:17-82 -/
def fail (e : Err) : M σ α := fun s => (R.err e, s)

@[simp] theorem run_pure (a : α) (s : σ) : (Pure.pure a : M σ α) s = (R.ok a, s) := rfl
@[simp] theorem run_lift (x : R α) (s : σ) : (M.lift x : M σ α) s = (x, s) := rfl
@[simp] theorem run_get (s : σ) : (M.get : M σ σ) s = (R.ok s, s) := rfl
@[simp] theorem run_modify (f : σ → σ) (s : σ) : (M.modify f) s = (R.ok (), f s) := rfl
@[simp] theorem run_fail (e : Err) (s : σ) : (M.fail e : M σ α) s = (R.err e, s) := rfl

theorem run_bind (m : M σ α) (f : α → M σ β) (s : σ) :
    (m >>= f) s = match m s with
      | (R.ok a, s') => f a s'
      | (R.err e, s') => (R.err e, s')
      | (R.ub, s') => (R.ub, s') := rfl

theorem bind_ok {m : M σ α} {f : α → M σ β} {s s' : σ} {a : α} (h : m s = (R.ok a, s')) :
    (m >>= f) s = f a s' := by rw [run_bind, h]

theorem bind_eq_ok {m : M σ α} {f : α → M σ β} {s s'' : σ} {b : β} :
    (m >>= f) s = (R.ok b, s'') ↔ ∃ a s', m s = (R.ok a, s') ∧ f a s' = (R.ok b, s'') := by
  rw [run_bind]
  rcases h : m s with ⟨r, s'⟩
  cases r with
  | ok a =>
    constructor
    · intro h'; exact ⟨a, s', rfl, h'⟩
    · rintro ⟨a', s1, h1, h2⟩
      simp only [Prod.mk.injEq, R.ok.injEq] at h1
      obtain ⟨rfl, rfl⟩ := h1
      exact h2
  | err e => simp
  | ub => simp
end M

/-- src/common/memcpy_s.c:18-25 `check_buffer_size`. -/
def checkBufferSize (isSize required : Nat) : R Unit :=
  if isSize < required then .err .buffer_to_small else .ok ()

/-- src/common/memcpy_s.c:27-40 `_memcpy_s`: copy `src` to a destination of `destLen` bytes;
returns the bytes written.  (A NULL source or destination with non-zero length, which gives
`wrong_parameter`, cannot be expressed: NULL is the empty list.) -/
def memcpyS (destLen : Nat) (src : Bytes) : R Bytes :=
  if src.length = 0 then .ok []
  else do
    checkBufferSize destLen src.length
    pure src

/-- src/common/byte_array.c:27-37 `byte_array_append` (the sum is a `uint32_t`). -/
def byteArrayAppend (dest src : Bytes) (capacity : Nat) : R Bytes :=
  if (src.length + dest.length) % 2 ^ 32 > capacity then .err .buffer_to_small
  else do
    let s ← memcpyS ((capacity + 2 ^ 32 - dest.length) % 2 ^ 32) src
    pure (dest ++ s)

/-- src/common/byte_array.c:39-45 `byte_array_cpy`. -/
def byteArrayCpy (src : Bytes) (destMaxLen : Nat) : R Bytes := memcpyS destMaxLen src

/-- src/common/byte_array.c:47-58 `array_equals`: length test, then byte by byte. -/
def arrayEquals : Bytes → Bytes → Bool
  | l, r => l.length == r.length && go l r
where
  /-- byte_array.c:52-57, the loop over the common length -/
  go : Bytes → Bytes → Bool
    | a :: l, b :: r => if a ≠ b then false else go l r
    | _, _ => true

/-- 32-bit unsigned difference (C `uint32_t` arithmetic) -/
@[irreducible] def sub32 (a b : Nat) : Nat := (a + 2 ^ 32 - b) % 2 ^ 32

/-- byte as a number (a cast to `uint8_t`, e.g. src/oscore/oscore_coap.c:279) -/
abbrev byte (n : Nat) : UInt8 := UInt8.ofNat n

/-- Big-endian value of a byte string (helper used by several models).
As src/oscore/security_context.c:213-234 `piv2ssn` computes it. -/
def beVal : Bytes → Nat
  | [] => 0
  | b :: l => b.toNat * 256 ^ l.length + beVal l

end Verif
