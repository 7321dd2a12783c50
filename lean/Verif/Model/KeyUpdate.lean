import Verif.Model.EdhocMsg
/-
The key derivation of `prk_out_update` with its arguments as pieces of one memory: the caller may let the new key
overwrite the old one, or let the context be anywhere.  The other modules give `edhoc_kdf` its inputs as values.
-/
namespace Verif.Edhoc
open Verif

/-- a `struct byte_array` of the caller: where it points to and its length (inc/common/byte_array.h:23-26) -/
structure Span where
  ptr : Nat
  len : Nat
deriving Repr, DecidableEq

/-- the bytes of a span (inc/common/byte_array.h:23-26) -/
def peek (mem : Bytes) (s : Span) : Bytes := (mem.drop s.ptr).take s.len

/-- `memcpy` of `v` to address `off` (src/common/memcpy_s.c:26-38) -/
def blit (mem : Bytes) (off : Nat) (v : Bytes) : Bytes := mem.take off ++ v ++ mem.drop (off + v.length)

/-- crypto_wrapper.c:551-570, the MBEDTLS loop, writing to the memory.  `key` is what `psa_import_key` copied before the
loop (crypto_wrapper.c:539-540), `o` is `out->ptr` and `L` is `out->len`. -/
def expandMemLoop (C : Crypto) (key info : Bytes) (L o : Nat) : Nat → Nat → Bytes → Bool → Bytes → Bytes
  | 0, _, _, _, mem => mem
  | n + 1, i, t, first, mem =>
    let t' := C.hmac key ((if first then [] else t) ++ info ++ [byte i])
    expandMemLoop C key info L o n (i + 1) t' false
      (blit mem (o + (i - 1) * 32) (if L < i * 32 then t'.take (L % 32) else t'))

/-- crypto_wrapper.c:492-573 `hkdf_expand` (SHA_256, MBEDTLS branch) on spans of the memory; the result is the memory
afterwards.  Simplified: `info` is a value, because `edhoc_kdf` has it in a buffer of its own (okm.c:28-31). -/
def hkdfExpandMem (cfg : Cfg) (C : Crypto) (prk : Span) (info : Bytes) (out : Span) (mem : Bytes) : R Bytes :=
  let iterations := (out.len + 31) % 2 ^ 32 / 32
  if iterations > 255 then .err .hkdf_failed
  else if 32 + info.length + 1 > cfg.infoMax + 32 + 1 then .err .unexpected_result_from_ext_lib
  else .ok (expandMemLoop C (peek mem prk) info out.len out.ptr iterations 1 (List.replicate 32 0) true mem)

/-- crypto_wrapper.c:508-525, the TINYCRYPT loop, writing to the memory.  `tc_hmac_set_key(&h, prk->ptr, prk->len)` is in
the loop (crypto_wrapper.c:512): every block is keyed with what the memory holds then.  The counter wraps as in
`expandLoopTc`. -/
def expandMemLoopTc (C : Crypto) (prk : Span) (info : Bytes) (out : Span) (iterations : Nat) :
    (fuel i : Nat) → (t mem : Bytes) → R Bytes
  | 0, _, _, mem => .ok mem
  | fuel + 1, i, t, mem =>
    if i ≤ iterations then
      if i = 0 then .ub
      else
        let t' := C.hmac (peek mem prk) ((if i > 1 then t else []) ++ info ++ [byte i])
        expandMemLoopTc C prk info out iterations fuel ((i + 1) % 256) t'
          (blit mem (out.ptr + (i - 1) * 32) (if out.len < i * 32 then t'.take (out.len % 32) else t'))
    else .ok mem

/-- crypto_wrapper.c:492-527 `hkdf_expand` (SHA_256, TINYCRYPT branch, no MBEDTLS) on spans of the memory -/
def hkdfExpandMemTc (C : Crypto) (prk : Span) (info : Bytes) (out : Span) (mem : Bytes) : R Bytes :=
  let iterations := (out.len + 31) % 2 ^ 32 / 32
  if iterations > 255 then .err .hkdf_failed
  else expandMemLoopTc C prk info out iterations 257 1 (List.replicate 32 0) mem

/-- which crypto library the build uses (crypto_wrapper.c:507, 528) -/
inductive Engine where
  | mbedtls
  | tinycrypt
deriving Repr, DecidableEq

/-- src/edhoc/okm.c:22-35 `edhoc_kdf` on spans of the memory: the context is copied into `info` first -/
def edhocKdfMem (eng : Engine) (cfg : ECfg) (C : ECrypto) (prk : Span) (label : Nat) (context out : Span) (mem : Bytes) :
    R Bytes := do
  checkBufferSize cfg.infoMaxSize (asBstr context.len + 4)
  let info ← createHkdfInfo label (peek mem context) out.len (asBstr context.len + 4)
  match eng with
  | .mbedtls => hkdfExpandMem { infoMax := cfg.infoMaxSize } C.toCrypto prk info out mem
  | .tinycrypt => hkdfExpandMemTc C.toCrypto prk info out mem

/-- src/edhoc/edhoc_exporter.c:31-37 `prk_out_update` on spans of the memory -/
def prkOutUpdateMem (eng : Engine) (cfg : ECfg) (C : ECrypto) (prkOut context prkOutNew : Span) (mem : Bytes) : R Bytes :=
  edhocKdfMem eng cfg C prkOut 11 context prkOutNew mem

/-- An application's key updates, one context after the other: each call replaces the `L` bytes of PRK_out
(edhoc_exporter.c:31-37; the arguments are values). -/
def updates (cfg : ECfg) (C : ECrypto) (L : Nat) : (prk : Bytes) → (contexts : List Bytes) → R Bytes
  | prk, [] => .ok prk
  | prk, c :: cs => do
    let prk' ← prkOutUpdate cfg C prk c L
    updates cfg C L prk' cs

end Verif.Edhoc
