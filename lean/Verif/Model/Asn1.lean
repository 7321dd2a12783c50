import Verif.Model.Base
/-
src/edhoc/cert.c – verification of an X.509 certificate in the configuration without MBEDTLS
("crude" parser, TINYCRYPT signatures).  A position is an offset from `cert->ptr`; the certificate is
readable from 0 to its length, and a read outside is `ub`.
-/
namespace Verif.Asn1
open Verif

/-- `*cursor` (reads at src/edhoc/cert.c:91, 114-168) -/
def rd (c : Bytes) (pos : Nat) : R UInt8 :=
  match c[pos]? with
  | some b => .ok b
  | none => .ub

/-- the bytes `[pos, pos + len)`, read by `memcpy` (src/edhoc/cert.c:446, 467, 475) -/
def rdSlice (c : Bytes) (pos len : Nat) : R Bytes :=
  if pos + len ≤ c.length then .ok ((c.drop pos).take len) else .ub

/-- the byte at `pos + i`, for the reads of `mbedtls_asn1_get_len`, which checks the bounds before (src/edhoc/cert.c:114-168) -/
def at' (c : Bytes) (pos : Nat) : Nat := (c.getD pos 0).toNat

/-- cert.c:114-168 `mbedtls_asn1_get_len`: (position, `*len`) afterwards.  Every caller ignores the return
value, so it is left out, and with it the final comparison of `*len`. -/
def getLen (c : Bytes) (pos len : Nat) : Nat × Nat :=
  if c.length < pos + 1 then (pos, len)
  else
    let b := at' c pos
    if b < 0x80 then (pos + 1, b)
    else if b = 0x81 then
      if c.length < pos + 2 then (pos, len) else (pos + 2, at' c (pos + 1))
    else if b = 0x82 then
      if c.length < pos + 3 then (pos, len) else (pos + 3, at' c (pos + 1) * 256 + at' c (pos + 2))
    else if b = 0x83 then
      if c.length < pos + 4 then (pos, len)
      else (pos + 4, at' c (pos + 1) * 65536 + at' c (pos + 2) * 256 + at' c (pos + 3))
    else if b = 0x84 then
      if c.length < pos + 5 then (pos, len)
      else (pos + 5, at' c (pos + 1) * 16777216 + at' c (pos + 2) * 65536 + at' c (pos + 3) * 256 +
        at' c (pos + 4))
    else (pos, len)

/-- cert.c:87-101: after the length, a first content byte 0 is skipped; `len` is a `uint32_t` -/
def skipZero (c : Bytes) (p : Nat × Nat) : R (Nat × Nat) := do
  let b ← rd c p.1
  if b = 0 then pure (p.1 + 1, (p.2 + 2 ^ 32 - 1) % 2 ^ 32) else pure p

/-- cert.c:87-101 `EXPECTO_TAG`: (cursor, len) afterwards; leaving the loop with `rv = wrong_parameter` is
the error, since the function then returns `rv`. -/
def expectTag (tag : UInt8) (c : Bytes) (pos len : Nat) : R (Nat × Nat) := do
  let b ← rd c pos
  if b ≠ tag then .err .wrong_parameter
  else skipZero c (getLen c (pos + 1) len)

/-- cert.c:426-432: the loop over `n` elements -/
def skipElems (c : Bytes) : Nat → Nat × Nat → Nat × Nat
  | 0, p => p
  | n + 1, p =>
    let q := getLen c (p.1 + 1) p.2
    skipElems c n (q.1 + q.2, q.2)

/-- tags: cert.c:103-107 -/
def tagInteger : UInt8 := 0x02
/-- src/edhoc/cert.c:103-107 -/
def tagBitString : UInt8 := 0x03
/-- src/edhoc/cert.c:103-107 -/
def tagSequence : UInt8 := 0x30

/-- a buffer with the number of bytes the code believes to be in it (`ptr`, `len`)
(`struct byte_array`, inc/common/byte_array.h:23-26, with the object it points to) -/
structure Buf where
  mem : Bytes
  len : Nat
  deriving DecidableEq, Repr

/-- cert.c:446-447: `_memcpy_s` with ignored result, then `pk->len = len` -/
def copyPk (mem : Bytes) (c : Bytes) (pos len : Nat) : R Buf :=
  if len = 0 then .ok ⟨mem, 0⟩
  else if mem.length < len then .ok ⟨mem, len⟩
  else do
    let s ← rdSlice c pos len
    pure ⟨s ++ mem.drop len, len⟩

/-- cert.c:467-468, 475-478: `_memcpy_s(sig.ptr + sig.len, SIGNATURE_SIZE - sig.len, cursor, len)` with
ignored result, then `sig.len += len`.  The size is a `uint32_t`; writing outside the buffer is `ub`. -/
def copySig (b : Buf) (c : Bytes) (pos len : Nat) : R Buf :=
  if len = 0 then .ok b
  else if (64 + 2 ^ 32 - b.len) % 2 ^ 32 < len then .ok ⟨b.mem, (b.len + len) % 2 ^ 32⟩
  else if 64 < b.len + len then .ub
  else do
    let s ← rdSlice c pos len
    pure ⟨b.mem.take b.len ++ s ++ b.mem.drop (b.len + len), (b.len + len) % 2 ^ 32⟩

/-- cert.c:466, 474 `TRY_EXPECT((cursor + len) <= end, 1)` -/
def checkEnd (c : Bytes) (p : Nat × Nat) : R Unit :=
  if p.1 + p.2 ≤ c.length then .ok () else .err .unexpected_result_from_ext_lib

/-- what the loop at cert.c:411-482 finds -/
structure Parsed where
  tbsStart : Nat
  tbsEnd : Nat
  pk : Buf
  sig : Buf
  deriving DecidableEq, Repr

/-- cert.c:411-482.  `pkMem`: the caller's key buffer; `sigMem`: the 64 bytes of the uninitialised
signature buffer; `len0`: the uninitialised `len`. -/
def parse (pkMem sigMem : Bytes) (len0 : Nat) (c : Bytes) : R Parsed := do
  let a ← expectTag tagSequence c 0 len0
  let tbsStart := a.1
  let b ← expectTag tagSequence c a.1 a.2
  let tbsEnd := b.1 + b.2
  let d := skipElems c 6 b
  let e ← expectTag tagSequence c d.1 d.2
  let f ← expectTag tagSequence c e.1 e.2
  let g ← expectTag tagBitString c (f.1 + f.2) f.2
  let pk ← copyPk pkMem c g.1 g.2
  let h ← expectTag tagSequence c tbsEnd g.2
  let i ← expectTag tagBitString c (h.1 + h.2) h.2
  let j ← expectTag tagSequence c i.1 i.2
  let k ← expectTag tagInteger c j.1 j.2
  checkEnd c k
  let s1 ← copySig ⟨sigMem, 0⟩ c k.1 k.2
  let l ← expectTag tagInteger c (k.1 + k.2) k.2
  checkEnd c l
  let s2 ← copySig s1 c l.1 l.2
  pure ⟨tbsStart, tbsEnd, pk, s2⟩

/-- cert.c:181-201 `ca_pk_get` without MBEDTLS: `caPks` are the CA keys of the credentials -/
def caPk (caPks : List Bytes) : R Bytes :=
  match caPks with
  | [k] => if k.length = 0 then .err .no_such_ca else .ok k
  | _ => .err .no_such_ca

/-- crypto_wrapper.c:400-425 `verify(ES256)` with TINYCRYPT: `uECC_verify` reads the 64 bytes of the
signature buffer whatever its length says -/
def verifyEs256 (verify : Bytes → Bytes → Bytes → Bool) (pk m sigMem : Bytes) : R Unit :=
  if verify pk m (sigMem.take 64) then .ok () else .err .unexpected_result_from_ext_lib

/-- cert.c:400-502 `cert_x509_verify` without MBEDTLS: (`*verified`, `*pk`).  With an empty list of
credentials the loop at 490-499 does nothing and `rv` is ok. -/
def certX509 (verify : Bytes → Bytes → Bytes → Bool) (caPks : List Bytes) (pkMem sigMem : Bytes)
    (len0 : Nat) (c : Bytes) : R (Bool × Buf) := do
  let r ← parse pkMem sigMem len0 c
  if caPks = [] then pure (false, r.pk)
  else do
    let root ← caPk caPks
    let m ← rdSlice c r.tbsStart (r.tbsEnd - r.tbsStart)
    verifyEs256 verify root m r.sig.mem
    pure (true, r.pk)

end Verif.Asn1
