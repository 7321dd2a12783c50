/-
The standard primitives, written out as functions: SHA-256 and SHA-512 (FIPS 180-4), HMAC (RFC 2104),
AES-128 (FIPS 197) and CCM (NIST SP 800-38C / RFC 3610).

The code calls them in MBEDTLS (or TINYCRYPT); those libraries are not in the sources.  Everywhere else the
model takes the primitives as a parameter.  Here they are defined, so that what the other theorems assume
of them can be proved and the model can be run on the test vectors of /repo/test_vectors.
-/
namespace Verif.Fips

abbrev Bytes := List UInt8

/-- big-endian value of a byte string -/
def beNat (l : Bytes) : Nat := l.foldl (fun n x => n * 256 + x.toNat) 0

/-- the `k` low bytes of `n`, big-endian -/
def toBe : Nat → Nat → Bytes
  | 0, _ => []
  | k + 1, n => UInt8.ofNat (n / 256 ^ k) :: toBe k n

/-- cut a string into pieces of `k` bytes (`fuel` at least the number of pieces) -/
def chunks (k : Nat) : Nat → Bytes → List Bytes
  | 0, _ => []
  | fuel + 1, l => if l.isEmpty then [] else l.take k :: chunks k fuel (l.drop k)

/-! ### SHA-2 -/

/-- FIPS 180-4, 3.2: rotate a `w`-bit word right by `n` -/
def rotr (w n x : Nat) : Nat := (x >>> n) ||| ((x <<< (w - n)) % 2 ^ w)
/-- FIPS 180-4, 4.1.2 -/
def ch (w x y z : Nat) : Nat := (x &&& y) ^^^ ((x ^^^ (2 ^ w - 1)) &&& z)
/-- FIPS 180-4, 4.1.2 -/
def maj (x y z : Nat) : Nat := (x &&& y) ^^^ (x &&& z) ^^^ (y &&& z)

/-- the parameters in which SHA-256 and SHA-512 differ: word size, rotations, constants, initial value -/
structure Sha2 where
  w : Nat
  big0 : Nat × Nat × Nat
  big1 : Nat × Nat × Nat
  small0 : Nat × Nat × Nat
  small1 : Nat × Nat × Nat
  k : List Nat
  h0 : List Nat

/-- FIPS 180-4, 4.1.2/4.1.3: Σ -/
def bigSigma (w : Nat) (r : Nat × Nat × Nat) (x : Nat) : Nat := rotr w r.1 x ^^^ rotr w r.2.1 x ^^^ rotr w r.2.2 x
/-- FIPS 180-4, 4.1.2/4.1.3: σ -/
def smallSigma (w : Nat) (r : Nat × Nat × Nat) (x : Nat) : Nat := rotr w r.1 x ^^^ rotr w r.2.1 x ^^^ (x >>> r.2.2)

/-- FIPS 180-4, 6.2.2 step 1: the word after the sixteen given ones -/
def nextW (s : Sha2) (ws : List Nat) : Nat :=
  (smallSigma s.w s.small1 (ws.getD 14 0) + ws.getD 9 0 + smallSigma s.w s.small0 (ws.getD 1 0) + ws.getD 0 0) % 2 ^ s.w

/-- FIPS 180-4, 6.2.2 step 3: one round on the working variables a..h -/
def round (s : Sha2) (v : List Nat) (k w : Nat) : List Nat :=
  match v with
  | [a, b, c, d, e, f, g, h] =>
    let t1 := (h + bigSigma s.w s.big1 e + ch s.w e f g + k + w) % 2 ^ s.w
    let t2 := (bigSigma s.w s.big0 a + maj a b c) % 2 ^ s.w
    [(t1 + t2) % 2 ^ s.w, a, b, c, (d + t1) % 2 ^ s.w, e, f, g]
  | _ => v

/-- FIPS 180-4, 6.2.2: the rounds; `ws` are the sixteen next words of the schedule -/
def rounds (s : Sha2) : List Nat → List Nat → List Nat → List Nat
  | [], _, v => v
  | k :: ks, ws, v => rounds s ks (ws.tail ++ [nextW s ws]) (round s v k (ws.getD 0 0))

/-- FIPS 180-4, 6.2.2: one block -/
def compress (s : Sha2) (h : List Nat) (block : Bytes) : List Nat :=
  List.zipWith (fun x y => (x + y) % 2 ^ s.w) h (rounds s s.k ((chunks (s.w / 8) 16 block).map beNat) h)

/-- FIPS 180-4, 5.1: padding to whole blocks -/
def pad (s : Sha2) (m : Bytes) : Bytes :=
  let blk := 2 * s.w
  let z := (2 * blk - (m.length + 1 + s.w / 4) % blk) % blk
  m ++ [0x80] ++ List.replicate z 0 ++ toBe (s.w / 4) (8 * m.length)

/-- FIPS 180-4, 6.2: the digest -/
def sha2 (s : Sha2) (m : Bytes) : Bytes :=
  let p := pad s m
  let h := (chunks (2 * s.w) (p.length + 1) p).foldl (compress s) s.h0
  (h.map (toBe (s.w / 8))).flatten

/-- FIPS 180-4, 4.2.2 and 5.3.3 -/
def sha256Params : Sha2 where
  w := 32
  big0 := (2, 13, 22)
  big1 := (6, 11, 25)
  small0 := (7, 18, 3)
  small1 := (17, 19, 10)
  h0 := [0x6a09e667, 0xbb67ae85, 0x3c6ef372, 0xa54ff53a, 0x510e527f, 0x9b05688c, 0x1f83d9ab, 0x5be0cd19]
  k := [
   0x428a2f98, 0x71374491, 0xb5c0fbcf, 0xe9b5dba5, 0x3956c25b, 0x59f111f1, 0x923f82a4, 0xab1c5ed5,
   0xd807aa98, 0x12835b01, 0x243185be, 0x550c7dc3, 0x72be5d74, 0x80deb1fe, 0x9bdc06a7, 0xc19bf174,
   0xe49b69c1, 0xefbe4786, 0x0fc19dc6, 0x240ca1cc, 0x2de92c6f, 0x4a7484aa, 0x5cb0a9dc, 0x76f988da,
   0x983e5152, 0xa831c66d, 0xb00327c8, 0xbf597fc7, 0xc6e00bf3, 0xd5a79147, 0x06ca6351, 0x14292967,
   0x27b70a85, 0x2e1b2138, 0x4d2c6dfc, 0x53380d13, 0x650a7354, 0x766a0abb, 0x81c2c92e, 0x92722c85,
   0xa2bfe8a1, 0xa81a664b, 0xc24b8b70, 0xc76c51a3, 0xd192e819, 0xd6990624, 0xf40e3585, 0x106aa070,
   0x19a4c116, 0x1e376c08, 0x2748774c, 0x34b0bcb5, 0x391c0cb3, 0x4ed8aa4a, 0x5b9cca4f, 0x682e6ff3,
   0x748f82ee, 0x78a5636f, 0x84c87814, 0x8cc70208, 0x90befffa, 0xa4506ceb, 0xbef9a3f7, 0xc67178f2]

/-- FIPS 180-4, 4.2.3 and 5.3.5 -/
def sha512Params : Sha2 where
  w := 64
  big0 := (28, 34, 39)
  big1 := (14, 18, 41)
  small0 := (1, 8, 7)
  small1 := (19, 61, 6)
  h0 := [
   0x6a09e667f3bcc908, 0xbb67ae8584caa73b, 0x3c6ef372fe94f82b, 0xa54ff53a5f1d36f1,
   0x510e527fade682d1, 0x9b05688c2b3e6c1f, 0x1f83d9abfb41bd6b, 0x5be0cd19137e2179]
  k := [
   0x428a2f98d728ae22, 0x7137449123ef65cd, 0xb5c0fbcfec4d3b2f, 0xe9b5dba58189dbbc,
   0x3956c25bf348b538, 0x59f111f1b605d019, 0x923f82a4af194f9b, 0xab1c5ed5da6d8118,
   0xd807aa98a3030242, 0x12835b0145706fbe, 0x243185be4ee4b28c, 0x550c7dc3d5ffb4e2,
   0x72be5d74f27b896f, 0x80deb1fe3b1696b1, 0x9bdc06a725c71235, 0xc19bf174cf692694,
   0xe49b69c19ef14ad2, 0xefbe4786384f25e3, 0x0fc19dc68b8cd5b5, 0x240ca1cc77ac9c65,
   0x2de92c6f592b0275, 0x4a7484aa6ea6e483, 0x5cb0a9dcbd41fbd4, 0x76f988da831153b5,
   0x983e5152ee66dfab, 0xa831c66d2db43210, 0xb00327c898fb213f, 0xbf597fc7beef0ee4,
   0xc6e00bf33da88fc2, 0xd5a79147930aa725, 0x06ca6351e003826f, 0x142929670a0e6e70,
   0x27b70a8546d22ffc, 0x2e1b21385c26c926, 0x4d2c6dfc5ac42aed, 0x53380d139d95b3df,
   0x650a73548baf63de, 0x766a0abb3c77b2a8, 0x81c2c92e47edaee6, 0x92722c851482353b,
   0xa2bfe8a14cf10364, 0xa81a664bbc423001, 0xc24b8b70d0f89791, 0xc76c51a30654be30,
   0xd192e819d6ef5218, 0xd69906245565a910, 0xf40e35855771202a, 0x106aa07032bbd1b8,
   0x19a4c116b8d2d0c8, 0x1e376c085141ab53, 0x2748774cdf8eeb99, 0x34b0bcb5e19b48a8,
   0x391c0cb3c5c95a63, 0x4ed8aa4ae3418acb, 0x5b9cca4f7763e373, 0x682e6ff3d6b2b8a3,
   0x748f82ee5defb2fc, 0x78a5636f43172f60, 0x84c87814a1f0ab72, 0x8cc702081a6439ec,
   0x90befffa23631e28, 0xa4506cebde82bde9, 0xbef9a3f7b2c67915, 0xc67178f2e372532b,
   0xca273eceea26619c, 0xd186b8c721c0c207, 0xeada7dd6cde0eb1e, 0xf57d4f7fee6ed178,
   0x06f067aa72176fba, 0x0a637dc5a2c898a6, 0x113f9804bef90dae, 0x1b710b35131c471b,
   0x28db77f523047d84, 0x32caab7b40c72493, 0x3c9ebe0a15c9bebc, 0x431d67c49c100d4c,
   0x4cc5d4becb3e42b6, 0x597f299cfc657e2a, 0x5fcb6fab3ad6faec, 0x6c44198c4a475817]

/-- SHA-256 -/
def sha256 (m : Bytes) : Bytes := sha2 sha256Params m
/-- SHA-512 -/
def sha512 (m : Bytes) : Bytes := sha2 sha512Params m

/-- RFC 2104: HMAC with SHA-256 -/
def hmacSha256 (k m : Bytes) : Bytes :=
  let k' := if k.length > 64 then sha256 k else k
  let k0 := k' ++ List.replicate (64 - k'.length) 0
  sha256 (k0.map (· ^^^ 0x5c) ++ sha256 (k0.map (· ^^^ 0x36) ++ m))

/-! ### AES-128 -/

/-- FIPS 197, figure 7: the S-box, entry `x` in bits `8 x` to `8 x + 7` -/
def sboxTable : Nat :=
  0x16bb54b00f2d99416842e6bf0d89a18cdf2855cee9871e9b948ed9691198f8e19e1dc186b95735610ef6034866b53e708a8bbd4b1f74dde8c6b4a61c2e2578ba08ae7a65eaf4566ca94ed58d6d37c8e779e4959162acd3c25c2406490a3a32e0db0b5ede14b8ee4688902a22dc4f816073195d643d7ea7c41744975fec130ccdd2f3ff1021dab6bcf5389d928f40a351a89f3c507f02f94585334d43fbaaefd0cf584c4a39becb6a5bb1fc20ed00d153842fe329b3d63b52a05a6e1b1a2c830975b227ebe28012079a059618c323c7041531d871f1e5a534ccf73f362693fdb7c072a49cafa2d4adf04759fa7dc982ca76abd7fe2b670130c56f6bf27b777c63

/-- FIPS 197, 5.1.1 -/
def sbox (x : Nat) : Nat := (sboxTable >>> (8 * x)) % 256

/-- FIPS 197, 4.2.1: multiplication by x in GF(2^8) -/
def xtime (x : Nat) : Nat := if x < 128 then 2 * x else (2 * x) ^^^ 0x11b

/-- FIPS 197, 5.1.3: one column -/
def mixColumn (a b c d : Nat) : List Nat :=
  let t := a ^^^ b ^^^ c ^^^ d
  [a ^^^ t ^^^ xtime (a ^^^ b), b ^^^ t ^^^ xtime (b ^^^ c), c ^^^ t ^^^ xtime (c ^^^ d), d ^^^ t ^^^ xtime (d ^^^ a)]

/-- FIPS 197, 5.1.2: the state is kept column by column, byte `4 c + r` is row `r`, column `c` -/
def shiftRows : List Nat → List Nat
  | [a0, a1, a2, a3, a4, a5, a6, a7, a8, a9, a10, a11, a12, a13, a14, a15] =>
    [a0, a5, a10, a15, a4, a9, a14, a3, a8, a13, a2, a7, a12, a1, a6, a11]
  | s => s

/-- FIPS 197, 5.1.3 -/
def mixColumns : List Nat → List Nat
  | [a0, a1, a2, a3, a4, a5, a6, a7, a8, a9, a10, a11, a12, a13, a14, a15] =>
    mixColumn a0 a1 a2 a3 ++ mixColumn a4 a5 a6 a7 ++ mixColumn a8 a9 a10 a11 ++ mixColumn a12 a13 a14 a15
  | s => s

/-- FIPS 197, 5.1.4 -/
def addKey (k s : List Nat) : List Nat := List.zipWith (fun x y => x ^^^ y) k s

/-- FIPS 197, 5.2: the next round key -/
def nextKey (rcon : Nat) : List Nat → List Nat
  | [a0, a1, a2, a3, a4, a5, a6, a7, a8, a9, a10, a11, a12, a13, a14, a15] =>
    let b0 := a0 ^^^ sbox a13 ^^^ rcon
    let b1 := a1 ^^^ sbox a14
    let b2 := a2 ^^^ sbox a15
    let b3 := a3 ^^^ sbox a12
    let b4 := a4 ^^^ b0
    let b5 := a5 ^^^ b1
    let b6 := a6 ^^^ b2
    let b7 := a7 ^^^ b3
    let b8 := a8 ^^^ b4
    let b9 := a9 ^^^ b5
    let b10 := a10 ^^^ b6
    let b11 := a11 ^^^ b7
    [b0, b1, b2, b3, b4, b5, b6, b7, b8, b9, b10, b11, a12 ^^^ b8, a13 ^^^ b9, a14 ^^^ b10, a15 ^^^ b11]
  | k => k

/-- FIPS 197, 5.1: rounds 1 to 9 (one per remaining `rcon`) and the last one -/
def aesRounds : List Nat → List Nat → List Nat → List Nat
  | [], _, s => s
  | [rc], k, s => addKey (nextKey rc k) (shiftRows (s.map sbox))
  | rc :: rcs, k, s =>
    let k' := nextKey rc k
    aesRounds rcs k' (addKey k' (mixColumns (shiftRows (s.map sbox))))

/-- FIPS 197: AES-128 of a block of 16 bytes under a key of 16 bytes -/
def aes128 (key block : Bytes) : Bytes :=
  let k := key.map UInt8.toNat
  (aesRounds [1, 2, 4, 8, 16, 32, 64, 128, 0x1b, 0x36] k (addKey k (block.map UInt8.toNat))).map UInt8.ofNat

/-! ### CCM -/

/-- byte-wise exclusive or, as long as the shorter string -/
def xor (a b : Bytes) : Bytes := List.zipWith (fun x y => x ^^^ y) a b

/-- zero padding to a multiple of 16 bytes -/
def pad16 (l : Bytes) : Bytes := l ++ List.replicate ((16 - l.length % 16) % 16) 0

/-- CBC-MAC with the block cipher `E` (SP 800-38C, 6.1 steps 2-4) -/
def cbcMac (E : Bytes → Bytes) (l : Bytes) : Bytes :=
  (chunks 16 (l.length + 1) l).foldl (fun y b => E (xor y b)) (List.replicate 16 0)

/-- RFC 3610, 2.2: the encoding of the length of the additional data -/
def aadLen (n : Nat) : Bytes :=
  if n = 0 then [] else if n < 0xff00 then toBe 2 n else if n < 2 ^ 32 then [0xff, 0xfe] ++ toBe 4 n else [0xff, 0xff] ++ toBe 8 n

/-- RFC 3610, 2.2: the first block -/
def block0 (nonce : Bytes) (tag alen plen : Nat) : Bytes :=
  UInt8.ofNat ((if alen = 0 then 0 else 64) + 8 * ((tag - 2) / 2) + (14 - nonce.length)) :: nonce ++ toBe (15 - nonce.length) plen

/-- RFC 3610, 2.3: the counter block -/
def ctrBlock (nonce : Bytes) (i : Nat) : Bytes :=
  UInt8.ofNat (14 - nonce.length) :: nonce ++ toBe (15 - nonce.length) i

/-- `n` blocks of key stream, from counter `i` -/
def keyStream (E : Bytes → Bytes) (nonce : Bytes) : Nat → Nat → Bytes
  | 0, _ => []
  | n + 1, i => E (ctrBlock nonce i) ++ keyStream E nonce n (i + 1)

/-- RFC 3610, 2.3: encryption (and decryption) of the message -/
def ctrCrypt (E : Bytes → Bytes) (nonce p : Bytes) : Bytes := xor p (keyStream E nonce ((p.length + 15) / 16) 1)

/-- RFC 3610, 2.2 and 2.3: the encrypted authentication value -/
def ccmTag (E : Bytes → Bytes) (nonce aad : Bytes) (tag : Nat) (p : Bytes) : Bytes :=
  (xor (cbcMac E (block0 nonce tag aad.length p.length ++ pad16 (aadLen aad.length ++ aad) ++ pad16 p)) (E (ctrBlock nonce 0))).take tag

/-- RFC 3610, 2: the admissible parameters -/
def ccmOk (key nonce aad : Bytes) (tag plen : Nat) : Bool :=
  key.length == 16 && (7 ≤ nonce.length && nonce.length ≤ 13) && (4 ≤ tag && tag ≤ 16 && tag % 2 == 0) &&
    plen < 256 ^ (15 - nonce.length) && aad.length < 2 ^ 64

/-- CCM encryption with the block cipher `E`: ciphertext followed by the tag -/
def ccmEnc (E : Bytes → Bytes → Bytes) (key nonce aad : Bytes) (tag : Nat) (p : Bytes) : Option Bytes :=
  if ccmOk key nonce aad tag p.length then some (ctrCrypt (E key) nonce p ++ ccmTag (E key) nonce aad tag p) else none

/-- CCM decryption and verification -/
def ccmDec (E : Bytes → Bytes → Bytes) (key nonce aad : Bytes) (tag : Nat) (c : Bytes) : Option Bytes :=
  if c.length < tag then none
  else if ccmOk key nonce aad tag (c.length - tag) then
    let p := ctrCrypt (E key) nonce (c.take (c.length - tag))
    if ccmTag (E key) nonce aad tag p = c.drop (c.length - tag) then some p else none
  else none

end Verif.Fips
