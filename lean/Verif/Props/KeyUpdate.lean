import Verif.Model.KeyUpdate
import Verif.Props.EdhocTranscript
import Verif.Props.Builds
/-
C94: `prk_out_update`.  A call gives EDHOC_KDF(PRK_out, 11, context, length) of RFC 9528 (Appendix H), also when the new
key is written over the old one; whole histories of updates keep the two parties together, on whatever builds, and different
histories do not lead to the same key.
-/
namespace Verif.Edhoc
open Verif Verif.Cbor Verif.Hkdf

/-! ### the memory -/

theorem blit_nil (mem : Bytes) (o : Nat) : blit mem o [] = mem := by
  unfold blit
  rw [List.append_nil, List.length_nil, Nat.add_zero, List.take_append_drop]

theorem blit_blit {mem : Bytes} {o : Nat} (ho : o ≤ mem.length) (a v : Bytes) :
    blit (blit mem o a) (o + a.length) v = blit mem o (a ++ v) := by
  have h1 : (mem.take o ++ a).length = o + a.length := by rw [List.length_append, List.length_take, Nat.min_eq_left ho]
  unfold blit
  have e1 : (mem.take o ++ a ++ mem.drop (o + a.length)).take (o + a.length) = mem.take o ++ a := by
    rw [← h1, List.take_left]
  have e2 : (mem.take o ++ a ++ mem.drop (o + a.length)).drop (o + a.length + v.length) = mem.drop (o + (a ++ v).length) := by
    rw [← h1, ← List.drop_drop, List.drop_left, h1, List.drop_drop, List.length_append, ← Nat.add_assoc]
  rw [e1, e2]
  simp only [List.append_assoc]

/-- what is outside of the bytes written stays -/
theorem peek_blit {mem : Bytes} {o : Nat} {a : Bytes} {s : Span} (ho : o + a.length ≤ mem.length)
    (h : o + a.length ≤ s.ptr ∨ s.ptr + s.len ≤ o) : peek (blit mem o a) s = peek mem s := by
  have h1 : (mem.take o ++ a).length = o + a.length := by rw [List.length_append, List.length_take, Nat.min_eq_left (by omega)]
  unfold peek blit
  rcases h with h | h
  · have : s.ptr = (mem.take o ++ a).length + (s.ptr - (o + a.length)) := by omega
    rw [this, ← List.drop_drop, List.drop_left, List.drop_drop, h1]
    try rfl
  · have e : mem = mem.take o ++ mem.drop o := (List.take_append_drop o mem).symm
    have hl : (mem.take o).length = o := by rw [List.length_take]; omega
    rw [List.append_assoc, List.drop_append_of_le_length (by omega), List.take_append_of_le_length (by rw [List.length_drop]; omega)]
    conv => rhs; rw [e, List.drop_append_of_le_length (by omega), List.take_append_of_le_length (by rw [List.length_drop]; omega)]

/-- the bytes written are read back -/
theorem peek_blit_self {mem : Bytes} {o : Nat} (a : Bytes) (ho : o ≤ mem.length) : peek (blit mem o a) ⟨o, a.length⟩ = a := by
  have hl : (mem.take o).length = o := by rw [List.length_take]; omega
  unfold peek blit
  rw [List.append_assoc]
  conv => lhs; arg 2; arg 1; rw [← hl]
  rw [List.drop_left, List.take_left]

theorem concatT_take_length {C : Crypto} (hC : C.Lawful) (prk info : Bytes) (L i : Nat) (h : i * 32 ≤ L) :
    ((concatT C.hmac prk info i).take L).length = i * 32 := by
  rw [List.length_take, concatT_length hC, Nat.min_eq_right h]

theorem expandMemLoop_eq {C : Crypto} (hC : C.Lawful) (prk info : Bytes) {L o : Nat} {mem : Bytes} (ho : o ≤ mem.length) :
    ∀ (m i : Nat) (t : Bytes), (i ≠ 0 → t = T C.hmac prk info i) → (i + m = (L + 31) / 32) →
    expandMemLoop C prk info L o m (i + 1) t (decide (i = 0)) (blit mem o ((concatT C.hmac prk info i).take L)) =
      blit mem o ((concatT C.hmac prk info (i + m)).take L)
  | 0, i, t, _, _ => rfl
  | m + 1, i, t, ht, hm => by
    have hT : C.hmac prk ((if decide (i = 0) = true then [] else t) ++ info ++ [byte (i + 1)]) =
        T C.hmac prk info (i + 1) := by
      rw [T]
      by_cases h0 : i = 0
      · subst h0; rfl
      · rw [if_neg (by simpa using h0), ht h0]
    rw [expandMemLoop, hT]
    have hb := blit_blit ho ((concatT C.hmac prk info i).take L) (if L < (i + 1) * 32 then (T C.hmac prk info (i + 1)).take (L % 32) else T C.hmac prk info (i + 1))
    rw [concatT_take_length hC prk info L i (by omega), block_append hC prk info L i (by omega)] at hb
    simp only [Nat.add_sub_cancel]
    rw [hb]
    have := expandMemLoop_eq hC prk info (L := L) ho m (i + 1) (T C.hmac prk info (i + 1)) (fun _ => rfl) (by omega)
    simp only [Nat.add_eq_zero_iff, Nat.one_ne_zero, and_false, decide_false] at this
    rw [this, show i + 1 + m = i + (m + 1) by omega]

theorem hkdfExpandMem_eq {cfg : Cfg} {C : Crypto} (hC : C.Lawful) (prk : Span) (info : Bytes) {out : Span} {mem : Bytes}
    (ho : out.ptr + out.len ≤ mem.length) (hL : out.len ≤ 255 * 32) (hi : info.length ≤ cfg.infoMax) :
    hkdfExpandMem cfg C prk info out mem = .ok (blit mem out.ptr (expand C.hmac (peek mem prk) info out.len)) := by
  unfold hkdfExpandMem
  simp only
  rw [Nat.mod_eq_of_lt (by omega), if_neg (by omega), if_neg (by omega)]
  have := expandMemLoop_eq hC (peek mem prk) info (L := out.len) (o := out.ptr) (mem := mem) (by omega) ((out.len + 31) / 32) 0
    (List.replicate 32 0) (by simp) (by omega)
  rw [Nat.zero_add 1, Nat.zero_add (_ / 32), concatT, List.take_nil, blit_nil] at this
  rw [expand, ← this]
  try rfl

theorem expandMemLoopTc_eq {C : Crypto} (hC : C.Lawful) (prk : Span) (info : Bytes) {out : Span} {mem : Bytes}
    (ho : out.ptr + out.len ≤ mem.length) (hL : (out.len + 31) / 32 ≤ 254)
    (hs : out.len ≤ 32 ∨ out.ptr + out.len ≤ prk.ptr ∨ prk.ptr + prk.len ≤ out.ptr) :
    ∀ (m fuel i : Nat) (t : Bytes), (i ≠ 0 → t = T C.hmac (peek mem prk) info i) → (i + m = (out.len + 31) / 32) → m < fuel →
    expandMemLoopTc C prk info out ((out.len + 31) / 32) fuel (i + 1) t (blit mem out.ptr ((concatT C.hmac (peek mem prk) info i).take out.len)) =
      .ok (blit mem out.ptr ((concatT C.hmac (peek mem prk) info (i + m)).take out.len))
  | 0, fuel + 1, i, t, _, hm, _ => by
    rw [expandMemLoopTc, if_neg (by omega)]; rfl
  | m + 1, fuel + 1, i, t, ht, hm, hf => by
    rw [expandMemLoopTc, if_pos (by omega), if_neg (by omega)]
    have hl := concatT_take_length hC (peek mem prk) info out.len i (by omega)
    have hkey : peek (blit mem out.ptr ((concatT C.hmac (peek mem prk) info i).take out.len)) prk = peek mem prk := by
      by_cases h0 : i = 0
      · subst h0; rw [concatT, List.take_nil, blit_nil]
      · exact peek_blit (by omega) (by omega)
    have hT : C.hmac (peek mem prk) ((if i + 1 > 1 then t else []) ++ info ++ [byte (i + 1)]) =
        T C.hmac (peek mem prk) info (i + 1) := by
      rw [T]
      by_cases h0 : i = 0
      · subst h0; rfl
      · rw [if_pos (by omega), ht h0]
    simp only
    rw [hkey, hT]
    have hb := blit_blit (mem := mem) (o := out.ptr) (by omega) ((concatT C.hmac (peek mem prk) info i).take out.len)
      (if out.len < (i + 1) * 32 then (T C.hmac (peek mem prk) info (i + 1)).take (out.len % 32) else T C.hmac (peek mem prk) info (i + 1))
    rw [hl, block_append hC (peek mem prk) info out.len i (by omega)] at hb
    simp only [Nat.add_sub_cancel]
    rw [hb, Nat.mod_eq_of_lt (by omega),
      expandMemLoopTc_eq hC prk info ho hL hs m fuel (i + 1) _ (fun _ => rfl) (by omega) (by omega)]
    rw [show i + 1 + m = i + (m + 1) by omega]

theorem hkdfExpandMemTc_eq {C : Crypto} (hC : C.Lawful) (prk : Span) (info : Bytes) {out : Span} {mem : Bytes}
    (ho : out.ptr + out.len ≤ mem.length) (hL : out.len ≤ 254 * 32)
    (hs : out.len ≤ 32 ∨ out.ptr + out.len ≤ prk.ptr ∨ prk.ptr + prk.len ≤ out.ptr) :
    hkdfExpandMemTc C prk info out mem = .ok (blit mem out.ptr (expand C.hmac (peek mem prk) info out.len)) := by
  unfold hkdfExpandMemTc
  simp only
  rw [Nat.mod_eq_of_lt (by omega), if_neg (by omega)]
  have := expandMemLoopTc_eq hC prk info ho (by omega) hs ((out.len + 31) / 32) 257 0 (List.replicate 32 0) (by simp) (by omega) (by omega)
  rw [Nat.zero_add 1, Nat.zero_add (_ / 32), concatT, List.take_nil, blit_nil] at this
  rw [expand, ← this]
  try rfl

theorem peek_length {mem : Bytes} {s : Span} (h : s.ptr + s.len ≤ mem.length) : (peek mem s).length = s.len := by
  unfold peek
  rw [List.length_take, List.length_drop]; omega

theorem peek_write {mem k : Bytes} {o L : Nat} (hk : k.length = L) (ho : o + L ≤ mem.length) :
    peek (blit mem o k) ⟨o, L⟩ = k ∧ (blit mem o k).length = mem.length ∧
      ∀ s : Span, o + L ≤ s.ptr ∨ s.ptr + s.len ≤ o → peek (blit mem o k) s = peek mem s := by
  subst hk
  refine ⟨peek_blit_self k (by omega), ?_, fun s hs => peek_blit ho hs⟩
  unfold blit
  simp only [List.length_append, List.length_take, List.length_drop]
  omega

/-- **C94** (MBEDTLS) A key update where the three arguments are anywhere in the caller's memory, overlapping or not: the call
succeeds, afterwards the bytes of the new key are EDHOC_KDF(PRK_out, 11, context, length) of what the arguments held
before the call, and everything else is as it was. -/
theorem C94_in_place {cfg : ECfg} {C : ECrypto} (hC : C.Lawful) {prk ctx out : Span} {mem : Bytes}
    (h2 : ctx.ptr + ctx.len ≤ mem.length) (h3 : out.ptr + out.len ≤ mem.length)
    (hL : out.len ≤ 255 * 32) (hc : asBstr ctx.len + 4 ≤ cfg.infoMaxSize) (hc' : ctx.len < 2 ^ 32) :
    ∃ mem', prkOutUpdateMem .mbedtls cfg C prk ctx out mem = .ok mem' ∧
      peek mem' out = EdhocSpec.kdf C.hmac (peek mem prk) 11 (peek mem ctx) out.len ∧
      mem'.length = mem.length ∧
      ∀ s : Span, out.ptr + out.len ≤ s.ptr ∨ s.ptr + s.len ≤ out.ptr → peek mem' s = peek mem s := by
  have hl := peek_length h2
  have e1 := info_length_le (L := out.len) (label := 11) (ctx := peek mem ctx) (by omega) (by omega) (by omega)
  rw [hl] at e1
  refine ⟨blit mem out.ptr (EdhocSpec.kdf C.hmac (peek mem prk) 11 (peek mem ctx) out.len), ?_,
    peek_write (C37_length hC.base _ _ _) h3⟩
  unfold prkOutUpdateMem edhocKdfMem
  rw [checkBufferSize_ok (u := ()).2 hc, R.ok_bind, createHkdfInfo_ok.2 ⟨rfl, e1⟩, R.ok_bind]
  simp only
  rw [hkdfExpandMem_eq hC.base prk _ h3 hL (by simp only; omega)]
  rfl

/-- **C94** (TINYCRYPT) The same with TinyCrypt when the new key is at most 32 bytes long or does not overlap the old one, and
up to 254 blocks.  Missing: longer keys over the old one, for which it is false (`C94_false_in_place`). -/
theorem C94_in_place_tinycrypt_partial {cfg : ECfg} {C : ECrypto} (hC : C.Lawful) {prk ctx out : Span} {mem : Bytes}
    (h2 : ctx.ptr + ctx.len ≤ mem.length) (h3 : out.ptr + out.len ≤ mem.length)
    (hL : out.len ≤ 254 * 32) (hc : asBstr ctx.len + 4 ≤ cfg.infoMaxSize) (hc' : ctx.len < 2 ^ 32)
    (hs : out.len ≤ 32 ∨ out.ptr + out.len ≤ prk.ptr ∨ prk.ptr + prk.len ≤ out.ptr) :
    ∃ mem', prkOutUpdateMem .tinycrypt cfg C prk ctx out mem = .ok mem' ∧
      peek mem' out = EdhocSpec.kdf C.hmac (peek mem prk) 11 (peek mem ctx) out.len ∧
      mem'.length = mem.length ∧
      ∀ s : Span, out.ptr + out.len ≤ s.ptr ∨ s.ptr + s.len ≤ out.ptr → peek mem' s = peek mem s := by
  have hl := peek_length h2
  have e1 := info_length_le (L := out.len) (label := 11) (ctx := peek mem ctx) (by omega) (by omega) (by omega)
  rw [hl] at e1
  refine ⟨blit mem out.ptr (EdhocSpec.kdf C.hmac (peek mem prk) 11 (peek mem ctx) out.len), ?_,
    peek_write (C37_length hC.base _ _ _) h3⟩
  unfold prkOutUpdateMem edhocKdfMem
  rw [checkBufferSize_ok (u := ()).2 hc, R.ok_bind, createHkdfInfo_ok.2 ⟨rfl, e1⟩, R.ok_bind]
  simp only
  rw [hkdfExpandMemTc_eq hC.base prk _ h3 hL hs]
  rfl

/-- what the TINYCRYPT build computes for a key of 64 bytes updated in place: the second block is keyed with the first block and
the second half of the old key -/
def inPlace64 (hmac : Bytes → Bytes → Bytes) (prk info : Bytes) : Bytes :=
  let t1 := hmac prk (info ++ [1])
  t1 ++ hmac (t1 ++ prk.drop 32) (t1 ++ info ++ [2])

/-- **C94 is false of TinyCrypt when the new key overwrites an old one of 64 bytes** (any memory, any context): the second half
of the new key is computed with a key that is already half overwritten. -/
theorem C94_false_in_place {cfg : ECfg} {C : ECrypto} (hC : C.Lawful) {o : Nat} {ctx : Span} {mem : Bytes}
    (h2 : ctx.ptr + ctx.len ≤ mem.length) (h3 : o + 64 ≤ mem.length)
    (hc : asBstr ctx.len + 4 ≤ cfg.infoMaxSize) (hc' : ctx.len < 2 ^ 32) :
    ∃ mem', prkOutUpdateMem .tinycrypt cfg C ⟨o, 64⟩ ctx ⟨o, 64⟩ mem = .ok mem' ∧
      peek mem' ⟨o, 64⟩ = inPlace64 C.hmac (peek mem ⟨o, 64⟩) (EdhocSpec.info 11 (peek mem ctx) 64) := by
  have hl := peek_length h2
  have e1 := info_length_le (L := 64) (label := 11) (ctx := peek mem ctx) (by omega) (by omega) (by omega)
  rw [hl] at e1
  generalize hi : EdhocSpec.info 11 (peek mem ctx) 64 = info at e1 ⊢
  have t1l := hC.base.hmac_len (peek mem ⟨o, 64⟩) (info ++ [1])
  generalize ht : C.hmac (peek mem ⟨o, 64⟩) (info ++ [1]) = t1 at t1l
  have hk : peek (blit mem o t1) ⟨o, 64⟩ = t1 ++ (peek mem ⟨o, 64⟩).drop 32 := by
    have hl : (mem.take o).length = o := by rw [List.length_take]; omega
    unfold peek blit
    simp only
    rw [List.append_assoc]
    conv => lhs; arg 2; arg 1; rw [← hl]
    rw [List.drop_left, List.take_append, t1l, List.take_of_length_le (by omega), List.drop_take, List.drop_drop]
  refine ⟨blit mem o (inPlace64 C.hmac (peek mem ⟨o, 64⟩) info), ?_, ?_⟩
  · unfold prkOutUpdateMem edhocKdfMem
    rw [checkBufferSize_ok (u := ()).2 hc, R.ok_bind, createHkdfInfo_ok.2 ⟨hi.symm, hi ▸ e1⟩, R.ok_bind]
    simp only
    unfold hkdfExpandMemTc
    simp only [show (64 + 31) % 2 ^ 32 / 32 = 2 from rfl, if_neg (show ¬ (2 : Nat) > 255 by omega)]
    rw [expandMemLoopTc, if_pos (by omega), if_neg (by omega)]
    simp only [show ¬ ((1 : Nat) > 1) by omega, if_false, List.nil_append, show ¬ ((64 : Nat) < 1 * 32) by omega,
      show (1 + 1) % 256 = 2 from rfl, Nat.sub_self, Nat.zero_mul, Nat.add_zero, show byte 1 = 1 from rfl]
    rw [ht, expandMemLoopTc, if_pos (by omega), if_neg (by omega)]
    simp only [show ((2 : Nat) > 1) by omega, if_true, show ¬ ((64 : Nat) < 2 * 32) by omega, if_false,
      show (2 + 1) % 256 = 3 from rfl, show (2 - 1) * 32 = 32 from rfl, show byte 2 = 2 from rfl]
    rw [hk, expandMemLoopTc, if_neg (by omega)]
    have hb := blit_blit (mem := mem) (o := o) (by omega) t1 (C.hmac (t1 ++ (peek mem ⟨o, 64⟩).drop 32) (t1 ++ info ++ [2]))
    rw [t1l] at hb
    rw [hb]
    unfold inPlace64
    simp only [ht]
  · have hlen : (inPlace64 C.hmac (peek mem ⟨o, 64⟩) info).length = 64 := by
      unfold inPlace64
      rw [List.length_append, hC.base.hmac_len, hC.base.hmac_len]
    exact (peek_write hlen h3).1

/-- a memory with a key of 64 bytes and a context of 3 bytes -/
def exMem : Bytes := (List.range 64).map (fun i => byte (i + 1)) ++ [0xA1, 0xA2, 0xA3] ++ List.replicate 64 0

/-- such an update with the two builds: they end with different keys, that of the MBEDTLS build is the key of RFC 9528, and into
another buffer TinyCrypt gives this key too -/
theorem C94_false_in_place_builds :
    prkOutUpdateMem .tinycrypt {} toyE ⟨0, 64⟩ ⟨64, 3⟩ ⟨0, 64⟩ exMem ≠ prkOutUpdateMem .mbedtls {} toyE ⟨0, 64⟩ ⟨64, 3⟩ ⟨0, 64⟩ exMem ∧
    peek ((prkOutUpdateMem .mbedtls {} toyE ⟨0, 64⟩ ⟨64, 3⟩ ⟨0, 64⟩ exMem).getD []) ⟨0, 64⟩ =
      EdhocSpec.kdf toyE.hmac (peek exMem ⟨0, 64⟩) 11 [0xA1, 0xA2, 0xA3] 64 ∧
    peek ((prkOutUpdateMem .tinycrypt {} toyE ⟨0, 64⟩ ⟨64, 3⟩ ⟨67, 64⟩ exMem).getD []) ⟨67, 64⟩ =
      EdhocSpec.kdf toyE.hmac (peek exMem ⟨0, 64⟩) 11 [0xA1, 0xA2, 0xA3] 64 := by
  decide +kernel

/-! ### histories of updates -/

/-- **Specification.** RFC 9528, Appendix H: the key after the updates with these contexts -/
def keyAfter (hmac : Bytes → Bytes → Bytes) (L : Nat) (prk : Bytes) (cs : List Bytes) : Bytes :=
  cs.foldl (fun k c => EdhocSpec.kdf hmac k 11 c L) prk

/-- the context of an update fits the library's buffer -/
def CtxFits (cfg : ECfg) (c : Bytes) : Prop := asBstr c.length + 4 ≤ cfg.infoMaxSize ∧ c.length < 2 ^ 32

/-- **C94** Any number of updates gives the key of RFC 9528. -/
theorem C94_chain_rfc {cfg : ECfg} {C : ECrypto} (hC : C.Lawful) {L : Nat} (hL : L ≤ 255 * 32) :
    ∀ (cs : List Bytes) (prk : Bytes), (∀ c ∈ cs, CtxFits cfg c) →
      updates cfg C L prk cs = .ok (keyAfter C.hmac L prk cs)
  | [], prk, _ => rfl
  | c :: cs, prk, h => by
    have hc := h c (List.mem_cons_self ..)
    unfold updates prkOutUpdate
    rw [kdf_total hC prk (by omega) hL hc.1 hc.2, R.ok_bind]
    exact C94_chain_rfc hC hL cs _ (fun c' h' => h c' (List.mem_cons_of_mem _ h'))

/-- **C94** A context that does not fit the buffer makes the update fail; no other key is returned. -/
theorem C94_chain_ok {cfg : ECfg} {C : ECrypto} (hC : C.Lawful) {L : Nat} (hL : L ≤ 255 * 32) :
    ∀ (cs : List Bytes) (prk k : Bytes), updates cfg C L prk cs = .ok k → k = keyAfter C.hmac L prk cs
  | [], prk, k, h => by
    simp only [updates, R.ok.injEq] at h
    exact h.symm
  | c :: cs, prk, k, h => by
    unfold updates prkOutUpdate at h
    obtain ⟨k1, e, h⟩ := R.bind_eq_ok.1 h
    have e := (C38_kdf_rfc9528 hC e hL).1
    rw [C94_chain_ok hC hL cs k1 k h, e]
    rfl

/-- **C94** Two parties that hold the same key and apply the same updates hold the same key, whatever their configurations,
and each update's key has the requested length. -/
theorem C94_agree {cfg cfg' : ECfg} {C : ECrypto} (hC : C.Lawful) {L : Nat} (hL : L ≤ 255 * 32) {prk : Bytes} (hp : prk.length = L)
    (cs : List Bytes) (h : ∀ c ∈ cs, CtxFits cfg c) (h' : ∀ c ∈ cs, CtxFits cfg' c) :
    ∃ k, updates cfg C L prk cs = .ok k ∧ updates cfg' C L prk cs = .ok k ∧ k.length = L := by
  refine ⟨_, C94_chain_rfc hC hL cs prk h, C94_chain_rfc hC hL cs prk h', ?_⟩
  clear h h'
  induction cs generalizing prk with
  | nil => exact hp
  | cons c cs ih => exact ih (C37_length hC.base _ _ _)

theorem spec_kdf_binds {C : ECrypto} (hC : C.Lawful) {prk prk' ctx ctx' : Bytes} {label label' L : Nat}
    (e : EdhocSpec.kdf C.hmac prk label ctx L = EdhocSpec.kdf C.hmac prk' label' ctx' L)
    (hL : 32 ≤ L) (hL' : L ≤ 255 * 32)
    (hl : label < 24) (hl' : label' < 24) (hc : ctx.length < 2 ^ 32) (hc' : ctx'.length < 2 ^ 32) :
    HmacClash C (prk, kdfIn label ctx L) (prk', kdfIn label' ctx' L) ∨ (prk = prk' ∧ label = label' ∧ ctx = ctx') := by
  have e := congrArg (List.take 32) e
  unfold EdhocSpec.kdf at e
  rw [expand_take hC.base _ _ hL, expand_take hC.base _ _ hL] at e
  by_cases hx : prk = prk' ∧ EdhocSpec.info label ctx L ++ [1] = EdhocSpec.info label' ctx' L ++ [1]
  · right
    obtain ⟨h1, h2⟩ := hx
    have h2 := List.append_cancel_right h2
    have := encList_inj (l := [.uint label, .bstr ctx, .uint L]) (m := [.uint label', .bstr ctx', .uint L])
      (by simp [OkList, Item.Ok]; omega) (by simp [OkList, Item.Ok]; omega) h2
    simp only [List.cons.injEq, Item.uint.injEq, Item.bstr.injEq, and_true] at this
    exact ⟨h1, this.1, this.2⟩
  · exact .inl ⟨fun h => hx (Prod.mk.inj h), e⟩

/-- **Specification.** The keys and messages a party hands to the HMAC (the first of each derivation): for PRK_out, from PRK_4e3m
and TH_4, and for the updates with the contexts `cs`. -/
def updateInputs (hmac : Bytes → Bytes → Bytes) (L : Nat) (prk4e3m th4 : Bytes) : (cs : List Bytes) → List (Bytes × Bytes)
  | cs => (prk4e3m, kdfIn 7 th4 L) :: go (EdhocSpec.kdf hmac prk4e3m 7 th4 L) cs
where
  go : Bytes → List Bytes → List (Bytes × Bytes)
  | _, [] => []
  | k, c :: cs => (k, kdfIn 11 c L) :: go (EdhocSpec.kdf hmac k 11 c L) cs

/-- the derivations in the reverse order: (label, context) -/
def chainR (hmac : Bytes → Bytes → Bytes) (L : Nat) (prk : Bytes) (l : List (Nat × Bytes)) : Bytes :=
  l.foldr (fun s k => EdhocSpec.kdf hmac k s.1 s.2 L) prk
def inputsR (hmac : Bytes → Bytes → Bytes) (L : Nat) (prk : Bytes) : List (Nat × Bytes) → List (Bytes × Bytes)
  | [] => []
  | s :: l => (chainR hmac L prk l, kdfIn s.1 s.2 L) :: inputsR hmac L prk l

theorem chainR_binds {C : ECrypto} (hC : C.Lawful) {L : Nat} (hL : 32 ≤ L) (hL' : L ≤ 255 * 32) {p p' t t' : Bytes}
    (ht : t.length < 2 ^ 32) (ht' : t'.length < 2 ^ 32) :
    ∀ (l l' : List Bytes), (∀ c ∈ l, c.length < 2 ^ 32) → (∀ c ∈ l', c.length < 2 ^ 32) →
      chainR C.hmac L p (l.map (11, ·) ++ [(7, t)]) = chainR C.hmac L p' (l'.map (11, ·) ++ [(7, t')]) →
      (∃ x ∈ inputsR C.hmac L p (l.map (11, ·) ++ [(7, t)]), ∃ y ∈ inputsR C.hmac L p' (l'.map (11, ·) ++ [(7, t')]), HmacClash C x y) ∨
        (p = p' ∧ t = t' ∧ l = l')
  | [], [], _, _, h => by
    rcases spec_kdf_binds hC h hL hL' (by simp) (by simp) ht ht' with hx | hx
    · exact .inl ⟨_, List.mem_cons_self .., _, List.mem_cons_self .., hx⟩
    · exact .inr ⟨hx.1, hx.2.2, rfl⟩
  | [], c' :: l', _, h2, h => by
    rcases spec_kdf_binds hC h hL hL' (by simp) (by simp) ht (h2 c' (List.mem_cons_self ..)) with hx | hx
    · exact .inl ⟨_, List.mem_cons_self .., _, List.mem_cons_self .., hx⟩
    · exact absurd hx.2.1 (by simp)
  | c :: l, [], h1, _, h => by
    rcases spec_kdf_binds hC h hL hL' (by simp) (by simp) (h1 c (List.mem_cons_self ..)) ht' with hx | hx
    · exact .inl ⟨_, List.mem_cons_self .., _, List.mem_cons_self .., hx⟩
    · exact absurd hx.2.1 (by simp)
  | c :: l, c' :: l', h1, h2, h => by
    rcases spec_kdf_binds hC h hL hL' (by simp) (by simp) (h1 c (List.mem_cons_self ..)) (h2 c' (List.mem_cons_self ..)) with hx | hx
    · exact .inl ⟨_, List.mem_cons_self .., _, List.mem_cons_self .., hx⟩
    · rcases chainR_binds hC hL hL' ht ht' l l' (fun d hd => h1 d (List.mem_cons_of_mem _ hd)) (fun d hd => h2 d (List.mem_cons_of_mem _ hd)) hx.1 with
        ⟨x, hx1, y, hy1, hxy⟩ | ⟨e1, e2, e3⟩
      · exact .inl ⟨x, List.mem_cons_of_mem _ hx1, y, List.mem_cons_of_mem _ hy1, hxy⟩
      · exact .inr ⟨e1, e2, by rw [e3, show c = c' from hx.2.2]⟩

theorem keyAfter_chainR (hmac : Bytes → Bytes → Bytes) (L : Nat) (p t : Bytes) (cs : List Bytes) :
    keyAfter hmac L (EdhocSpec.kdf hmac p 7 t L) cs = chainR hmac L p (cs.reverse.map (11, ·) ++ [(7, t)]) := by
  unfold keyAfter chainR
  rw [List.foldr_append, List.foldr_map, List.foldr_reverse]
  rfl

theorem inputsR_append (hmac : Bytes → Bytes → Bytes) (L : Nat) (p : Bytes) (a b : List (Nat × Bytes)) :
    inputsR hmac L p (a ++ b) = inputsR hmac L (chainR hmac L p b) a ++ inputsR hmac L p b := by
  induction a with
  | nil => rfl
  | cons s a ih =>
    simp only [List.cons_append, inputsR, ih]
    unfold chainR
    rw [List.foldr_append]

theorem mem_inputsR_go (hmac : Bytes → Bytes → Bytes) (L : Nat) : ∀ (cs : List Bytes) (k : Bytes) (x : Bytes × Bytes),
    x ∈ inputsR hmac L k (cs.reverse.map (11, ·)) → x ∈ updateInputs.go hmac L k cs
  | [], _, _, h => by cases h
  | c :: cs, k, x, h => by
    rw [List.reverse_cons, List.map_append, inputsR_append] at h
    rcases List.mem_append.1 h with h | h
    · exact List.mem_cons_of_mem _ (mem_inputsR_go hmac L cs _ x h)
    · simp only [List.map_cons, List.map_nil, inputsR, List.mem_singleton] at h
      subst h
      exact List.mem_cons_self ..

theorem mem_inputsR (hmac : Bytes → Bytes → Bytes) (L : Nat) (cs : List Bytes) (p t : Bytes) (x : Bytes × Bytes)
    (h : x ∈ inputsR hmac L p (cs.reverse.map (11, ·) ++ [(7, t)])) : x ∈ updateInputs hmac L p t cs := by
  rw [inputsR_append] at h
  unfold updateInputs
  rcases List.mem_append.1 h with h | h
  · exact List.mem_cons_of_mem _ (mem_inputsR_go hmac L cs _ x h)
  · simp only [inputsR, List.mem_singleton] at h
    subst h
    exact List.mem_cons_self ..

/-- **C94** Different histories lead to different keys: two sessions, each followed by any number of updates, end with the same
key (of at least 32 bytes) only if they are the same session (PRK_4e3m and TH_4) with the same contexts in the same order, or
two inputs of the HMAC that the parties really used collide.  In particular no update gives an earlier key of the session
back, and the key of one session never becomes that of another. -/
theorem C94_epochs {cfg cfg' : ECfg} {C : ECrypto} (hC : C.Lawful) {L : Nat} (hL : 32 ≤ L) (hL' : L ≤ 255 * 32)
    {p p' t t' k0 k0' k : Bytes} {cs cs' : List Bytes} (ht : t.length < 2 ^ 32) (ht' : t'.length < 2 ^ 32)
    (hc : ∀ c ∈ cs, c.length < 2 ^ 32) (hc' : ∀ c ∈ cs', c.length < 2 ^ 32)
    (h0 : edhocKdf cfg C p 7 t L = .ok k0) (h : updates cfg C L k0 cs = .ok k)
    (h0' : edhocKdf cfg' C p' 7 t' L = .ok k0') (h' : updates cfg' C L k0' cs' = .ok k) :
    (∃ x ∈ updateInputs C.hmac L p t cs, ∃ y ∈ updateInputs C.hmac L p' t' cs', HmacClash C x y) ∨
      (p = p' ∧ t = t' ∧ cs = cs') := by
  have e := C94_chain_ok hC hL' cs k0 k h
  have e' := C94_chain_ok hC hL' cs' k0' k h'
  rw [(C38_kdf_rfc9528 hC h0 hL').1, keyAfter_chainR] at e
  rw [(C38_kdf_rfc9528 hC h0' hL').1, keyAfter_chainR] at e'
  rcases chainR_binds hC hL hL' ht ht' cs.reverse cs'.reverse (fun c h => hc c (List.mem_reverse.1 h)) (fun c h => hc' c (List.mem_reverse.1 h))
    (e.symm.trans e') with ⟨x, hx, y, hy, hxy⟩ | ⟨e1, e2, e3⟩
  · exact .inl ⟨x, mem_inputsR _ _ _ _ _ _ hx, y, mem_inputsR _ _ _ _ _ _ hy, hxy⟩
  · exact .inr ⟨e1, e2, List.reverse_inj.1 e3⟩

/-- **C94** Whole runs: an initiator and a responder that completed EDHOC (with whomever) and hold the same key after their
updates completed with the same PRK_out, from the same PRK_4e3m and TH_4, and applied the same updates; or two inputs of the HMAC
that they used collide.  With C60 they are then in the same session. -/
theorem C94_runs {cfgI cfgR : ECfg} {C : ECrypto} (hC : C.Lawful) {ci : ICtx} {cr : RCtx}
    {credsI credsR : List Cred} {crBuf : Bytes} {cICap L : Nat} {nI nI' nR nR' : Net} {oI : IOut} {oR : ROut} {prk k : Bytes}
    (hI : initiatorRun cfgI C ci credsI crBuf L nI = (.ok oI, nI'))
    (hR : responderRun cfgR C cr credsR cICap L nR = (.ok oR, nR'))
    (hp : oI.prkOut = some prk) (hL : 32 ≤ L) (hL' : L ≤ 255 * 32) {cs cs' : List Bytes}
    (hc : ∀ c ∈ cs, c.length < 2 ^ 32) (hc' : ∀ c ∈ cs', c.length < 2 ^ 32)
    (h : updates cfgI C L prk cs = .ok k) (h' : updates cfgR C L oR.prkOut cs' = .ok k) :
    (∃ x ∈ updateInputs C.hmac L oI.prk4e3m oI.th4 cs, ∃ y ∈ updateInputs C.hmac L oR.prk4e3m oR.th4 cs', HmacClash C x y) ∨
      (oI.prkOut = some oR.prkOut ∧ oI.prk4e3m = oR.prk4e3m ∧ oI.th4 = oR.th4 ∧ cs = cs') := by
  obtain ⟨m1, m2, gY, c2, p2, credR, pkR, p3, th2, th3, suite, spR, fI⟩ := initiator_facts hC hI hp
  obtain ⟨m1', m3', q, p2', p3', credI, th2', th3', pp, spI, hq, fR⟩ := responder_facts hC hR
  rcases C94_epochs hC hL hL' (by rw [th34_length hC fI.hth4]; decide) (by rw [th34_length hC fR.hth4]; decide) hc hc' fI.out h fR.out h' with
    hx | ⟨e1, e2, e3⟩
  · exact .inl hx
  · refine .inr ⟨?_, e1, e2, e3⟩
    have a := (C38_kdf_rfc9528 hC fI.out hL').1
    have b := (C38_kdf_rfc9528 hC fR.out hL').1
    rw [hp, a, b, e1, e2]

/-- the contexts that two builds initialise from mirrored parameters, and the conversation over them -/
theorem conversation_of_keys {S : Setup} {A : Agreed} (H : S.Honest A) {oI : IOut} {oR : ROut} (h6 : oI.cR = S.r.cR)
    (h7 : oR.cI = cIStored S.i.cI) (hcI : cIStored S.i.cI = S.i.cI)
    (hid : S.i.cI.length ≤ 4 ∧ S.r.cR.length ≤ 4) (idContext : Bytes) (hctx : idContext.length ≤ 10) (haead : AeadTotal S.C.toCrypto) :
    ∃ p q, oscoreParams S.cfgI S.C oR.prkOut oI.cR S.i.cI idContext = .ok p ∧
      oscoreParams S.cfgR S.C oR.prkOut oR.cI S.r.cR idContext = .ok q ∧
      ∀ (cfgA cfgB : Cfg) (nv nv' : R Nat) (jn je jn' je' : Bytes), 0 < cfgA.interactions → 50 ≤ cfgA.infoMax → cfgA.uriMax ≤ 255 →
        0 < cfgB.interactions → 50 ≤ cfgB.infoMax → cfgB.uriMax ≤ 255 →
        ∃ a b, contextInit cfgA S.C.toCrypto p nv jn je = .ok a ∧ contextInit cfgB S.C.toCrypto q nv' jn' je' = .ok b ∧
          ∀ ms, Proper2 cfgA cfgB [] ms → ms.length ≤ 0x7FFFFF →
            (converse2 cfgA cfgB S.C.toCrypto ⟨a, 0, []⟩ ⟨b, 0, []⟩ ms).length = ms.length ∧
            ∀ x ∈ ms.zip (converse2 cfgA cfgB S.C.toCrypto ⟨a, 0, []⟩ ⟨b, 0, []⟩ ms), Delivered x.1 x.2 := by
  obtain ⟨p, q, g6, g7, g8, g9⟩ := contexts_of_run H h6 h7 hcI ⟨by omega, by omega⟩ idContext (by omega)
  refine ⟨p, q, g6, g7, ?_⟩
  intro cfgA cfgB nv nv' jn je jn' je' hrA hiA hmA hrB hiB hmB
  obtain ⟨a, -, ha, -, -⟩ := g9 cfgA nv nv' jn je jn' je' hrA hiA
  obtain ⟨-, b, -, hb, -⟩ := g9 cfgB nv nv' jn je jn' je' hrB hiB
  refine ⟨a, b, ha, hb, fun ms hp hl => ?_⟩
  have e1 := oscoreParams_rfc (cfg := S.cfgI) H.lawful oR.prkOut oI.cR S.i.cI idContext
  have e2 := oscoreParams_rfc (cfg := S.cfgR) H.lawful oR.prkOut oR.cI S.r.cR idContext
  rw [g6] at e1
  rw [g7] at e2
  have e1 := R.ok.inj e1
  have e2 := R.ok.inj e2
  refine C93_conversation_partial H.lawful.base haead hmA hmB hiA hiB g8 (by rw [e1]) (by rw [e2]) ?_ (by rw [e1]; exact hid.1) (by rw [e1]; exact hctx) ha hb 0 0 [] [] ms hp hl
  rw [← g8.recipient, e2]; exact hid.2

/-- **C94** After an honest run of EDHOC and any number of key updates applied by both parties, the parties can set up OSCORE
again, from the new key, on whatever builds, and all messages of their conversation are delivered.

`_partial`: as C39, C57 and C93 (EAD_2 and EAD_3, C_I not a negative integer of one byte, messages that fit both builds). -/
theorem C94_conversation_partial {S : Setup} {A : Agreed} (H : S.Honest A)
    (hm4 : S.cfgI.message4 = false ∧ S.cfgR.message4 = false) (hcI : cIStored S.i.cI = S.i.cI)
    (hid : S.i.cI.length ≤ 4 ∧ S.r.cR.length ≤ 4) (idContext : Bytes) (hctx : idContext.length ≤ 10)
    (haead : AeadTotal S.C.toCrypto) (hL : S.L ≤ 255 * 32) (cs : List Bytes)
    (hcs : ∀ c ∈ cs, CtxFits S.cfgI c ∧ CtxFits S.cfgR c) :
    ∃ m1 m2 m3 oI oR nI nR prk k p q,
      initiatorRun S.cfgI S.C S.i S.credsR S.crBuf S.L (netOf [m2]) = (.ok oI, nI) ∧ nI.sent = [m1, m3] ∧
      responderRun S.cfgR S.C S.r S.credsI S.cICap S.L (netOf [m1, m3]) = (.ok oR, nR) ∧ nR.sent = [m2] ∧
      oI.prkOut = some prk ∧
      updates S.cfgI S.C S.L prk cs = .ok k ∧ updates S.cfgR S.C S.L oR.prkOut cs = .ok k ∧ k.length = S.L ∧
      oscoreParams S.cfgI S.C k oI.cR S.i.cI idContext = .ok p ∧ oscoreParams S.cfgR S.C k oR.cI S.r.cR idContext = .ok q ∧
      ∀ (cfgA cfgB : Cfg) (nv nv' : R Nat) (jn je jn' je' : Bytes), 0 < cfgA.interactions → 50 ≤ cfgA.infoMax → cfgA.uriMax ≤ 255 →
        0 < cfgB.interactions → 50 ≤ cfgB.infoMax → cfgB.uriMax ≤ 255 →
        ∃ a b, contextInit cfgA S.C.toCrypto p nv jn je = .ok a ∧ contextInit cfgB S.C.toCrypto q nv' jn' je' = .ok b ∧
          ∀ ms, Proper2 cfgA cfgB [] ms → ms.length ≤ 0x7FFFFF →
            (converse2 cfgA cfgB S.C.toCrypto ⟨a, 0, []⟩ ⟨b, 0, []⟩ ms).length = ms.length ∧
            ∀ x ∈ ms.zip (converse2 cfgA cfgB S.C.toCrypto ⟨a, 0, []⟩ ⟨b, 0, []⟩ ms), Delivered x.1 x.2 := by
  obtain ⟨m1, m2, m3, oI, oR, nI, nR, h1, h2, h3, h4, h5, hlen, _, _, h6, h7, _⟩ := C39_partial H hm4
  obtain ⟨k, u1, u2, u3⟩ := C94_agree (cfg := S.cfgI) (cfg' := S.cfgR) H.lawful hL hlen cs (fun c h => (hcs c h).1) (fun c h => (hcs c h).2)
  obtain ⟨p, q, g⟩ := conversation_of_keys H (oI := oI) (oR := { oR with prkOut := k }) h6 h7 hcI hid idContext hctx haead
  exact ⟨m1, m2, m3, oI, oR, nI, nR, oR.prkOut, k, p, q, h1, h2, h3, h4, h5, u1, u2, u3, g⟩

/-- **C94** The same after a run with message_4 (without EAD_4, see C39). -/
theorem C94_conversation_message_4_partial {S : Setup} {A : Agreed} (H : S.Honest A)
    (hm4 : S.cfgI.message4 = true ∧ S.cfgR.message4 = true) (he : S.r.ead4 = [])
    (ht : A.suite.aead.tagLen ≤ S.cfgI.eadSize + 8 ∧ A.suite.aead.tagLen ≤ S.cfgR.eadSize + 8) (hcI : cIStored S.i.cI = S.i.cI)
    (hid : S.i.cI.length ≤ 4 ∧ S.r.cR.length ≤ 4) (idContext : Bytes) (hctx : idContext.length ≤ 10)
    (haead : AeadTotal S.C.toCrypto) (hL : S.L ≤ 255 * 32) (cs : List Bytes)
    (hcs : ∀ c ∈ cs, CtxFits S.cfgI c ∧ CtxFits S.cfgR c) :
    ∃ m1 m2 m3 m4 oI oR nI nR prk k p q,
      initiatorRun S.cfgI S.C S.i S.credsR S.crBuf S.L (netOf [m2, m4]) = (.ok oI, nI) ∧ nI.sent = [m1, m3] ∧
      responderRun S.cfgR S.C S.r S.credsI S.cICap S.L (netOf [m1, m3]) = (.ok oR, nR) ∧ nR.sent = [m2, m4] ∧
      oI.prkOut = some prk ∧
      updates S.cfgI S.C S.L prk cs = .ok k ∧ updates S.cfgR S.C S.L oR.prkOut cs = .ok k ∧ k.length = S.L ∧
      oscoreParams S.cfgI S.C k oI.cR S.i.cI idContext = .ok p ∧ oscoreParams S.cfgR S.C k oR.cI S.r.cR idContext = .ok q ∧
      ∀ (cfgA cfgB : Cfg) (nv nv' : R Nat) (jn je jn' je' : Bytes), 0 < cfgA.interactions → 50 ≤ cfgA.infoMax → cfgA.uriMax ≤ 255 →
        0 < cfgB.interactions → 50 ≤ cfgB.infoMax → cfgB.uriMax ≤ 255 →
        ∃ a b, contextInit cfgA S.C.toCrypto p nv jn je = .ok a ∧ contextInit cfgB S.C.toCrypto q nv' jn' je' = .ok b ∧
          ∀ ms, Proper2 cfgA cfgB [] ms → ms.length ≤ 0x7FFFFF →
            (converse2 cfgA cfgB S.C.toCrypto ⟨a, 0, []⟩ ⟨b, 0, []⟩ ms).length = ms.length ∧
            ∀ x ∈ ms.zip (converse2 cfgA cfgB S.C.toCrypto ⟨a, 0, []⟩ ⟨b, 0, []⟩ ms), Delivered x.1 x.2 := by
  obtain ⟨m1, m2, m3, m4, oI, oR, nI, nR, h1, h2, h3, h4, h5, hlen, _, _, h6, h7, _⟩ := C39_message_4_partial H hm4 he ht
  obtain ⟨k, u1, u2, u3⟩ := C94_agree (cfg := S.cfgI) (cfg' := S.cfgR) H.lawful hL hlen cs (fun c h => (hcs c h).1) (fun c h => (hcs c h).2)
  obtain ⟨p, q, g⟩ := conversation_of_keys H (oI := oI) (oR := { oR with prkOut := k }) h6 h7 hcI hid idContext hctx haead
  exact ⟨m1, m2, m3, m4, oI, oR, nI, nR, oR.prkOut, k, p, q, h1, h2, h3, h4, h5, u1, u2, u3, g⟩

/-- the hypotheses of `C94_conversation_message_4_partial` are met -/
example : (exSetup4 false).Honest (exAgreed true true) ∧ ((exSetup4 false).cfgI.message4 = true ∧ (exSetup4 false).cfgR.message4 = true) ∧
    (exSetup4 false).r.ead4 = [] ∧ (exAgreed true true).suite.aead.tagLen ≤ (exSetup4 false).cfgI.eadSize + 8 ∧
    (exAgreed true true).suite.aead.tagLen ≤ (exSetup4 false).cfgR.eadSize + 8 ∧ cIStored (exSetup4 false).i.cI = (exSetup4 false).i.cI ∧
    (exSetup4 false).i.cI.length ≤ 4 ∧ (exSetup4 false).r.cR.length ≤ 4 ∧ (exSetup4 false).L ≤ 255 * 32 :=
  ⟨ex_honest4 false, ⟨rfl, rfl⟩, rfl, by decide, by decide, by decide +kernel, by decide, by decide, by decide⟩

/-! ### non-vacuity -/

/-- the hypotheses of `C94_in_place` are met: key and new key overlap, and the context is part of the old key -/
example : (8 : Nat) + 40 ≤ exMem.length ∧ (4 : Nat) + 64 ≤ exMem.length ∧ asBstr 40 + 4 ≤ ({} : ECfg).infoMaxSize := by decide +kernel
/-- ... and such a call -/
example : peek ((prkOutUpdateMem .mbedtls {} toyE ⟨0, 64⟩ ⟨8, 40⟩ ⟨4, 64⟩ exMem).getD []) ⟨4, 64⟩ =
    EdhocSpec.kdf toyE.hmac (peek exMem ⟨0, 64⟩) 11 (peek exMem ⟨8, 40⟩) 64 := by decide +kernel
/-- those of `C94_in_place_tinycrypt_partial`: a key of 32 bytes in place -/
example : peek ((prkOutUpdateMem .tinycrypt {} toyE ⟨0, 32⟩ ⟨64, 3⟩ ⟨0, 32⟩ exMem).getD []) ⟨0, 32⟩ =
    EdhocSpec.kdf toyE.hmac (peek exMem ⟨0, 32⟩) 11 [0xA1, 0xA2, 0xA3] 32 := by decide +kernel

/-- two histories of updates -/
def exUpdates : List Bytes := [[1], [], [2, 3]]
example : ∀ c ∈ exUpdates, CtxFits (exSetup 3).cfgI c ∧ CtxFits (exSetup 3).cfgR c := by
  unfold CtxFits; decide
/-- those of `C94_epochs`: two updates in either order, and the same order twice -/
example : (updates {} toyE 32 ((edhocKdf {} toyE [1] 7 [2] 32).getD []) exUpdates).isOk = true ∧
    updates {} toyE 32 ((edhocKdf {} toyE [1] 7 [2] 32).getD []) exUpdates ≠
      updates {} toyE 32 ((edhocKdf {} toyE [1] 7 [2] 32).getD []) [[1], [2, 3], []] := by decide +kernel
/-- those of `C94_conversation_partial`, with the conversation `exTalk` (`exTalk_proper2`) -/
example : (exSetup 3).Honest (exAgreed true true) ∧ cIStored (exSetup 3).i.cI = (exSetup 3).i.cI ∧ (exSetup 3).i.cI.length ≤ 4 ∧
    (exSetup 3).r.cR.length ≤ 4 ∧ AeadTotal (exSetup 3).C.toCrypto ∧ (exSetup 3).L ≤ 255 * 32 ∧ Proper2 exCfg exCfgSmall [] exTalk :=
  ⟨ex_honest (.inr ⟨rfl, rfl, rfl⟩), by decide +kernel, by decide, by decide, fun _ _ _ _ _ _ _ _ => rfl, by decide, exTalk_proper2⟩

end Verif.Edhoc
