import Verif.Lemmas.ThreadLemmas
import Verif.Props.PsaStore
/-
C98: the crypto wrapper can be used by several threads at once (MBEDTLS configuration).
-/
namespace Verif.Psa
open Verif Verif.Edhoc

section functions
variable {e : Env} {I : St → Prop} {E : Prop}

theorem aeadEncrypt_safe (he : e.Lawful) (hl : e.lib.Lawful) (hE : Noisy e I → E) {key nonce aad : Bytes} {t : Nat}
    {pt : Bytes} {outCap : Nat} (ho : pt.length + t ≤ outCap) (h32 : pt.length + t < 2 ^ 32)
    (hk : e.lib.keyOk (.aes (key.length * 8) t) key = false → E) (hr : e.lib.aeadEnc key nonce aad t pt = none → E) :
    Safe e I E (fun o own => own = none ∧ e.lib.aeadEnc key nonce aad t pt = some o.1 ∧ o.2 = o.1.drop (o.1.length - t))
      none (aeadEncryptP e key nonce aad t pt outCap) := by
  unfold aeadEncryptP
  refine (Safe.init hE).bind fun _ o h => ?_
  subst h
  refine (Safe.import he hE hk).bind fun kid o h => ?_
  obtain ⟨k, rfl, rfl, h0, h1, h2⟩ := h
  refine (Safe.use hE h0 fun rnd h => ?_).bind fun c o h => ?_
  · simp only [useAeadEnc, h1, if_true, h2] at h
    cases hc : e.lib.aeadEnc key nonce aad t pt with
    | none => exact hr hc
    | some c =>
      rw [hc, fits, Option.bind_some, if_pos (by rw [hl.enc_len _ _ _ _ _ _ hc, Nat.mod_eq_of_lt h32]; omega)] at h
      cases h
  · obtain ⟨rfl, _, hc⟩ := h
    simp only [useAeadEnc, h1, if_true, h2] at hc
    obtain ⟨hc, _⟩ := fits_some hc
    have h3 := hl.enc_len _ _ _ _ _ _ hc
    have h4 : tagOf c t outCap = .ok (c.drop (c.length - t)) := if_neg (by omega)
    rw [h4, Prog.bind_ok]
    exact Safe.close hE ⟨rfl, hc, rfl⟩

theorem aeadDecrypt_safe (he : e.Lawful) (hl : e.lib.Lawful) (hE : Noisy e I → E) {key nonce aad : Bytes} {t : Nat}
    {ct out : Bytes} (hz : ct.length = out.length + t) (hk : e.lib.keyOk (.aes (key.length * 8) t) key = false → E)
    (hr : e.lib.aeadDec key nonce aad t ct = none → E) :
    Safe e I E (fun o own => own = none ∧ e.lib.aeadDec key nonce aad t ct = some o)
      none (aeadDecryptP e key nonce aad t ct out) := by
  unfold aeadDecryptP
  refine (Safe.init hE).bind fun _ o h => ?_
  subst h
  refine (Safe.import he hE hk).bind fun kid o h => ?_
  obtain ⟨k, rfl, rfl, h0, h1, h2⟩ := h
  refine (Safe.use hE h0 fun rnd h => ?_).bind fun p o h => ?_
  · simp only [useAeadDec, h1, if_true, h2] at h
    cases hc : e.lib.aeadDec key nonce aad t ct with
    | none => exact hr hc
    | some p =>
      have := hl.dec_len _ _ _ _ _ _ hc
      rw [hc, fits, Option.bind_some, if_pos (by omega)] at h
      cases h
  · obtain ⟨rfl, _, hc⟩ := h
    simp only [useAeadDec, h1, if_true, h2] at hc
    obtain ⟨hc, _⟩ := fits_some hc
    have h3 := hl.dec_len _ _ _ _ _ _ hc
    rw [List.drop_eq_nil_of_le (by omega), List.append_nil]
    exact Safe.close hE ⟨rfl, hc⟩

theorem signP256_safe (he : e.Lawful) (hE : Noisy e I → E) {sk msg : Bytes}
    (hk : e.lib.keyOk (.signPair (sk.length * 8)) sk = false → E)
    (hr : ∀ rnd, (∀ s, e.lib.sign rnd sk msg = some s → s.length ≠ 64) → E) :
    Safe e I E (fun o own => own = none ∧ ∃ rnd, e.lib.sign rnd sk msg = some o ∧ o.length = 64)
      none (signP256P e sk msg) := by
  unfold signP256P
  refine (Safe.init hE).bind fun _ o h => ?_
  subst h
  refine (Safe.import he hE hk).bind fun kid o h => ?_
  obtain ⟨k, rfl, rfl, h0, h1, h2⟩ := h
  refine (Safe.use hE h0 fun rnd h => hr rnd fun s hs hl => ?_).bind fun p o h => ?_
  · simp only [useSign, h1, h2] at h
    rw [hs, fits, Option.bind_some, if_pos (by omega)] at h
    cases h
  · obtain ⟨rfl, rnd, hc⟩ := h
    simp only [useSign, h1, h2] at hc
    obtain ⟨hc, _⟩ := fits_some hc
    refine (Safe.check h0 fun h => hr rnd fun s hs => ?_).bind fun _ o h => ?_
    · rw [hc] at hs
      cases hs
      simpa using h
    · obtain ⟨rfl, h⟩ := h
      exact Safe.close hE ⟨rfl, rnd, hc, by simpa using h⟩

theorem verifyP256_safe (he : e.Lawful) (hE : Noisy e I → E) {pk msg sgn : Bytes}
    (hk : e.lib.keyOk (.verifyKey 256) pk = false → E) :
    Safe e I E (fun b own => own = none ∧ (b = true → e.lib.verify pk msg sgn = true) ∧
      (b = e.lib.verify pk msg sgn ∨ Noisy e I)) none (verifyP256P e pk msg sgn) := by
  unfold verifyP256P
  refine (Safe.init hE).bind fun _ o h => ?_
  subst h
  refine (Safe.import he hE hk).bind fun kid o h => ?_
  obtain ⟨k, rfl, rfl, h0, h1, h2⟩ := h
  refine Safe.bind (Q := fun b o => o = some k ∧ (b = true → e.lib.verify pk msg sgn = true) ∧
      (b = e.lib.verify pk msg sgn ∨ Noisy e I)) (fun b o h => ?_) ?_
  · obtain ⟨rfl, h⟩ := h
    exact Safe.close hE ⟨rfl, h⟩
  · intro s hI hu ho
    refine ⟨some k, Or.inl ⟨rfl, rfl⟩, rfl, ?_⟩
    unfold psaUse
    rw [find_mem hu (ho k rfl)]
    by_cases h : (e.fail s.clock || !s.inited) = true
    · rw [if_pos h]
      refine ⟨by simp, Or.inr ?_⟩
      simp only [Bool.or_eq_true, Bool.not_eq_true'] at h
      rcases h with h | h
      · exact Or.inl ⟨_, h⟩
      · exact Or.inr (Or.inr ⟨s, hI, Or.inl h⟩)
    · rw [if_neg h]
      simp only [Option.bind_some, useVerify, h1, h2]
      cases e.lib.verify pk msg sgn <;> simp

theorem hkdfExtract_safe (he : e.Lawful) (hl : e.lib.Lawful) (hE : Noisy e I → E) {salt ikm : Bytes}
    (hk : e.lib.keyOk .hmac (saltKey salt) = false → E) :
    Safe e I E (fun o own => own = none ∧ o = e.lib.mac (saltKey salt) ikm) none (hkdfExtractP e salt ikm) := by
  unfold hkdfExtractP
  refine (Safe.init hE).bind fun _ o h => ?_
  subst h
  refine (Safe.import he hE hk).bind fun kid o h => ?_
  obtain ⟨k, rfl, rfl, h0, h1, h2⟩ := h
  refine (Safe.use hE h0 fun rnd h => ?_).bind fun p o h => ?_
  · simp only [useMac, h1, fits, Option.bind_some] at h
    rw [if_pos (by rw [hl.mac_len]; omega)] at h
    cases h
  · obtain ⟨rfl, _, hc⟩ := h
    simp only [useMac, h1, h2] at hc
    obtain ⟨hc, _⟩ := fits_some hc
    cases hc
    exact Safe.close hE ⟨rfl, rfl⟩

theorem expandLoop_safe (hl : e.lib.Lawful) (hE : Noisy e I → E) (C : Crypto) (hC : C.hmac = e.lib.mac) {k : Slot}
    (h0 : k.id ≠ 0) (h1 : k.kind = .hmac) (info : Bytes) (L : Nat) : ∀ (n i : Nat) (t : Bytes) (first : Bool) (out : Bytes),
    Safe e I E (fun o own => own = some k ∧ o = Verif.expandLoop C k.bytes info L n i t first out) (some k)
      (expandLoopP e k.id info L n i t first out)
  | 0, i, t, first, out => ⟨rfl, rfl⟩
  | n + 1, i, t, first, out => by
    unfold expandLoopP
    refine (Safe.use hE h0 fun rnd h => ?_).bind fun t' o h => ?_
    · simp only [useMac, h1, fits, Option.bind_some] at h
      rw [if_pos (by rw [hl.mac_len]; omega)] at h
      cases h
    · obtain ⟨rfl, _, hc⟩ := h
      simp only [useMac, h1] at hc
      obtain ⟨hc, _⟩ := fits_some hc
      cases hc
      refine (expandLoop_safe hl hE C hC h0 h1 info L n (i + 1) _ false _).mono id fun o own h => ⟨h.1, ?_⟩
      rw [h.2, Verif.expandLoop, hC]

theorem expandBody_safe (he : e.Lawful) (hl : e.lib.Lawful) (hE : Noisy e I → E) (cfg : Cfg) (C : Crypto)
    (hC : C.hmac = e.lib.mac) {prk info : Bytes} {L n : Nat} (hk : e.lib.keyOk .hmac prk = false → E)
    (hi : cfg.infoMax < info.length → E) :
    Safe e I E (fun o own => own = none ∧ info.length ≤ cfg.infoMax ∧
      o = Verif.expandLoop C prk info L n 1 (List.replicate 32 0) true []) none (expandBodyP cfg e prk info L n) := by
  unfold expandBodyP
  refine (Safe.init hE).bind fun _ o h => ?_
  subst h
  refine (Safe.import he hE hk).bind fun kid o h => ?_
  obtain ⟨k, rfl, rfl, h0, h1, h2⟩ := h
  refine (Safe.check h0 fun h => hi ?_).bind fun _ o h => ?_
  · have := of_decide_eq_false h; omega
  · obtain ⟨rfl, h⟩ := h
    have h3 := of_decide_eq_true h
    refine (expandLoop_safe hl hE C hC h0 h1 info L n 1 _ true []).bind fun out o h => ?_
    obtain ⟨rfl, h⟩ := h
    rw [h2] at h
    exact Safe.close hE ⟨rfl, by omega, h⟩

theorem hkdfExpand_safe (he : e.Lawful) (hl : e.lib.Lawful) (hE : Noisy e I → E) (cfg : Cfg) {prk info : Bytes} {L : Nat}
    (hL : L + 31 < 2 ^ 32) (hk : e.lib.keyOk .hmac prk = false → E) (hlen : 255 * 32 < L → E)
    (hi : cfg.infoMax < info.length → E) :
    Safe e I E (fun o own => own = none ∧ L ≤ 255 * 32 ∧ o = Hkdf.expand e.lib.mac prk info L) none
      (hkdfExpandP cfg e prk info L) := by
  unfold hkdfExpandP
  split
  · rename_i h
    rw [Nat.mod_eq_of_lt hL] at h
    exact ⟨hlen (by omega), by simp⟩
  · rename_i h
    refine (expandBody_safe he hl hE cfg (macCrypto e.lib) rfl hk hi).mono id fun o own ho => ?_
    obtain ⟨hn, hin, ho⟩ := ho
    have hL' : L ≤ 255 * 32 := by rw [Nat.mod_eq_of_lt hL] at h; omega
    refine ⟨hn, hL', ?_⟩
    have h37 := C37_expand_rfc5869 (cfg := cfg) (macCrypto_lawful hl) prk info hL' hin
    unfold Verif.hkdfExpand at h37
    simp only at h37
    rw [if_neg (by exact h), if_neg (by omega)] at h37
    rw [ho]
    exact R.ok.inj h37

theorem hkdfSha256_safe (he : e.Lawful) (hl : e.lib.Lawful) (hE : Noisy e I → E) (cfg : Cfg) {secret salt info : Bytes}
    {L : Nat} (hL : L + 31 < 2 ^ 32) (hk : e.lib.keyOk .hmac (saltKey salt) = false → E)
    (hk' : e.lib.keyOk .hmac (e.lib.mac (saltKey salt) secret) = false → E) (hlen : 255 * 32 < L → E)
    (hi : cfg.infoMax < info.length → E) :
    Safe e I E (fun o own => own = none ∧ L ≤ 255 * 32 ∧
      o = Hkdf.expand e.lib.mac (e.lib.mac (saltKey salt) secret) info L) none (hkdfSha256P cfg e secret salt info L) := by
  unfold hkdfSha256P
  refine (hkdfExtract_safe he hl hE hk).bind fun prk o h => ?_
  obtain ⟨rfl, rfl⟩ := h
  exact hkdfExpand_safe he hl hE cfg hL hk' hlen hi

theorem sharedP256_safe (he : e.Lawful) (hE : Noisy e I → E) {junk : P256.Limbs} {sk pk : Bytes}
    (hk : e.lib.keyOk (.dhPair 0) sk = false → E)
    (hr : (¬ ∃ q s, P256.uncompressPoint junk pk 65 = .ok q ∧ e.lib.agree sk q = some s ∧ s.length ≤ sk.length) → E) :
    Safe e I E (fun o own => own = none ∧ ∃ q, P256.uncompressPoint junk pk 65 = .ok q ∧ e.lib.agree sk q = some o) none
      (sharedP256P e junk sk pk) := by
  unfold sharedP256P
  refine (Safe.init hE).bind fun _ o h => ?_
  subst h
  refine (Safe.import he hE hk).bind fun kid o h => ?_
  obtain ⟨k, rfl, rfl, h0, h1, h2⟩ := h
  refine Safe.bind (Q := fun r o => o = some k ∧ (r = none → E) ∧
      ∀ b, r = some b → ∃ q, P256.uncompressPoint junk pk 65 = .ok q ∧ e.lib.agree sk q = some b) (fun r o h => ?_) ?_
  · obtain ⟨rfl, hn, hs⟩ := h
    unfold cleanupP
    rw [if_pos h0]
    refine (Safe.destroy hE).bind fun _ o h => ?_
    subst h
    cases r with
    | none => exact ⟨hn rfl, by simp⟩
    | some b => exact ⟨rfl, hs b rfl⟩
  · unfold agreeStepP
    split
    · exact absurd (by assumption) (uncompress_ne_ub junk pk 65)
    · rename_i er hu
      refine ⟨rfl, fun _ => hr ?_, by simp⟩
      rintro ⟨q, s, hq, _⟩
      rw [hu] at hq
      cases hq
    · rename_i q hq
      intro s hI hu ho
      refine ⟨some k, Or.inl ⟨rfl, rfl⟩, rfl, ?_⟩
      unfold psaUse
      rw [find_mem hu (ho k rfl)]
      by_cases h : (e.fail s.clock || !s.inited) = true
      · rw [if_pos h]
        refine ⟨fun _ => ?_, by simp⟩
        simp only [Bool.or_eq_true, Bool.not_eq_true'] at h
        rcases h with h | h
        · exact hE (Or.inl ⟨_, h⟩)
        · exact hE (Or.inr (Or.inr ⟨s, hI, Or.inl h⟩))
      · rw [if_neg h]
        simp only [Option.bind_some, useAgree, h1, h2]
        constructor
        · intro hn
          refine hr ?_
          rintro ⟨q', b, hq', hb, hlen⟩
          rw [hq] at hq'
          cases hq'
          rw [hb, fits, Option.bind_some, if_pos hlen] at hn
          cases hn
        · intro b hb
          exact ⟨q, hq, (fits_some hb).1⟩

theorem keyGenP256_safe (he : e.Lawful) (hE : Noisy e I → E)
    (hr : ∀ n, (32 < (e.lib.generate n).length ∨ (e.lib.pub (e.lib.generate n)).length ≠ 65) → E) :
    Safe e I E (fun o own => own = none ∧ ∃ n, o.1 = e.lib.generate n ∧ (e.lib.pub (e.lib.generate n)).length = 65 ∧
      o.2 = ((e.lib.pub (e.lib.generate n)).drop 1).take 32) none (keyGenP256P e) := by
  unfold keyGenP256P
  refine (Safe.init hE).bind fun _ o h => ?_
  subst h
  refine (Safe.generate he hE).bind fun kid o h => ?_
  obtain ⟨k, rfl, rfl, h0, h1, n, h2⟩ := h
  refine (Safe.use hE h0 fun rnd h => hr n (Or.inl ?_)).bind fun sk o h => ?_
  · simp only [useExport, h2, fits, Option.bind_some] at h
    split at h
    · cases h
    · omega
  · obtain ⟨rfl, _, hsk⟩ := h
    have a1 := (fits_some hsk).1
    cases a1
    refine (Safe.use hE h0 fun rnd h => hr n (Or.inr ?_)).bind fun pub o h => ?_
    · simp only [usePub, h2, fits, Option.bind_some] at h
      split at h
      · cases h
      · omega
    · obtain ⟨rfl, _, hpub⟩ := h
      have a2 := (fits_some hpub).1
      cases a2
      refine (Safe.check h0 fun h => hr n (Or.inr ?_)).bind fun _ o h => ?_
      · rw [h2] at h
        simpa using h
      · obtain ⟨rfl, h⟩ := h
        rw [h2] at h ⊢
        exact Safe.close hE ⟨rfl, n, rfl, by simpa using h, rfl⟩

theorem hashCall_safe (hE : Noisy e I → E) (m : Bytes) :
    Safe e I E (fun h own => own = none ∧ h = e.lib.sha256 m) none (tryExpectP (psaHash e m)) := by
  intro s hI hu ho
  refine ⟨none, Or.inl ⟨rfl, rfl⟩, ?_⟩
  unfold psaHash
  by_cases h : (e.fail s.clock || (e.hashNeedsInit && !s.inited)) = true
  · rw [if_pos h]
    refine ⟨?_, by simp⟩
    simp only [Bool.or_eq_true, Bool.and_eq_true, Bool.not_eq_true'] at h
    rcases h with h | h
    · exact hE (Or.inl ⟨_, h⟩)
    · exact hE (Or.inr (Or.inr ⟨s, hI, Or.inl h.2⟩))
  · rw [if_neg h]
    exact ⟨rfl, rfl⟩

theorem outP_safe {Q : α → Option Slot → Prop} {Q' : Out → Option Slot → Prop} {p : Prog α} {f : α → Out} {own : Option Slot}
    (h : Safe e I E Q own p) (hQ : ∀ a o, Q a o → Q' (f a) o) : Safe e I E Q' own (outP f p) := by
  unfold outP
  exact h.bind (Q' := Q') fun a o ha => (show Safe e I E Q' o (.done (.ok (f a))) from hQ a o ha)

/-- what a call of the wrapper promises, whatever the other threads do -/
theorem program_safe (he : e.Lawful) (hl : e.lib.Lawful) (hc : e.compact = true) (cfg : Cfg) (c : Call) (hz : c.Sized) :
    Safe e I (Noisy e I ∨ Refused cfg e.lib c)
      (fun o own => own = none ∧ Correct e.lib c o ∧ (Decided e.lib c o ∨ Noisy e I)) none (program cfg e c) := by
  cases c with
  | aeadEnc key nonce aad t pt outCap =>
    refine outP_safe (aeadEncrypt_safe he hl Or.inl hz.1 hz.2 (fun h => Or.inr (Or.inl h)) fun h => Or.inr (Or.inr h))
      fun a o h => ⟨h.1, ⟨a.1, h.2.1, by rw [h.2.2]⟩, Or.inl trivial⟩
  | aeadDec key nonce aad t ct out =>
    exact outP_safe (aeadDecrypt_safe he hl Or.inl hz (fun h => Or.inr (Or.inl h)) fun h => Or.inr (Or.inr h))
      fun a o h => ⟨h.1, ⟨a, h.2, rfl⟩, Or.inl trivial⟩
  | sign a sk pk msg =>
    cases a with
    | eddsa =>
      simp only [program, signP, hc, if_true]
      simp only [Call.Sized] at hz
      rw [if_neg (by omega)]
      exact ⟨rfl, rfl, Or.inl trivial⟩
    | es256 =>
      refine outP_safe (signP256_safe he Or.inl (fun h => Or.inr (Or.inl h)) fun rnd h => Or.inr (Or.inr ⟨rnd, h⟩))
        fun a o h => ⟨h.1, ?_, Or.inl trivial⟩
      obtain ⟨rnd, h1, h2⟩ := h.2
      exact ⟨rnd, a, h1, h2, rfl⟩
  | verify a pk msg sgn =>
    cases a with
    | eddsa =>
      simp only [program, verifyP, hc, if_true]
      simp only [Call.Sized] at hz
      rw [if_neg (by omega)]
      exact ⟨rfl, rfl, Or.inl trivial⟩
    | es256 =>
      refine outP_safe (verifyP256_safe he Or.inl fun h => Or.inr h) fun a o h => ⟨h.1, ?_, ?_⟩
      · cases a with
        | true => exact Or.inl ⟨rfl, h.2.1 rfl⟩
        | false => exact Or.inr rfl
      · rcases h.2.2 with h | h
        · exact Or.inl (by rw [h]; rfl)
        · exact Or.inr h
  | extract salt ikm =>
    refine outP_safe (hkdfExtract_safe he hl Or.inl fun h => Or.inr h) fun a o h => ⟨h.1, ?_, Or.inl trivial⟩
    simp only [Correct, Hkdf.extract, h.2, saltKey, List.length_eq_zero_iff]
  | expand prk info L =>
    exact outP_safe (hkdfExpand_safe he hl Or.inl cfg hz (fun h => Or.inr (Or.inl h)) (fun h => Or.inr (Or.inr (Or.inl h)))
      fun h => Or.inr (Or.inr (Or.inr h))) fun a o h => ⟨h.1, ⟨h.2.1, by rw [h.2.2]⟩, Or.inl trivial⟩
  | hkdf secret salt info L =>
    refine outP_safe (hkdfSha256_safe he hl Or.inl cfg hz (fun h => Or.inr (Or.inl h)) (fun h => Or.inr (Or.inr (Or.inl h)))
      (fun h => Or.inr (Or.inr (Or.inr (Or.inl h)))) fun h => Or.inr (Or.inr (Or.inr (Or.inr h))))
      fun a o h => ⟨h.1, ⟨h.2.1, ?_⟩, Or.inl trivial⟩
    rw [h.2.2]
    simp only [Hkdf.extract, saltKey, List.length_eq_zero_iff]
  | dh a junk sk pk =>
    cases a with
    | x25519 =>
      simp only [program, sharedSecretP, hc, if_true]
      simp only [Call.Sized] at hz
      rw [if_neg (by omega)]
      exact ⟨rfl, rfl, Or.inl trivial⟩
    | p256 =>
      refine outP_safe (sharedP256_safe he Or.inl (fun h => Or.inr (Or.inl h)) fun h => Or.inr (Or.inr h))
        fun a o h => ⟨h.1, ?_, Or.inl trivial⟩
      obtain ⟨q, h1, h2⟩ := h.2
      exact ⟨q, a, h1, h2, rfl⟩
  | keyGen a seed junk sk0 pk0 =>
    cases a with
    | x25519 =>
      simp only [program, keyGenP, hc, if_true, keyGenX25519P]
      refine outP_safe (Q := fun p o => o = none ∧ p = e.lib.x25519Gen junk) ?_
        fun a o h => ⟨h.1, by rw [h.2]; rfl, Or.inl trivial⟩
      refine (hashCall_safe Or.inl _).bind fun h o hh => ?_
      obtain ⟨rfl, rfl⟩ := hh
      split
      · rename_i hlen
        exact ⟨Or.inr hlen, by simp⟩
      · exact ⟨rfl, rfl⟩
    | p256 =>
      simp only [program, keyGenP]
      split
      · rename_i h
        exact ⟨Or.inr (Or.inl h), by simp⟩
      · refine outP_safe (keyGenP256_safe he Or.inl fun n h => Or.inr (Or.inr ⟨n, h⟩)) fun a o h => ⟨h.1, ?_, Or.inl trivial⟩
        obtain ⟨n, h1, h2, h3⟩ := h.2
        exact ⟨n, h2, by rw [h1, h3]⟩
  | hash m =>
    simp only [program, hashP]
    refine outP_safe (Q := fun b o => o = none ∧ (e.lib.sha256 m).length = 32 ∧ b = e.lib.sha256 m) ?_
      fun a o h => ⟨h.1, ⟨h.2.1, by rw [h.2.2]⟩, Or.inl trivial⟩
    refine (hashCall_safe Or.inl _).bind fun h o hh => ?_
    obtain ⟨rfl, rfl⟩ := hh
    split
    · rename_i hlen
      exact ⟨Or.inr hlen, by simp⟩
    · rename_i hlen
      exact ⟨rfl, Classical.byContradiction hlen, rfl⟩
end functions

/-! ### The functions without interruption, and the number of their library calls -/

theorem expandLoop_alone (e : Env) (kid : Nat) (info : Bytes) (L : Nat) : ∀ (n i : Nat) (t : Bytes) (first : Bool) (out : Bytes),
    (expandLoopP e kid info L n i t first out).alone = expandLoop e kid info L n i t first out
  | 0, i, t, first, out => rfl
  | n + 1, i, t, first, out => by
    unfold expandLoopP expandLoop
    rw [alone_bind, alone_tryPsa]
    congr 1
    funext t'
    exact expandLoop_alone e kid info L n _ _ _ _

theorem hkdfExtract_alone (e : Env) (salt ikm : Bytes) : (hkdfExtractP e salt ikm).alone = hkdfExtract e salt ikm := by
  simp only [hkdfExtractP, hkdfExtract, alone_bind, alone_tryPsa, alone_tryExpect, alone_pure]

theorem hkdfExpand_alone (cfg : Cfg) (e : Env) (prk info : Bytes) (L : Nat) :
    (hkdfExpandP cfg e prk info L).alone = hkdfExpand cfg e prk info L := by
  unfold hkdfExpandP hkdfExpand
  split
  · rfl
  · simp only [expandBodyP, expandBody, alone_bind, alone_tryPsa, alone_tryExpect, alone_pure, alone_check, expandLoop_alone]

theorem agreeStep_alone (e : Env) (kid : Nat) (junk : P256.Limbs) (pk : Bytes) (size : Nat) :
    (agreeStepP e kid junk pk size).alone = agreeStep e kid junk pk size := by
  unfold agreeStepP agreeStep
  cases P256.uncompressPoint junk pk 65 <;> rfl

theorem cleanup_alone (e : Env) (kid : Nat) : (cleanupP e kid).alone = cleanup e kid := by
  unfold cleanupP cleanup
  split
  · exact alone_tryExpect _
  · rfl

theorem outP_alone (f : α → Out) (p : Prog α) : (outP f p).alone = outM f p.alone := by
  unfold outP outM
  rw [alone_bind]
  rfl

theorem verifyCall_alone (e : Env) (kid : Nat) (msg sgn : Bytes) :
    (Prog.call (psaUse e kid (useVerify e msg sgn)) fun r => .done (.ok r.isSome)).alone = verifyStep e kid msg sgn := rfl

/-- C98: a call that is not interrupted is the call of C65. -/
theorem C98_alone (cfg : Cfg) (e : Env) (c : Call) : (program cfg e c).alone = exec cfg e c := by
  cases c with
  | aeadEnc key nonce aad t pt outCap =>
    simp only [program, exec, outP_alone, aeadEncryptP, aeadEncrypt, alone_bind, alone_tryPsa, alone_tryExpect, alone_pure, alone_done]
  | aeadDec key nonce aad t ct out =>
    simp only [program, exec, outP_alone, aeadDecryptP, aeadDecrypt, alone_bind, alone_tryPsa, alone_tryExpect, alone_pure]
  | sign a sk pk msg =>
    simp only [program, exec, outP_alone]
    congr 1
    unfold signP sign
    cases a
    · simp only [signP256P, signP256, alone_bind, alone_tryPsa, alone_tryExpect, alone_pure, alone_check]
    · dsimp only
      split <;> rfl
  | verify a pk msg sgn =>
    simp only [program, exec, outP_alone]
    congr 1
    unfold verifyP verify
    cases a
    · simp only [verifyP256P, verifyP256, alone_bind, alone_tryPsa, alone_tryExpect, alone_pure, verifyCall_alone]
    · dsimp only
      split <;> rfl
  | extract salt ikm => simp only [program, exec, outP_alone, hkdfExtract_alone]
  | expand prk info L => simp only [program, exec, outP_alone, hkdfExpand_alone]
  | hkdf secret salt info L =>
    simp only [program, exec, outP_alone, hkdfSha256P, hkdfSha256, alone_bind, hkdfExtract_alone, hkdfExpand_alone]
  | dh a junk sk pk =>
    simp only [program, exec, outP_alone]
    congr 1
    unfold sharedSecretP sharedSecret
    cases a with
    | x25519 =>
      dsimp only
      split <;> rfl
    | p256 => simp only [sharedP256P, sharedP256, alone_bind, alone_tryPsa, agreeStep_alone, cleanup_alone, alone_done]
  | keyGen a seed junk sk0 pk0 =>
    simp only [program, exec, outP_alone]
    congr 1
    unfold keyGenP keyGen
    cases a with
    | x25519 =>
      dsimp only
      split
      · unfold keyGenX25519P keyGenX25519
        rw [alone_bind, alone_tryExpect]
        congr 1
        funext h
        split <;> rfl
      · rfl
    | p256 =>
      dsimp only
      split
      · rfl
      · simp only [keyGenP256P, keyGenP256, alone_bind, alone_tryPsa, alone_tryExpect, alone_pure, alone_check]
  | hash m =>
    simp only [program, exec, outP_alone]
    congr 1
    unfold hashP hash
    rw [alone_bind, alone_tryExpect]
    congr 1
    funext h
    split <;> rfl

/-! ### The threads -/

theorem always_head {P : St → Prop} {cfg : Cfg} {e : Env} {w : World} : ∀ {l : List Event}, w.always P cfg e l → P w.st
  | [], h => h
  | _ :: _, h => h.1

/-- what a started call may still do, and what it owns -/
def JobOk (cfg : Cfg) (e : Env) (I : St → Prop) (x : Job × Option Slot) : Prop :=
  Safe e I (Noisy e I ∨ Refused cfg e.lib x.1.call)
    (fun o own => own = none ∧ Correct e.lib x.1.call o ∧ (Decided e.lib x.1.call o ∨ Noisy e I)) x.2 x.1.rest

/-- every key in the store is the application's or one call's -/
structure Inv (cfg : Cfg) (e : Env) (I : St → Prop) (w : World) : Prop where
  unique : Unique w.st
  owned : ∃ jo : List (Job × Option Slot), w.jobs = jo.map (·.1) ∧ w.st.slots.Perm (w.app ++ jo.filterMap (·.2)) ∧
    ∀ x ∈ jo, JobOk cfg e I x

theorem not_mem_ids {l : List Slot} {k : Slot} (h : k.id ∉ l.map (·.id)) :
    l.filter (fun x => !(x.id == k.id)) = l := by
  rw [List.filter_eq_self]
  intro x hx
  have : x.id ≠ k.id := fun hh => h (hh ▸ List.mem_map.2 ⟨x, hx, rfl⟩)
  simpa using this

theorem filter_one {A B : List Slot} {k : Slot} (h : ((A ++ k :: B).map (·.id)).Nodup) :
    (A ++ k :: B).filter (fun x => !(x.id == k.id)) = A ++ B := by
  rw [List.map_append, List.map_cons, List.nodup_append] at h
  obtain ⟨_, h2, h3⟩ := h
  rw [List.nodup_cons] at h2
  rw [List.filter_append, not_mem_ids (fun hh => h3 _ hh _ (List.mem_cons_self ..) rfl),
    List.filter_cons_of_neg (by simp), not_mem_ids h2.1]

theorem perm_filter {l A B : List Slot} {k : Slot} (hu : (l.map (·.id)).Nodup) (hp : l.Perm (A ++ k :: B)) :
    (l.filter (fun x => !(x.id == k.id))).Perm (A ++ B) := by
  rw [← filter_one ((hp.map _).nodup_iff.1 hu)]
  exact hp.filter _

theorem unique_filter {s : St} {p : Slot → Bool} (hu : Unique s) : ((s.slots.filter p).map (·.id)).Nodup :=
  List.Sublist.nodup ((List.filter_sublist).map _) hu

theorem Moves.unique {s s' : St} {own own' : Option Slot} (h : Moves s s' own own') (hu : Unique s) : Unique s' := by
  rcases h with ⟨_, h⟩ | ⟨_, k, _, h, hk⟩ | ⟨k, _, _, h⟩
  · unfold Unique; rw [h]; exact hu
  · unfold Unique; rw [h, List.map_cons, List.nodup_cons]; exact ⟨hk, hu⟩
  · unfold Unique; rw [h]; exact unique_filter hu

theorem Moves.perm {s s' : St} {own own' : Option Slot} (h : Moves s s' own own') (hu : Unique s) {A B : List Slot}
    (hp : s.slots.Perm (A ++ (own.toList ++ B))) : s'.slots.Perm (A ++ (own'.toList ++ B)) := by
  rcases h with ⟨rfl, h⟩ | ⟨rfl, k, rfl, h, _⟩ | ⟨k, rfl, rfl, h⟩
  · rw [h]; exact hp
  · rw [h]
    simp only [Option.toList_none, List.nil_append] at hp
    exact (hp.cons k).trans List.perm_middle.symm
  · rw [h]
    exact perm_filter hu hp

theorem next_ok {cfg : Cfg} {e : Env} {I : St → Prop} {j : Job} {own : Option Slot} {s : St} (h : JobOk cfg e I (j, own))
    (hI : I s) (hu : Unique s) (ho : ∀ k ∈ own, k ∈ s.slots) :
    ∃ own', Moves s (j.rest.next s).2 own own' ∧ JobOk cfg e I ({ j with rest := (j.rest.next s).1 }, own') := by
  unfold JobOk at h ⊢
  cases hr : j.rest with
  | done r =>
    rw [hr] at h
    exact ⟨own, Or.inl ⟨rfl, rfl⟩, h⟩
  | call x k =>
    rw [hr] at h
    exact h s hI hu ho

theorem filterMap_one (l : List (Job × Option Slot)) (j : Job) (o : Option Slot) (r : List (Job × Option Slot)) :
    (l ++ (j, o) :: r).filterMap (·.2) = l.filterMap (·.2) ++ (o.toList ++ r.filterMap (·.2)) := by
  rw [List.filterMap_append]
  cases o <;> simp

theorem inv_step {cfg : Cfg} {e : Env} {I : St → Prop} (he : e.Lawful) (hl : e.lib.Lawful) (hc : e.compact = true) {w : World}
    (h : Inv cfg e I w) (hI : I w.st) (v : Event) (hz : v.Sized) : Inv cfg e I (w.step cfg e v) := by
  obtain ⟨hu, jo, hj, hp, hs⟩ := h
  cases v with
  | start c =>
    refine ⟨hu, jo ++ [(⟨c, program cfg e c⟩, none)], by simp [World.step, hj], by simpa [World.step] using hp, ?_⟩
    intro x hx
    rcases List.mem_append.1 hx with hx | hx
    · exact hs x hx
    · rw [List.mem_singleton] at hx
      subst hx
      exact program_safe he hl hc cfg c hz
  | go i =>
    unfold World.step
    dsimp only
    cases hg : w.jobs[i]? with
    | none => exact ⟨hu, jo, hj, hp, hs⟩
    | some j =>
      dsimp only
      rw [hj, List.getElem?_map, Option.map_eq_some_iff] at hg
      obtain ⟨⟨j', own⟩, hg, rfl⟩ := hg
      obtain ⟨hi, hg⟩ := List.getElem?_eq_some_iff.1 hg
      have hsplit : jo = jo.take i ++ (j', own) :: jo.drop (i + 1) := by
        rw [← hg, List.getElem_cons_drop, List.take_append_drop]
      generalize hA : jo.take i = A at hsplit
      generalize hB : jo.drop (i + 1) = B at hsplit
      have hAl : A.length = i := by rw [← hA, List.length_take]; omega
      subst hsplit
      have hok := hs (j', own) (by simp)
      rw [filterMap_one, ← List.append_assoc] at hp
      have ho : ∀ k ∈ own, k ∈ w.st.slots := by
        intro k hk
        refine hp.mem_iff.2 ?_
        rw [Option.mem_def] at hk
        subst hk
        simp
      obtain ⟨own', hm, hok'⟩ := next_ok hok hI hu ho
      refine ⟨hm.unique hu, A ++ ({ j' with rest := (j'.rest.next w.st).1 }, own') :: B, ?_, ?_, ?_⟩
      · rw [hj]
        simp only [List.map_append, List.map_cons]
        rw [List.set_append_right _ _ (by simp [hAl])]
        simp [hAl]
      · rw [filterMap_one, ← List.append_assoc]
        exact hm.perm hu hp
      · intro x hx
        rcases List.mem_append.1 hx with hx | hx
        · exact hs x (List.mem_append.2 (Or.inl hx))
        · rcases List.mem_cons.1 hx with rfl | hx
          · exact hok'
          · exact hs x (List.mem_append.2 (Or.inr (List.mem_cons_of_mem _ hx)))
  | appImport k b =>
    unfold World.step
    dsimp only
    unfold psaImport
    split
    · rename_i id s heq
      split at heq
      · cases heq
      · simp only [addKey, Prod.mk.injEq, Option.some.injEq] at heq
        obtain ⟨rfl, rfl⟩ := heq
        refine ⟨?_, jo, hj, ?_, hs⟩
        · unfold Unique
          simp only [List.map_cons, List.nodup_cons]
          exact ⟨he.alloc_fresh _, hu⟩
        · exact hp.cons _
    · rename_i s heq
      split at heq
      · simp only [Prod.mk.injEq, true_and] at heq
        subst heq
        exact ⟨hu, jo, hj, hp, hs⟩
      · simp [addKey] at heq
  | appDestroy id =>
    unfold World.step
    dsimp only
    split
    · rename_i hany
      rw [List.any_eq_true] at hany
      obtain ⟨k, hk, hid⟩ := hany
      have hid : k.id = id := by simpa using hid
      subst hid
      unfold psaDestroy
      split
      · rename_i u s heq
        split at heq
        · cases heq
        · simp only [Prod.mk.injEq] at heq
          obtain ⟨_, rfl⟩ := heq
          refine ⟨unique_filter hu, jo, hj, ?_, hs⟩
          obtain ⟨A, B, hAB⟩ := List.append_of_mem hk
          dsimp only
          rw [hAB, List.append_assoc, List.cons_append] at hp
          have hn := (hp.map _).nodup_iff.1 hu
          have hn' : ((A ++ k :: B).map (·.id)).Nodup := by
            refine List.Sublist.nodup (List.Sublist.map _ ?_) hn
            exact List.Sublist.append (List.Sublist.refl _) ((List.sublist_append_left _ _).cons_cons _)
          rw [hAB, filter_one hn', List.append_assoc]
          exact perm_filter hu hp
      · rename_i s heq
        split at heq
        · simp only [Prod.mk.injEq, true_and] at heq
          subst heq
          exact ⟨hu, jo, hj, hp, hs⟩
        · simp at heq
    · exact ⟨hu, jo, hj, hp, hs⟩

theorem inv_after {cfg : Cfg} {e : Env} {I : St → Prop} (he : e.Lawful) (hl : e.lib.Lawful) (hc : e.compact = true) :
    ∀ {l : List Event} {w : World}, Inv cfg e I w → w.always I cfg e l → (∀ v ∈ l, v.Sized) → Inv cfg e I (w.after cfg e l)
  | [], _, h, _, _ => h
  | v :: l, w, h, ha, hz => inv_after he hl hc (l := l) (inv_step he hl hc h ha.1 v (hz v (List.mem_cons_self ..))) ha.2
      fun v' h' => hz v' (List.mem_cons_of_mem _ h')

theorem inv_fresh (cfg : Cfg) (e : Env) (I : St → Prop) {w : World} (h : w.Fresh) : Inv cfg e I w where
  unique := by unfold Unique; rw [h.keys]; exact h.unique
  owned := ⟨[], by simp [h.jobs], by simp [h.keys], by simp⟩

theorem always_true {cfg : Cfg} {e : Env} : ∀ {l : List Event} {w : World}, w.always (fun _ => True) cfg e l
  | [], _ => trivial
  | _ :: _, _ => ⟨trivial, always_true⟩

theorem returned_ok {cfg : Cfg} {e : Env} {I : St → Prop} {j : Job} {own : Option Slot} (h : JobOk cfg e I (j, own)) {r : R Out}
    (hr : j.returned r) : match r with
      | .ok o => own = none ∧ Correct e.lib j.call o ∧ (Decided e.lib j.call o ∨ Noisy e I)
      | .err _ => (Noisy e I ∨ Refused cfg e.lib j.call) ∧ (own.isSome = true → ∃ n, e.failDestroy n = true)
      | .ub => False := by
  unfold JobOk at h
  unfold Job.returned at hr
  cases hq : j.rest with
  | call x k => rw [hq] at hr; cases hr
  | done r' =>
    rw [hq] at hr h
    cases hr
    cases r <;> exact h

theorem C98_inv {e : Env} (he : e.Lawful) (hl : e.lib.Lawful) (hc : e.compact = true) {cfg : Cfg} {w : World} (hw : w.Fresh)
    {l : List Event} (hz : ∀ v ∈ l, v.Sized) {I : St → Prop} (hI : w.always I cfg e l) : Inv cfg e I (w.after cfg e l) :=
  inv_after he hl hc (inv_fresh cfg e I hw) hI hz

/-! ### C98 -/

/-- C98: the calls of the history are the ones that were started. -/
theorem C98_calls {cfg : Cfg} {e : Env} : ∀ (l : List Event) (w : World),
    (w.after cfg e l).jobs.map (·.call) = w.jobs.map (·.call) ++ l.filterMap Event.started
  | [], w => by simp [World.after]
  | v :: l, w => by
    rw [World.after, C98_calls l]
    cases v with
    | start c => simp [World.step, Event.started]
    | go i =>
      have : (w.step cfg e (.go i)).jobs.map (·.call) = w.jobs.map (·.call) := by
        unfold World.step
        dsimp only
        cases hg : w.jobs[i]? with
        | none => rfl
        | some j =>
          dsimp only
          rw [List.map_set]
          obtain ⟨hi, hg⟩ := List.getElem?_eq_some_iff.1 hg
          conv => rhs; rw [← List.set_getElem_self (as := List.map (·.call) w.jobs) (i := i) (by simpa using hi)]
          congr 1
          simp [hg]
      rw [this, List.filterMap_cons_none rfl]
    | appImport k b =>
      have : (w.step cfg e (.appImport k b)).jobs = w.jobs := by
        unfold World.step
        dsimp only
        split <;> rfl
      rw [this, List.filterMap_cons_none rfl]
    | appDestroy id =>
      have : (w.step cfg e (.appDestroy id)).jobs = w.jobs := by
        unfold World.step
        dsimp only
        split
        · split <;> rfl
        · rfl
      rw [this, List.filterMap_cons_none rfl]

/-- C98: whatever the other threads and the application do in between, a call that succeeds hands back what
the algorithm gives for its own arguments, and no call does anything undefined. -/
theorem C98_results {e : Env} (he : e.Lawful) (hl : e.lib.Lawful) (hc : e.compact = true) {cfg : Cfg} {w : World} (hw : w.Fresh)
    {l : List Event} (hz : ∀ v ∈ l, v.Sized) {j : Job} (hj : j ∈ (w.after cfg e l).jobs) {r : R Out} (hr : j.returned r) :
    r ≠ .ub ∧ ∀ o, r = .ok o → Correct e.lib j.call o := by
  obtain ⟨_, jo, hjo, _, hs⟩ := C98_inv he hl hc hw hz (cfg := cfg) (always_true (l := l))
  rw [hjo, List.mem_map] at hj
  obtain ⟨⟨j', own⟩, hx, rfl⟩ := hj
  have h := returned_ok (hs _ hx) hr
  cases r with
  | ok o => exact ⟨by simp, fun o' ho => by cases ho; exact h.2.1⟩
  | err er => exact ⟨by simp, fun o' ho => by cases ho⟩
  | ub => exact h.elim

/-- C98: other threads do not make a call fail either: if nothing fails spontaneously and there is always a
free key slot, a call returns an error only when the library does not carry it out for its arguments, and a
verification says exactly whether the signature is good. -/
theorem C98_no_interference {e : Env} (he : e.Lawful) (hq : e.Quiet) (hl : e.lib.Lawful) (hc : e.compact = true) {cfg : Cfg}
    {w : World} (hw : w.Fresh) {l : List Event} (hz : ∀ v ∈ l, v.Sized)
    (hroom : w.always (fun s => s.inited = true ∧ s.slots.length < e.cap) cfg e l)
    {j : Job} (hj : j ∈ (w.after cfg e l).jobs) {r : R Out} (hr : j.returned r) :
    (∃ o, r = .ok o ∧ Correct e.lib j.call o ∧ Decided e.lib j.call o) ∨
    (∃ er, r = .err er) ∧ Refused cfg e.lib j.call := by
  have hn : ¬ Noisy e (fun s => s.inited = true ∧ s.slots.length < e.cap) := by
    rintro (⟨n, h⟩ | ⟨n, h⟩ | ⟨s, ⟨h1, h2⟩, h⟩)
    · rw [hq.fail] at h; cases h
    · rw [hq.destroy] at h; cases h
    · rcases h with h | h
      · rw [h1] at h; cases h
      · omega
  obtain ⟨_, jo, hjo, _, hs⟩ := C98_inv he hl hc hw hz hroom
  rw [hjo, List.mem_map] at hj
  obtain ⟨⟨j', own⟩, hx, rfl⟩ := hj
  have h := returned_ok (hs _ hx) hr
  cases r with
  | ok o => exact Or.inl ⟨o, rfl, h.2.1, h.2.2.resolve_right hn⟩
  | err er => exact Or.inr ⟨⟨er, rfl⟩, h.1.resolve_left hn⟩
  | ub => exact h.elim

theorem filterMap_le {p : Job → Bool} : ∀ {jo : List (Job × Option Slot)}, (∀ x ∈ jo, x.2.isSome = true → p x.1 = true) →
    (jo.filterMap (·.2)).length ≤ (jo.map (·.1)).countP p
  | [], _ => by simp
  | (j, o) :: jo, h => by
    have ih := filterMap_le (p := p) (jo := jo) fun x hx => h x (List.mem_cons_of_mem _ hx)
    cases o with
    | none =>
      rw [List.filterMap_cons_none rfl, List.map_cons, List.countP_cons]
      omega
    | some k =>
      have := h (j, some k) (List.mem_cons_self ..) rfl
      rw [List.filterMap_cons_some (f := fun x : Job × Option Slot => x.2) (b := k) rfl, List.map_cons, List.countP_cons, List.length_cons]
      simp only at this
      rw [if_pos this]
      omega

/-- C98: at every moment the store holds the keys of the application, unchanged, and besides them at most one
key for every call that is running or has failed; none for the failed ones if every key can be destroyed. -/
theorem C98_keys {e : Env} (he : e.Lawful) (hl : e.lib.Lawful) (hc : e.compact = true) {cfg : Cfg} {w : World} (hw : w.Fresh)
    {l : List Event} (hz : ∀ v ∈ l, v.Sized) :
    ∃ others : List Slot, (w.after cfg e l).st.slots.Perm ((w.after cfg e l).app ++ others) ∧
      others.length ≤ (w.after cfg e l).jobs.countP (fun j => j.running || j.failed) ∧
      ((∀ n, e.failDestroy n = false) → others.length ≤ (w.after cfg e l).jobs.countP (·.running)) := by
  obtain ⟨_, jo, hjo, hp, hs⟩ := C98_inv he hl hc hw hz (cfg := cfg) (always_true (l := l))
  refine ⟨_, hp, ?_, fun hd => ?_⟩
  all_goals
    rw [hjo]
    refine filterMap_le fun x hx ho => ?_
    obtain ⟨j, own⟩ := x
    cases hr : j.rest.result with
    | none => simp [Job.running, hr]
    | some r =>
      have h := returned_ok (hs _ hx) (r := r) hr
      cases r with
      | ok o =>
        rw [h.1] at ho
        cases ho
      | ub => exact h.elim
      | err er =>
        first
        | (simp [Job.failed, hr]; done)
        | (obtain ⟨n, hn⟩ := h.2 ho
           rw [hd] at hn
           cases hn)

/-- C98: when every call has returned and every key could be destroyed, the store holds exactly the keys of
the application. -/
theorem C98_no_leak {e : Env} (he : e.Lawful) (hl : e.lib.Lawful) (hc : e.compact = true) {cfg : Cfg} {w : World} (hw : w.Fresh)
    {l : List Event} (hz : ∀ v ∈ l, v.Sized) (hd : ∀ n, e.failDestroy n = false) (hi : (w.after cfg e l).idle) :
    (w.after cfg e l).st.slots.Perm (w.after cfg e l).app := by
  obtain ⟨others, hp, _, h⟩ := C98_keys he hl hc hw hz (cfg := cfg)
  have h0 : (w.after cfg e l).jobs.countP (·.running) = 0 := by
    rw [List.countP_eq_zero]
    intro j hj
    obtain ⟨r, hr⟩ := hi j hj
    unfold Job.returned at hr
    simp [Job.running, hr]
  have := h hd
  rw [h0] at this
  rw [List.length_eq_zero_iff.1 (Nat.le_zero.1 this), List.append_nil] at hp
  exact hp

/-! Every call returns. -/

theorem ends_tryPsa_bind {e : Env} {kid : Nat} {er : Err} {x : Psa α} {f : α → Prog β} {m : Nat} (h : ∀ a, (f a).Ends m) :
    (tryPsaP e kid er x >>= f).Ends (m + 2) := by
  rw [Nat.add_comm]; exact Prog.Ends.bind h (ends_tryPsa e kid er x)

theorem ends_tryExpect_bind {x : Psa α} {f : α → Prog β} {m : Nat} (h : ∀ a, (f a).Ends m) :
    (tryExpectP x >>= f).Ends (m + 1) := by
  rw [Nat.add_comm]; exact Prog.Ends.bind h (ends_tryExpect x)

theorem ends_check_bind {e : Env} {kid : Nat} {er : Err} {b : Bool} {f : Unit → Prog β} {m : Nat} (h : ∀ a, (f a).Ends m) :
    (checkP e kid er b >>= f).Ends (m + 1) := by
  rw [Nat.add_comm]; exact Prog.Ends.bind h (ends_check e kid er b)

theorem ends_expandLoop (e : Env) (kid : Nat) (info : Bytes) (L : Nat) : ∀ (n i : Nat) (t : Bytes) (first : Bool) (out : Bytes),
    (expandLoopP e kid info L n i t first out).Ends (2 * n)
  | 0, i, t, first, out => ends_pure _ _
  | n + 1, i, t, first, out => by
    unfold expandLoopP
    exact ends_tryPsa_bind (m := 2 * n) fun t' => ends_expandLoop e kid info L n _ _ _ _

theorem ends_extract (e : Env) (salt ikm : Bytes) : (hkdfExtractP e salt ikm).Ends 7 := by
  unfold hkdfExtractP
  exact ends_tryPsa_bind fun _ => ends_tryPsa_bind fun _ => ends_tryPsa_bind fun _ => ends_tryExpect_bind fun _ => ends_pure _ 0

theorem ends_expand (cfg : Cfg) (e : Env) (prk info : Bytes) (L : Nat) : (hkdfExpandP cfg e prk info L).Ends 516 := by
  unfold hkdfExpandP
  split
  · exact ends_done _ _
  · rename_i h
    refine Prog.Ends.mono (n := 2 * ((L + 31) % 2 ^ 32 / 32) + 1 + 1 + 2 + 2) ?_ (by omega)
    unfold expandBodyP
    refine ends_tryPsa_bind fun _ => ends_tryPsa_bind fun _ => ends_check_bind fun _ => ?_
    exact Prog.Ends.bind (m := 1) (fun _ => ends_tryExpect_bind fun _ => ends_pure _ 0) (ends_expandLoop ..)

theorem ends_outP (f : α → Out) {p : Prog α} {n : Nat} (h : p.Ends n) (hn : n ≤ 523) : (outP f p).Ends 523 :=
  (Prog.Ends.bind (m := 0) (fun a => ends_pure _ _) h).mono (by omega)

theorem program_ends (cfg : Cfg) (e : Env) (c : Call) : (program cfg e c).Ends 523 := by
  cases c with
  | aeadEnc key nonce aad t pt outCap =>
    refine ends_outP _ (n := 7) ?_ (by omega)
    unfold aeadEncryptP
    refine ends_tryPsa_bind fun _ => ends_tryPsa_bind fun _ => ends_tryPsa_bind fun c => ?_
    exact Prog.Ends.bind (n := 0) (m := 1) (fun _ => ends_tryExpect_bind fun _ => ends_pure _ 0) (ends_done _ _)
  | aeadDec key nonce aad t ct out =>
    refine ends_outP _ (n := 7) ?_ (by omega)
    unfold aeadDecryptP
    exact ends_tryPsa_bind fun _ => ends_tryPsa_bind fun _ => ends_tryPsa_bind fun _ => ends_tryExpect_bind fun _ => ends_pure _ 0
  | sign a sk pk msg =>
    refine ends_outP _ (n := 8) ?_ (by omega)
    unfold signP
    cases a with
    | eddsa => dsimp only; split <;> exact ends_done _ _
    | es256 =>
      dsimp only
      unfold signP256P
      exact ends_tryPsa_bind fun _ => ends_tryPsa_bind fun _ => ends_tryPsa_bind fun _ => ends_check_bind fun _ =>
        ends_tryExpect_bind fun _ => ends_pure _ 0
  | verify a pk msg sgn =>
    refine ends_outP _ (n := 6) ?_ (by omega)
    unfold verifyP
    cases a with
    | eddsa => dsimp only; split <;> exact ends_done _ _
    | es256 =>
      dsimp only
      unfold verifyP256P
      refine ends_tryPsa_bind fun _ => ends_tryPsa_bind fun _ => ?_
      exact Prog.Ends.bind (n := 1) (m := 1) (fun _ => ends_tryExpect_bind fun _ => ends_pure _ 0) (fun r => ends_done _ _)
  | extract salt ikm => exact ends_outP _ (ends_extract e salt ikm) (by omega)
  | expand prk info L => exact ends_outP _ (ends_expand cfg e prk info L) (by omega)
  | hkdf secret salt info L =>
    refine ends_outP _ (n := 7 + 516) ?_ (by omega)
    unfold hkdfSha256P
    exact Prog.Ends.bind (fun prk => ends_expand cfg e prk info L) (ends_extract e salt secret)
  | dh a junk sk pk =>
    refine ends_outP _ (n := 6) ?_ (by omega)
    unfold sharedSecretP
    cases a with
    | x25519 => dsimp only; split <;> exact ends_done _ _
    | p256 =>
      dsimp only
      unfold sharedP256P
      refine ends_tryPsa_bind fun _ => ends_tryPsa_bind fun kid => ?_
      refine Prog.Ends.bind (n := 1) (m := 1) (fun r => Prog.Ends.bind (n := 1) (m := 0) (fun _ => ends_done _ _) ?_) ?_
      · unfold cleanupP
        split
        · exact ends_tryExpect _
        · exact ends_done _ _
      · unfold agreeStepP
        split
        · exact ends_done _ _
        · exact ends_done _ _
        · exact fun r => ends_done _ _
  | keyGen a seed junk sk0 pk0 =>
    refine ends_outP _ (n := 10) ?_ (by omega)
    unfold keyGenP
    cases a with
    | x25519 =>
      dsimp only
      split
      · unfold keyGenX25519P
        refine Prog.Ends.mono (n := 1) (ends_tryExpect_bind fun h => ?_) (by omega)
        split
        · exact ends_done _ _
        · exact ends_pure _ _
      · exact ends_done _ _
    | p256 =>
      dsimp only
      split
      · exact ends_done _ _
      · unfold keyGenP256P
        exact ends_tryPsa_bind fun _ => ends_tryPsa_bind fun _ => ends_tryPsa_bind fun _ => ends_tryPsa_bind fun _ =>
          ends_check_bind fun _ => ends_tryExpect_bind fun _ => ends_pure _ 0
  | hash m =>
    refine ends_outP _ (n := 1) ?_ (by omega)
    unfold hashP
    refine ends_tryExpect_bind fun h => ?_
    split
    · exact ends_done _ _
    · exact ends_pure _ _

theorem ends_next {p : Prog α} {n : Nat} (s : St) (h : p.Ends n) : (p.next s).1.Ends (n - 1) := by
  cases p with
  | done r => exact ends_done _ _
  | call x k =>
    cases n with
    | zero => exact h.elim
    | succ n => exact h _

/-- the jobs after an event, except when call `i` goes on, are as before -/
theorem step_other {cfg : Cfg} {e : Env} {w : World} {i : Nat} {j : Job} (hj : w.jobs[i]? = some j) {v : Event}
    (hv : v.isGo i = false) : (w.step cfg e v).jobs[i]? = some j := by
  cases v with
  | start c =>
    have := (List.getElem?_eq_some_iff.1 hj).1
    simp only [World.step]
    rw [List.getElem?_append_left this, hj]
  | go n =>
    unfold World.step
    dsimp only
    cases hg : w.jobs[n]? with
    | none => exact hj
    | some j' =>
      dsimp only
      have : n ≠ i := by simpa [Event.isGo] using hv
      rw [List.getElem?_set_ne this, hj]
  | appImport k b =>
    unfold World.step
    dsimp only
    split <;> exact hj
  | appDestroy id =>
    unfold World.step
    dsimp only
    split
    · split <;> exact hj
    · exact hj

theorem step_go {cfg : Cfg} {e : Env} {w : World} {i : Nat} {j : Job} (hj : w.jobs[i]? = some j) {v : Event}
    (hv : v.isGo i = true) : (w.step cfg e v).jobs[i]? = some { j with rest := (j.rest.next w.st).1 } := by
  cases v with
  | go n =>
    have : n = i := by simpa [Event.isGo] using hv
    subst this
    unfold World.step
    simp only [hj]
    rw [List.getElem?_set_self (List.getElem?_eq_some_iff.1 hj).1]
  | _ => cases hv

theorem finishes {cfg : Cfg} {e : Env} {i : Nat} : ∀ (l : List Event) (w : World) (j : Job) (n : Nat), w.jobs[i]? = some j →
    j.rest.Ends n → n ≤ l.countP (Event.isGo i) → ∃ j' r, (w.after cfg e l).jobs[i]? = some j' ∧ j'.call = j.call ∧ j'.returned r
  | [], w, j, n, hj, he, hn => by
    simp only [List.countP_nil, Nat.le_zero] at hn
    subst hn
    refine ⟨j, ?_⟩
    cases hr : j.rest with
    | done r => exact ⟨r, hj, rfl, by unfold Job.returned; rw [hr]; rfl⟩
    | call x k => rw [hr] at he; exact he.elim
  | v :: l, w, j, n, hj, he, hn => by
    rw [World.after]
    rw [List.countP_cons] at hn
    cases hv : v.isGo i with
    | false =>
      rw [hv] at hn
      exact finishes l _ j n (step_other hj hv) he (by simpa using hn)
    | true =>
      rw [hv, if_pos rfl] at hn
      exact finishes l _ { j with rest := (j.rest.next w.st).1 } (n - 1) (step_go hj hv) (ends_next _ he) (by omega)

/-- C98: no call waits for another: after at most 523 steps of its own it has returned, whatever else happens. -/
theorem C98_finishes {cfg : Cfg} {e : Env} (w : World) (c : Call) (l : List Event)
    (hl : 523 ≤ l.countP (Event.isGo w.jobs.length)) :
    ∃ j r, ((w.step cfg e (.start c)).after cfg e l).jobs[w.jobs.length]? = some j ∧ j.call = c ∧ j.returned r :=
  finishes l _ ⟨c, program cfg e c⟩ 523 (by simp [World.step]) (program_ends cfg e c) hl

/-! #### Examples -/

/-- three key slots; the calls `bad` fail, the destructions `badD` fail -/
def threadEnv (bad badD : List Nat) : Env := { toyEnv bad badD with cap := 3 }

theorem threadEnv_lawful (bad badD : List Nat) : (threadEnv bad badD).Lawful where
  alloc_ne := (toyEnv_lawful bad badD).alloc_ne
  alloc_fresh := (toyEnv_lawful bad badD).alloc_fresh

/-- the application has a key in the store -/
def threadWorld : World := { st := { slots := [⟨7, .hmac, [1]⟩], inited := true }, app := [⟨7, .hmac, [1]⟩] }

example : threadWorld.Fresh := ⟨rfl, rfl, by decide⟩

/-- a key derivation and a verification, step by step in turn, while the application replaces its key -/
def threadEvents : List Event :=
  [.start (.extract [9] [5]), .go 0, .go 0, .start (.verify .es256 [4] [5] (4 :: 5 :: List.replicate 62 0)), .go 1, .go 1,
   .appDestroy 7, .go 0, .go 1, .appImport .hmac [2], .go 0, .go 1]

example : ∀ v ∈ threadEvents, v.Sized := by
  simp [threadEvents, Event.Sized, Call.Sized]

/-- in between both threads have a key in the store, besides the application's -/
example : (threadWorld.after {} (threadEnv [] []) (threadEvents.take 6)).st.slots =
    [⟨16, .verifyKey 256, [4]⟩, ⟨8, .hmac, [9]⟩, ⟨7, .hmac, [1]⟩] := by decide +kernel

/-- what the calls return, and the keys in the end -/
def summary (w : World) : List (Option (R Out)) × List Slot × List Slot := (w.jobs.map (·.rest.result), w.st.slots, w.app)

example : summary (threadWorld.after {} (threadEnv [] []) threadEvents) =
    ([some (.ok (.bytes (9 :: 5 :: List.replicate 30 0))), some (.ok (.flag true))],
      [⟨25, .hmac, [2]⟩], [⟨25, .hmac, [2]⟩]) := by decide +kernel

/-- the free slot of C98_no_interference: with four slots -/
example : threadWorld.always (fun s => s.inited = true ∧ s.slots.length < (4 : Nat)) {} { threadEnv [] [] with cap := 4 } threadEvents := by
  simp only [threadEvents, World.always]
  decide +kernel

/-- a thread's MAC fails and so does the destruction of its key: it reports an error, its key is left over, the other
thread and the application are not affected -/
example : summary (threadWorld.after {} (threadEnv [5] [8]) threadEvents) =
    ([some (.err ext), some (.ok (.flag true))],
      [⟨25, .hmac, [2]⟩, ⟨8, .hmac, [9]⟩], [⟨25, .hmac, [2]⟩]) := by decide +kernel

/-- 523 steps of its own -/
example : 523 ≤ (List.replicate 523 (Event.go 0)).countP (Event.isGo threadWorld.jobs.length) := by decide +kernel

end Verif.Psa
