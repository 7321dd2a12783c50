import Verif.Spec.CryptoSpec
import Verif.Lemmas.PsaLemmas
import Verif.Model.Context
/-
C65: the crypto wrapper fails closed and leaves no keys behind (MBEDTLS configuration).
-/
namespace Verif.Psa
open Verif Verif.Edhoc

section functions
variable {e : Env} (he : e.Lawful)
include he

theorem aeadEncrypt_clean (hl : e.lib.Lawful) (key nonce aad : Bytes) (t : Nat) (pt : Bytes) (outCap : Nat)
    (ho : pt.length + t ≤ outCap) (s : St) :
    Clean e (fun o => e.lib.aeadEnc key nonce aad t pt = some o.1 ∧ o.2 = o.1.drop (o.1.length - t)) s
      (aeadEncrypt e key nonce aad t pt outCap s) := by
  unfold aeadEncrypt
  refine Clean.bind (Clean.init e s) fun _ s1 _ _ _ => ?_
  refine Clean.imported he fun k h1 h2 _ => ?_
  refine (Body.use _).closes fun c hc => ?_
  obtain ⟨_, hc⟩ := hc
  simp only [useAeadEnc, h1, if_true, h2] at hc
  obtain ⟨hc, _⟩ := fits_some hc
  have h3 := hl.enc_len _ _ _ _ _ _ hc
  have h4 : tagOf c t outCap = .ok (c.drop (c.length - t)) := if_neg (by omega)
  exact (Body.lift h4).closes fun tag ht => Closes.destroy_pure ⟨hc, ht⟩

theorem aeadDecrypt_clean (key nonce aad : Bytes) (t : Nat) (ct out : Bytes) (s : St) :
    Clean e (fun o => ∃ p, e.lib.aeadDec key nonce aad t ct = some p ∧ p.length ≤ out.length ∧
      o = p ++ out.drop p.length) s (aeadDecrypt e key nonce aad t ct out s) := by
  unfold aeadDecrypt
  refine Clean.bind (Clean.init e s) fun _ s1 _ _ _ => ?_
  refine Clean.imported he fun k h1 h2 _ => ?_
  refine (Body.use _).closes fun p hc => Closes.destroy_pure ?_
  obtain ⟨_, hc⟩ := hc
  simp only [useAeadDec, h1, if_true, h2] at hc
  obtain ⟨hc, hl⟩ := fits_some hc
  exact ⟨p, hc, hl, rfl⟩

theorem signP256_clean (sk msg : Bytes) (s : St) :
    Clean e (fun o => (∃ rnd, e.lib.sign rnd sk msg = some o) ∧ o.length = 64) s (signP256 e sk msg s) := by
  unfold signP256
  refine Clean.bind (Clean.init e s) fun _ s1 _ _ _ => ?_
  refine Clean.imported he fun k h1 h2 _ => ?_
  refine (Body.use _).closes fun p hc => ?_
  obtain ⟨rnd, hc⟩ := hc
  simp only [useSign, h1, h2] at hc
  refine (Body.check _).closes fun _ hl => Closes.destroy_pure ⟨⟨rnd, (fits_some hc).1⟩, by simpa using hl⟩

omit he in
theorem verifyStep_body (k : Slot) (msg sgn : Bytes) :
    Body e k (fun b => b = true → ∃ rnd, useVerify e msg sgn rnd k = some ()) (verifyStep e k.id msg sgn) := by
  intro K hK s hs
  unfold verifyStep psaUse
  rw [find_top hs]
  refine ⟨by simp [tick], id, hs, ?_⟩
  split
  · intro h; cases h
  · intro h
    simp only [Option.bind_some, Option.isSome_iff_exists] at h
    obtain ⟨_, h⟩ := h
    exact ⟨_, h⟩

theorem verifyP256_clean (pk msg sgn : Bytes) (s : St) :
    Clean e (fun b => b = true → e.lib.verify pk msg sgn = true) s (verifyP256 e pk msg sgn s) := by
  unfold verifyP256
  refine Clean.bind (Clean.init e s) fun _ s1 _ _ _ => ?_
  refine Clean.imported he fun k h1 h2 _ => ?_
  refine (verifyStep_body k msg sgn).closes fun b hb => Closes.destroy_pure fun h => ?_
  obtain ⟨_, hv⟩ := hb h
  simp only [useVerify, h1, h2] at hv
  split at hv
  · assumption
  · cases hv

theorem hkdfExtract_clean (salt ikm : Bytes) (s : St) :
    Clean e (fun o => o = e.lib.mac (saltKey salt) ikm) s (hkdfExtract e salt ikm s) := by
  unfold hkdfExtract
  refine Clean.bind (Clean.init e s) fun _ s1 _ _ _ => ?_
  refine Clean.imported he fun k h1 h2 _ => ?_
  refine (Body.use _).closes fun p hc => Closes.destroy_pure ?_
  obtain ⟨_, hc⟩ := hc
  simp only [useMac, h1, h2] at hc
  have := (fits_some hc).1
  cases this; rfl

omit he in
theorem expandLoop_body (C : Crypto) (hC : C.hmac = e.lib.mac) (k : Slot) (hk : k.kind = .hmac) (info : Bytes)
    (L : Nat) : ∀ (n i : Nat) (t : Bytes) (first : Bool) (out : Bytes),
    Body e k (fun o => o = Verif.expandLoop C k.bytes info L n i t first out)
      (expandLoop e k.id info L n i t first out)
  | 0, i, t, first, out => Body.pure rfl
  | n + 1, i, t, first, out => by
    unfold expandLoop
    refine (Body.use _).bind fun t' ht => ?_
    obtain ⟨_, ht⟩ := ht
    simp only [useMac, hk] at ht
    have ht' := (fits_some ht).1
    cases ht'
    refine (expandLoop_body C hC k hk info L n (i + 1) _ false _).mono fun o ho => ?_
    rw [ho, Verif.expandLoop, hC]

/-- a `Crypto` with the HMAC of the library -/
def macCrypto (l : Lib) : Crypto where
  hmac := l.mac
  hash := fun _ => List.replicate 32 0
  aeadEnc := fun _ _ _ _ _ => none
  aeadDec := fun _ _ _ _ _ => none

omit he in
theorem macCrypto_lawful {l : Lib} (hl : l.Lawful) : (macCrypto l).Lawful where
  hmac_len := hl.mac_len
  hash_len := fun _ => by simp [macCrypto]
  dec_enc := fun _ _ _ _ _ _ h => by cases h
  enc_len := fun _ _ _ _ _ _ h => by cases h
  dec_len := fun _ _ _ _ _ _ h => by cases h

theorem expandBody_clean (cfg : Cfg) (C : Crypto) (hC : C.hmac = e.lib.mac) (prk info : Bytes) (L n : Nat) (s : St) :
    Clean e (fun o => info.length ≤ cfg.infoMax ∧
      o = Verif.expandLoop C prk info L n 1 (List.replicate 32 0) true []) s (expandBody cfg e prk info L n s) := by
  unfold expandBody
  refine Clean.bind (Clean.init e s) fun _ s1 _ _ _ => ?_
  refine Clean.imported he fun k h1 h2 _ => ?_
  refine (Body.check _).closes fun _ hl => ?_
  refine (expandLoop_body C hC k h1 info L n 1 _ true []).closes fun o ho => Closes.destroy_pure ?_
  rw [h2] at ho
  exact ⟨by have := of_decide_eq_true hl; omega, ho⟩

theorem hkdfExpand_clean (hl : e.lib.Lawful) (cfg : Cfg) (prk info : Bytes) (L : Nat) (hL : L + 31 < 2 ^ 32) (s : St) :
    Clean e (fun o => L ≤ 255 * 32 ∧ o = Hkdf.expand e.lib.mac prk info L) s (hkdfExpand cfg e prk info L s) := by
  unfold hkdfExpand
  split
  · exact Clean.fail _
  · rename_i h
    refine (expandBody_clean he cfg (macCrypto e.lib) rfl prk info L _ s).mono fun o ho => ?_
    obtain ⟨hi, ho⟩ := ho
    have hL' : L ≤ 255 * 32 := by
      rw [Nat.mod_eq_of_lt hL] at h; omega
    refine ⟨hL', ?_⟩
    have h37 := C37_expand_rfc5869 (cfg := cfg) (macCrypto_lawful hl) prk info hL' hi
    unfold Verif.hkdfExpand at h37
    simp only at h37
    rw [if_neg (by exact h), if_neg (by omega)] at h37
    rw [ho]
    exact R.ok.inj h37

theorem hkdfSha256_clean (hl : e.lib.Lawful) (cfg : Cfg) (secret salt info : Bytes) (L : Nat) (hL : L + 31 < 2 ^ 32)
    (s : St) :
    Clean e (fun o => L ≤ 255 * 32 ∧ o = Hkdf.expand e.lib.mac (e.lib.mac (saltKey salt) secret) info L) s
      (hkdfSha256 cfg e secret salt info L s) := by
  unfold hkdfSha256
  refine Clean.bind (hkdfExtract_clean he salt secret s) fun prk s1 hp _ _ => ?_
  rw [← hp]
  exact hkdfExpand_clean he hl cfg prk info L hL s1

omit he in
theorem uncompress_ne_ub (junk : P256.Limbs) (x : Bytes) (n : Nat) : P256.uncompressPoint junk x n ≠ .ub := by
  unfold P256.uncompressPoint
  split
  · simp
  · split
    · simp
    · split
      · simp
      · simp only; split <;> simp

omit he in
theorem agreeStep_body (k : Slot) (hk : k.kind = .dhPair 0) (junk : P256.Limbs) (pk : Bytes) (size : Nat) :
    Body e k (fun r => ∀ b, r = some b → ∃ q, P256.uncompressPoint junk pk 65 = .ok q ∧
      e.lib.agree k.bytes q = some b) (agreeStep e k.id junk pk size) := by
  unfold agreeStep
  split
  · exact absurd (by assumption) (uncompress_ne_ub junk pk 65)
  · refine Body.pure ?_
    intro b hb; cases hb
  · rename_i q hq
    intro K hK s hs
    simp only [psaUse]
    refine ⟨by simp [tick], id, hs, ?_⟩
    intro b hb
    refine ⟨q, hq, ?_⟩
    rw [find_top hs] at hb
    split at hb
    · cases hb
    · simp only [Option.bind_some, useAgree, hk] at hb
      exact (fits_some hb).1

theorem sharedP256_clean (junk : P256.Limbs) (sk pk : Bytes) (s : St) :
    Clean e (fun o => ∃ q, P256.uncompressPoint junk pk 65 = .ok q ∧ e.lib.agree sk q = some o) s
      (sharedP256 e junk sk pk s) := by
  unfold sharedP256
  refine Clean.bind (Clean.init e s) fun _ s1 _ _ _ => ?_
  refine Clean.imported he fun k h1 h2 _ => ?_
  by_cases h0 : k.id = 0
  · intro K hK; exact absurd h0 hK.1
  · refine (agreeStep_body k h1 junk pk sk.length).closes fun r hr => ?_
    unfold cleanup
    rw [if_pos h0]
    refine Closes.destroy (by cases r <;> simp [resultOf]) fun b hb => ?_
    cases r with
    | none => cases hb
    | some b' =>
      cases hb
      have := hr _ rfl
      rwa [h2] at this

theorem keyGenP256_clean (s : St) :
    Clean e (fun o => ∃ n, s.clock ≤ n ∧ o.1 = e.lib.generate n ∧ (e.lib.pub o.1).length = 65 ∧
      o.2 = ((e.lib.pub o.1).drop 1).take 32) s (keyGenP256 e s) := by
  unfold keyGenP256
  refine Clean.bind (Clean.init e s) fun _ s1 _ _ hc1 => ?_
  refine Clean.generated he fun k h1 h2 => ?_
  refine (Body.use _).closes fun sk hsk => ?_
  obtain ⟨_, hsk⟩ := hsk
  refine (Body.use _).closes fun pub hpub => ?_
  obtain ⟨_, hpub⟩ := hpub
  refine (Body.check _).closes fun _ hl => Closes.destroy_pure ?_
  have a1 := (fits_some hsk).1
  have a2 := (fits_some hpub).1
  cases a1
  cases a2
  have hl' : (e.lib.pub k.bytes).length = 65 := by simpa using hl
  exact ⟨s1.clock, hc1, h2, hl', rfl⟩

omit he in
theorem hashCall_clean (m : Bytes) (s : St) :
    Clean e (fun h => h = e.lib.sha256 m) s (tryExpect (psaHash e m) s) := by
  unfold tryExpect psaHash
  split
  · rename_i a s' h
    split at h
    · simp at h
    · simp only [Prod.mk.injEq, Option.some.injEq] at h
      obtain ⟨rfl, rfl⟩ := h
      exact ⟨by simp [tick], id, rfl, rfl⟩
  · rename_i s' h
    simp only [Prod.mk.injEq] at h
    obtain ⟨_, rfl⟩ := h
    exact ⟨by simp [tick], id, Or.inl rfl⟩

omit he in
theorem hash_clean (m : Bytes) (s : St) :
    Clean e (fun h => (e.lib.sha256 m).length = 32 ∧ h = e.lib.sha256 m) s (hash e m s) := by
  unfold hash
  refine Clean.bind (hashCall_clean m s) fun h s1 hh _ _ => ?_
  split
  · exact Clean.fail _
  · rename_i hl
    refine Clean.pure ⟨?_, hh⟩
    rw [← hh]
    exact Classical.byContradiction hl

omit he in
theorem keyGenX25519_clean (seed : UInt32) (junk : Bytes) (s : St) :
    Clean e (fun o => o = e.lib.x25519Gen junk) s (keyGenX25519 e seed junk s) := by
  unfold keyGenX25519
  refine Clean.bind (hashCall_clean _ s) fun h s1 hh _ _ => ?_
  split
  · exact Clean.fail _
  · exact Clean.pure rfl

omit he in
theorem outM_clean {P : α → Prop} {Q : Out → Prop} {m : M St α} {f : α → Out} {s : St} (h : Clean e P s (m s))
    (hPQ : ∀ a, P a → Q (f a)) : Clean e Q s (outM f m s) :=
  Clean.bind h fun a _ ha _ _ => Clean.pure (hPQ a ha)

/-- every function of the wrapper -/
theorem exec_clean (hl : e.lib.Lawful) (hc : e.compact = true) (cfg : Cfg) (c : Call) (hz : c.Sized) (s : St) :
    Clean e (Correct e.lib c) s (exec cfg e c s) := by
  cases c with
  | aeadEnc key nonce aad t pt outCap =>
    exact outM_clean (aeadEncrypt_clean he hl key nonce aad t pt outCap hz.1 s) fun o ho => ⟨o.1, ho.1, by rw [ho.2]⟩
  | aeadDec key nonce aad t ct out =>
    refine outM_clean (aeadDecrypt_clean he key nonce aad t ct out s) fun o ho => ?_
    obtain ⟨p, h1, h2, h3⟩ := ho
    have h4 := hl.dec_len _ _ _ _ _ _ h1
    simp only [Call.Sized] at hz
    refine ⟨p, h1, ?_⟩
    rw [h3, List.drop_eq_nil_of_le (by omega), List.append_nil]
  | sign a sk pk msg =>
    cases a with
    | eddsa =>
      simp only [exec, sign, hc, if_true]
      simp only [Call.Sized] at hz
      rw [if_neg (by omega)]
      refine outM_clean (Clean.lift (by simp)) fun o ho => ?_
      cases ho; rfl
    | es256 =>
      refine outM_clean (signP256_clean he sk msg s) fun o ho => ?_
      obtain ⟨⟨rnd, h1⟩, h2⟩ := ho
      exact ⟨rnd, o, h1, h2, rfl⟩
  | verify a pk msg sgn =>
    cases a with
    | eddsa =>
      simp only [exec, verify, hc, if_true]
      simp only [Call.Sized] at hz
      rw [if_neg (by omega)]
      refine outM_clean (Clean.lift (by simp)) fun o ho => ?_
      cases ho; rfl
    | es256 =>
      refine outM_clean (verifyP256_clean he pk msg sgn s) fun o ho => ?_
      cases o with
      | true => exact Or.inl ⟨rfl, ho rfl⟩
      | false => exact Or.inr rfl
  | extract salt ikm =>
    refine outM_clean (hkdfExtract_clean he salt ikm s) fun o ho => ?_
    simp only [Correct, Hkdf.extract, ho, saltKey, List.length_eq_zero_iff]
  | expand prk info L =>
    refine outM_clean (hkdfExpand_clean he hl cfg prk info L hz s) fun o ho => ⟨ho.1, by rw [ho.2]⟩
  | hkdf secret salt info L =>
    refine outM_clean (hkdfSha256_clean he hl cfg secret salt info L hz s) fun o ho => ⟨ho.1, ?_⟩
    rw [ho.2]
    simp only [Hkdf.extract, saltKey, List.length_eq_zero_iff]
  | dh a junk sk pk =>
    cases a with
    | x25519 =>
      simp only [exec, sharedSecret, hc, if_true]
      simp only [Call.Sized] at hz
      rw [if_neg (by omega)]
      refine outM_clean (Clean.lift (by simp)) fun o ho => ?_
      cases ho; rfl
    | p256 =>
      refine outM_clean (sharedP256_clean he junk sk pk s) fun o ho => ?_
      obtain ⟨q, h1, h2⟩ := ho
      exact ⟨q, o, h1, h2, rfl⟩
  | keyGen a seed junk sk0 pk0 =>
    cases a with
    | x25519 =>
      simp only [exec, keyGen, hc, if_true]
      exact outM_clean (keyGenX25519_clean seed junk s) fun o ho => by rw [ho]; rfl
    | p256 =>
      simp only [exec, keyGen]
      split
      · exact outM_clean (P := fun _ => False) (Clean.fail _) fun _ h => h.elim
      · refine outM_clean (keyGenP256_clean he s) fun o ho => ?_
        obtain ⟨n, _, h1, h2, h3⟩ := ho
        exact ⟨n, by rw [← h1]; exact h2, by rw [h3, ← h1]⟩
  | hash m => exact outM_clean (hash_clean m s) fun o ho => ⟨ho.1, by rw [ho.2]⟩
end functions


/-! ### The functions when nothing fails spontaneously -/

/-- no call fails without a reason, and there is a key slot -/
structure Env.Quiet (e : Env) : Prop where
  fail : ∀ n, e.fail n = false
  destroy : ∀ n, e.failDestroy n = false

section quiet
variable {e : Env} (he : e.Lawful) (hq : e.Quiet)

/-- the state with key `k` in the store -/
def holding (k : Slot) (K : List Slot) (n : Nat) : St := { slots := k :: K, inited := true, clock := n }

include hq in
theorem init_run (s : St) : tryPsa e 0 ext (psaInit e) s = (.ok (), { tick s with inited := true }) := by
  simp [tryPsa, psaInit, hq.fail]

include hq in
theorem use_eq {k : Slot} {K : List Slot} {n : Nat} (f : Nat → Slot → Option α) :
    psaUse e k.id f (holding k K n) = (f n k, holding k K (n + 1)) := by
  have hf : find (holding k K n) k.id = some k := find_top rfl
  unfold psaUse
  rw [hf, hq.fail]
  rfl

include hq in
theorem use_run {k : Slot} {K : List Slot} {n : Nat} {er : Err} {f : Nat → Slot → Option α} {a : α}
    (h : f n k = some a) : tryPsa e k.id er (psaUse e k.id f) (holding k K n) = (.ok a, holding k K (n + 1)) := by
  unfold tryPsa
  rw [use_eq hq, h]

include hq in
theorem use_none {k : Slot} {K : List Slot} {n : Nat} {er : Err} {f : Nat → Slot → Option α}
    (h : f n k = none) : (tryPsa e k.id er (psaUse e k.id f) (holding k K n)).1 = .err er := by
  unfold tryPsa
  rw [use_eq hq, h]

include hq in
theorem destroy_run {k : Slot} {K : List Slot} (hK : Top k K) {n : Nat} {b : β} :
    ((tryExpect (psaDestroy e k.id) >>= fun _ => (Pure.pure b : M St β)) (holding k K n)).1 = .ok b := by
  rw [M.run_bind]
  unfold tryExpect
  rcases destroy_top e hK (s := holding k K n) rfl with h | ⟨_, h⟩
  · rw [h]; rfl
  · rw [hq.destroy] at h; cases h

theorem bind_err {m : M St α} {f : α → M St β} {s : St} {er : Err} (h : (m s).1 = .err er) :
    ((m >>= f) s).1 = .err er := by
  rw [M.run_bind]
  rcases hm : m s with ⟨r, s1⟩
  rw [hm] at h
  simp only at h
  rw [h]

include he hq in
/-- initialisation, import and the rest of a function -/
theorem session {s : St} (hc : s.slots.length < e.cap) (kd : Kind) (b : Bytes) (f : Nat → M St α) (r : R α)
    (hf : ∀ k K n, Top k K → k.kind = kd → k.bytes = b → n = s.clock + 2 → (f k.id (holding k K n)).1 = r) :
    ((tryPsa e 0 ext (psaInit e) >>= fun _ => tryPsa e 0 ext (psaImport e kd b) >>= f) s).1 =
      if e.lib.keyOk kd b then r else .err ext := by
  rw [M.bind_ok (init_run hq s)]
  cases hk : e.lib.keyOk kd b with
  | false =>
    refine bind_err ?_
    simp [tryPsa, psaImport, hk]
  | true =>
    have h1 : tryPsa e 0 ext (psaImport e kd b) { tick s with inited := true } =
        (.ok (e.alloc (s.slots.map (·.id))), holding ⟨e.alloc (s.slots.map (·.id)), kd, b⟩ s.slots (s.clock + 2)) := by
      have hf : full e { tick s with inited := true } = false := by
        simp only [full, hq.fail, Bool.false_or, Bool.not_true, tick]
        exact decide_eq_false (by omega)
      unfold tryPsa psaImport
      rw [hf, hk]
      rfl
    rw [M.bind_ok h1]
    exact hf ⟨_, kd, b⟩ s.slots _ ⟨he.alloc_ne _, he.alloc_fresh _⟩ rfl rfl rfl

include he hq in
/-- AEAD encryption is the library's, as the models of OSCORE and EDHOC assume it -/
theorem aeadEncrypt_refines (hl : e.lib.Lawful) {s : St} (hc : s.slots.length < e.cap) (key nonce aad : Bytes) (t : Nat)
    (pt : Bytes) (outCap : Nat) (ho : pt.length + t ≤ outCap) (h32 : pt.length + t < 2 ^ 32) :
    (aeadEncrypt e key nonce aad t pt outCap s).1 =
      (ofLib ((cryptoOf e.lib).aeadEnc key nonce aad t pt) >>= fun c => .ok (c, c.drop (c.length - t))) := by
  unfold aeadEncrypt
  rw [session he hq hc _ _ _
    (ofLib (e.lib.aeadEnc key nonce aad t pt) >>= fun c => .ok (c, c.drop (c.length - t))) ?_]
  · simp only [cryptoOf]
    split <;> rfl
  · intro k K n hK h1 h2 _
    cases hx : e.lib.aeadEnc key nonce aad t pt with
    | none => exact bind_err (use_none hq (by simp [useAeadEnc, h1, h2, hx, fits]))
    | some c =>
      have h3 := hl.enc_len _ _ _ _ _ _ hx
      rw [M.bind_ok (use_run hq (a := c) (by
        simp [useAeadEnc, h1, h2, hx, fits, Nat.mod_eq_of_lt h32, h3]))]
      rw [show tagOf c t outCap = .ok (c.drop (c.length - t)) from if_neg (by omega), M.bind_lift_ok]
      exact destroy_run hq hK

include he hq in
theorem aeadDecrypt_refines (hl : e.lib.Lawful) {s : St} (hc : s.slots.length < e.cap) (key nonce aad : Bytes) (t : Nat)
    (ct out : Bytes) (ho : ct.length = out.length + t) :
    (aeadDecrypt e key nonce aad t ct out s).1 = ofLib ((cryptoOf e.lib).aeadDec key nonce aad t ct) := by
  unfold aeadDecrypt
  rw [session he hq hc _ _ _ (ofLib (e.lib.aeadDec key nonce aad t ct)) ?_]
  · simp only [cryptoOf]
    split <;> rfl
  · intro k K n hK h1 h2 _
    cases hx : e.lib.aeadDec key nonce aad t ct with
    | none => exact bind_err (use_none hq (by simp [useAeadDec, h1, h2, hx, fits]))
    | some p =>
      have h3 := hl.dec_len _ _ _ _ _ _ hx
      rw [M.bind_ok (use_run hq (a := p) (by
        simp only [useAeadDec, h1, h2, hx, fits, Option.bind_some, if_true]
        exact if_pos (by omega)))]
      rw [List.drop_eq_nil_of_le (as := out) (by omega), List.append_nil]
      exact destroy_run hq hK

include he hq in
theorem hkdfExtract_refines (hl : e.lib.Lawful) {s : St} (hc : s.slots.length < e.cap) (salt ikm : Bytes)
    (hk : e.lib.keyOk .hmac (saltKey salt) = true) :
    (hkdfExtract e salt ikm s).1 = .ok (Verif.hkdfExtract (cryptoOf e.lib) salt ikm) := by
  unfold hkdfExtract
  rw [session he hq hc _ _ _ (.ok (Verif.hkdfExtract (cryptoOf e.lib) salt ikm)) ?_, hk]
  · rfl
  · intro k K n hK h1 h2 _
    rw [M.bind_ok (use_run hq (a := e.lib.mac (saltKey salt) ikm) (by simp [useMac, h1, h2, fits, hl.mac_len]))]
    exact destroy_run hq hK

include hq in
theorem expandLoop_run (hl : e.lib.Lawful) {k : Slot} (hk : k.kind = .hmac) {K : List Slot} (info : Bytes) (L : Nat) :
    ∀ (m i : Nat) (t : Bytes) (first : Bool) (out : Bytes) (n : Nat), ∃ n',
      expandLoop e k.id info L m i t first out (holding k K n) =
        (.ok (Verif.expandLoop (cryptoOf e.lib) k.bytes info L m i t first out), holding k K n')
  | 0, i, t, first, out, n => ⟨n, rfl⟩
  | m + 1, i, t, first, out, n => by
    unfold expandLoop
    rw [M.bind_ok (use_run hq (a := e.lib.mac k.bytes ((if first then [] else t) ++ info ++ [byte i])) (by
      simp [useMac, hk, fits, hl.mac_len]))]
    obtain ⟨n', h⟩ := expandLoop_run hl hk (K := K) info L m (i + 1)
      (e.lib.mac k.bytes ((if first then [] else t) ++ info ++ [byte i])) false
      (out ++ (if L < i * 32 then (e.lib.mac k.bytes ((if first then [] else t) ++ info ++ [byte i])).take (L % 32)
        else e.lib.mac k.bytes ((if first then [] else t) ++ info ++ [byte i]))) (n + 1)
    exact ⟨n', h⟩

include he hq in
theorem hkdfExpand_refines (hl : e.lib.Lawful) (cfg : Cfg) {s : St} (hc : s.slots.length < e.cap) (prk info : Bytes)
    (L : Nat) (hk : e.lib.keyOk .hmac prk = true) :
    (hkdfExpand cfg e prk info L s).1 = Verif.hkdfExpand cfg (cryptoOf e.lib) prk info L := by
  unfold hkdfExpand Verif.hkdfExpand
  simp only
  split
  · rfl
  · unfold expandBody
    rw [session he hq hc _ _ _ (if 32 + info.length + 1 > cfg.infoMax + 32 + 1 then .err .unexpected_result_from_ext_lib
      else .ok (Verif.expandLoop (cryptoOf e.lib) prk info L ((L + 31) % 2 ^ 32 / 32) 1 (List.replicate 32 0) true [])) ?_, hk]
    · rfl
    · intro k K n hK h1 h2 _
      by_cases hi : 32 + info.length + 1 > cfg.infoMax + 32 + 1
      · rw [if_pos hi]
        refine bind_err ?_
        rw [decide_eq_false (by omega)]
        simp [tryPsa, check]
      · rw [if_neg hi, decide_eq_true (by omega)]
        have h3 : tryPsa e k.id ext (check true) (holding k K n) = (.ok (), holding k K n) := rfl
        rw [M.bind_ok h3]
        obtain ⟨n', h4⟩ := expandLoop_run hq hl h1 (K := K) info L ((L + 31) % 2 ^ 32 / 32) 1 (List.replicate 32 0) true [] n
        rw [M.bind_ok h4, h2]
        exact destroy_run hq hK

include hq in
theorem hash_refines {s : St} (hi : e.hashNeedsInit = false ∨ s.inited = true) (m : Bytes)
    (hl : (e.lib.sha256 m).length = 32) : (hash e m s).1 = .ok ((cryptoOf e.lib).hash m) := by
  have h1 : tryExpect (psaHash e m) s = (.ok (e.lib.sha256 m), tick s) := by
    unfold tryExpect psaHash
    rcases hi with hi | hi <;> simp [hq.fail, hi]
  unfold hash
  rw [M.bind_ok h1, if_neg (by simp [hl])]
  rfl

include he hq in
theorem sign_refines (hcm : e.compact = true) {s : St} (hc : s.slots.length < e.cap) (x509 : Bytes → Option X509)
    (junk : P256.Limbs) (a : SignAlg) (sk pk msg : Bytes)
    (h64 : ∀ r m sg, e.lib.sign r sk m = some sg → sg.length = 64) :
    (sign e a sk pk msg s).1 = signMsg (ecryptoOf e.lib x509 (s.clock + 2) junk) a sk pk msg := by
  cases a with
  | eddsa =>
    simp only [sign, hcm, if_true, signMsg, true_and]
    rfl
  | es256 =>
    simp only [sign, signMsg, ecryptoOf]
    rw [if_neg (by simp)]
    unfold signP256
    rw [session he hq hc _ _ _ (ofLib (full64 (e.lib.sign (s.clock + 2) sk msg))) ?_]
    · split
      · cases full64 (e.lib.sign (s.clock + 2) sk msg) <;> rfl
      · rfl
    · intro k K n hK h1 h2 hn
      cases hx : e.lib.sign (s.clock + 2) sk msg with
      | none => exact bind_err (use_none hq (by simp [useSign, h1, h2, hx, fits, hn]))
      | some sg =>
        have h3 := h64 _ _ _ hx
        rw [M.bind_ok (use_run hq (a := sg) (by simp [useSign, h1, h2, hx, fits, hn, h3]))]
        have h4 : (sg.length == 64) = true := by simp [h3]
        rw [h4]
        have h5 : tryPsa e k.id .sign_failed (check true) (holding k K (n + 1)) = (.ok (), holding k K (n + 1)) := rfl
        rw [M.bind_ok h5, destroy_run hq hK]
        simp [full64, h3, ofLib]

include he hq in
theorem verify_refines (hcm : e.compact = true) {s : St} (hc : s.slots.length < e.cap) (x509 : Bytes → Option X509)
    (rnd : Nat) (junk : P256.Limbs) (a : SignAlg) (pk msg sgn : Bytes) :
    (verify e a pk msg sgn s).1 = verifySig (ecryptoOf e.lib x509 rnd junk) a pk msg sgn := by
  cases a with
  | eddsa =>
    simp only [verify, hcm, if_true, verifySig, true_and, ecryptoOf, M.run_lift]
  | es256 =>
    simp only [verify, verifySig, ecryptoOf]
    unfold verifyP256
    rw [session he hq hc _ _ _ (.ok (e.lib.verify pk msg sgn)) ?_]
    · cases e.lib.keyOk (.verifyKey 256) pk <;> simp
    · intro k K n hK h1 h2 hn
      have h3 : verifyStep e k.id msg sgn (holding k K n) = (.ok (e.lib.verify pk msg sgn), holding k K (n + 1)) := by
        unfold verifyStep
        rw [use_eq hq]
        simp only [useVerify, h1, h2]
        cases e.lib.verify pk msg sgn <;> rfl
      rw [M.bind_ok h3]
      exact destroy_run hq hK

include he hq in
theorem sharedSecret_refines (hcm : e.compact = true) {s : St} (hc : s.slots.length < e.cap)
    (x509 : Bytes → Option X509) (rnd : Nat) (junk : P256.Limbs) (a : EcdhAlg) (sk pk : Bytes) :
    (sharedSecret e junk a sk pk s).1 = Edhoc.sharedSecret (ecryptoOf e.lib x509 rnd junk) a sk pk := by
  cases a with
  | x25519 =>
    simp only [sharedSecret, hcm, if_true, Edhoc.sharedSecret, true_and, ecryptoOf, M.run_lift]
  | p256 =>
    simp only [sharedSecret, Edhoc.sharedSecret, ecryptoOf]
    rw [if_neg (by simp)]
    unfold sharedP256
    cases hu : P256.uncompressPoint junk pk 65 with
    | ub => exact absurd hu (uncompress_ne_ub _ _ _)
    | err er =>
      rw [session he hq hc _ _ _ (.err ext) ?_]
      · simp
      · intro k K n hK h1 h2 _
        have h3 : agreeStep e k.id junk pk sk.length (holding k K n) = (.ok none, holding k K n) := by
          unfold agreeStep; rw [hu]; rfl
        rw [M.bind_ok h3]
        unfold cleanup
        rw [if_pos hK.1, M.run_bind]
        unfold tryExpect
        rcases destroy_top e hK (s := holding k K n) rfl with h | ⟨_, h⟩
        · rw [h]; rfl
        · rw [hq.destroy] at h; cases h
    | ok q =>
      rw [session he hq hc _ _ _ (ofLib (fits sk.length (e.lib.agree sk q))) ?_]
      · simp only
        split
        · cases fits sk.length (e.lib.agree sk q) <;> rfl
        · rfl
      · intro k K n hK h1 h2 _
        have h3 : agreeStep e k.id junk pk sk.length (holding k K n) =
            (.ok (fits sk.length (e.lib.agree sk q)), holding k K (n + 1)) := by
          unfold agreeStep
          rw [hu]
          simp only [use_eq hq, useAgree, h1, h2]
        rw [M.bind_ok h3]
        unfold cleanup
        rw [if_pos hK.1, M.run_bind]
        unfold tryExpect
        rcases destroy_top e hK (s := holding k K (n + 1)) rfl with h | ⟨_, h⟩
        · rw [h]; cases fits sk.length (e.lib.agree sk q) <;> rfl
        · rw [hq.destroy] at h; cases h
end quiet

/-! ### C65 -/

/-- C65: a call that reports success has computed exactly what it promises – whatever the library does
otherwise – and the key it imported is no longer in the key store. -/
theorem C65_fail_closed {e : Env} (he : e.Lawful) (hl : e.lib.Lawful) (hc : e.compact = true) {cfg : Cfg}
    {c : Call} (hz : c.Sized) {s s' : St} {o : Out} (h : exec cfg e c s = (.ok o, s')) :
    Correct e.lib c o ∧ s'.slots = s.slots := by
  have h1 := exec_clean he hl hc cfg c hz s
  rw [h] at h1
  exact ⟨h1.2.2.2, h1.2.2.1⟩

/-- C65: no call, whichever of its steps fail, leaves a key in the key store, unless `psa_destroy_key`
itself fails; and no call has undefined behaviour. -/
theorem C65_no_leak {e : Env} (he : e.Lawful) (hl : e.lib.Lawful) (hc : e.compact = true) (cfg : Cfg) (c : Call)
    (hz : c.Sized) (s : St) :
    (exec cfg e c s).1 ≠ .ub ∧
    ((exec cfg e c s).2.slots = s.slots ∨
      ((∃ k, (exec cfg e c s).2.slots = k :: s.slots) ∧ DestroyFailed e s (exec cfg e c s).2 ∧
        ∃ er, (exec cfg e c s).1 = .err er)) := by
  have h1 := exec_clean he hl hc cfg c hz s
  unfold Clean at h1
  obtain ⟨_, _, h1⟩ := h1
  cases hr : (exec cfg e c s).1 with
  | ok a => rw [hr] at h1; exact ⟨by simp, Or.inl h1.1⟩
  | ub => rw [hr] at h1; exact h1.elim
  | err er =>
    rw [hr] at h1
    refine ⟨by simp, ?_⟩
    rcases h1 with h1 | ⟨h1, h2⟩
    · exact Or.inl h1
    · exact Or.inr ⟨h1, h2, er, rfl⟩

/-- C65: after any history of calls, with any failures of the library except of `psa_destroy_key`, the
key store is what it was: slots never run out. -/
theorem C65_history {e : Env} (he : e.Lawful) (hl : e.lib.Lawful) (hc : e.compact = true)
    (hd : ∀ n, e.failDestroy n = false) (cfg : Cfg) : ∀ (l : List Call) (s : St), (∀ c ∈ l, c.Sized) →
    (history cfg e l s).slots = s.slots
  | [], _, _ => rfl
  | c :: l, s, hz => by
    have h1 := (C65_no_leak he hl hc cfg c (hz c (List.mem_cons_self ..)) s).2
    have h2 : (exec cfg e c s).2.slots = s.slots := by
      rcases h1 with h1 | ⟨_, ⟨n, _, _, h⟩, _⟩
      · exact h1
      · rw [hd] at h; cases h
    rw [history, C65_history he hl hc hd cfg l _ fun c' h' => hz c' (List.mem_cons_of_mem _ h'), h2]

/-- C65: `psa_destroy_key` failing costs at most one key per failure. -/
theorem C65_history_leak {e : Env} (he : e.Lawful) (hl : e.lib.Lawful) (hc : e.compact = true) (cfg : Cfg) :
    ∀ (l : List Call) (s : St), (∀ c ∈ l, c.Sized) →
    ∃ ns : List Nat, ns.Nodup ∧ (∀ n ∈ ns, e.failDestroy n = true ∧ s.clock ≤ n ∧ n < (history cfg e l s).clock) ∧
      (history cfg e l s).slots.length = s.slots.length + ns.length ∧ s.clock ≤ (history cfg e l s).clock
  | [], s, _ => ⟨[], by simp, by simp, rfl, Nat.le_refl _⟩
  | c :: l, s, hz => by
    have h1 := (C65_no_leak he hl hc cfg c (hz c (List.mem_cons_self ..)) s).2
    have hmono : s.clock ≤ (exec cfg e c s).2.clock := (exec_clean he hl hc cfg c (hz c (List.mem_cons_self ..)) s).1
    obtain ⟨ns, hn, ha, hlen, hm⟩ := C65_history_leak he hl hc cfg l (exec cfg e c s).2 fun c' h' =>
      hz c' (List.mem_cons_of_mem _ h')
    rw [history]
    rcases h1 with h1 | ⟨⟨k, h1⟩, ⟨n, h2, h3, h4⟩, _⟩
    · refine ⟨ns, hn, fun n hn' => ?_, by rw [hlen, h1], by omega⟩
      obtain ⟨a1, a2, a3⟩ := ha n hn'
      exact ⟨a1, by omega, a3⟩
    · refine ⟨n :: ns, List.nodup_cons.2 ⟨fun h => ?_, hn⟩, fun n' hn' => ?_, ?_, by omega⟩
      · have := (ha n h).2.1
        omega
      · rcases List.mem_cons.1 hn' with rfl | hn'
        · exact ⟨h4, h2, by omega⟩
        · obtain ⟨a1, a2, a3⟩ := ha n' hn'
          exact ⟨a1, by omega, a3⟩
      · rw [hlen, h1, List.length_cons, List.length_cons]; omega

/-- C65: when nothing fails spontaneously and a slot is free the functions are, input for input, the
primitives the models of OSCORE and EDHOC are parameterised with (so their theorems hold of this wrapper). -/
theorem C65_refines {e : Env} (he : e.Lawful) (hq : e.Quiet) (hl : e.lib.Lawful) (hc : e.compact = true) {s : St}
    (hs : s.slots.length < e.cap) :
    (∀ key nonce aad t pt outCap, (Call.aeadEnc key nonce aad t pt outCap).Sized →
      (aeadEncrypt e key nonce aad t pt outCap s).1 =
        (ofLib ((cryptoOf e.lib).aeadEnc key nonce aad t pt) >>= fun c => .ok (c, c.drop (c.length - t)))) ∧
    (∀ key nonce aad t ct out, (Call.aeadDec key nonce aad t ct out).Sized →
      (aeadDecrypt e key nonce aad t ct out s).1 = ofLib ((cryptoOf e.lib).aeadDec key nonce aad t ct)) ∧
    (∀ salt ikm, e.lib.keyOk .hmac (saltKey salt) = true →
      (hkdfExtract e salt ikm s).1 = .ok (Verif.hkdfExtract (cryptoOf e.lib) salt ikm)) ∧
    (∀ cfg prk info L, e.lib.keyOk .hmac prk = true →
      (hkdfExpand cfg e prk info L s).1 = Verif.hkdfExpand cfg (cryptoOf e.lib) prk info L) ∧
    (∀ m, e.hashNeedsInit = false ∨ s.inited = true → (e.lib.sha256 m).length = 32 →
      (hash e m s).1 = .ok ((cryptoOf e.lib).hash m)) ∧
    (∀ x509 junk a sk pk m,
      (∀ r m sg, e.lib.sign r sk m = some sg → sg.length = 64) →
      (sign e a sk pk m s).1 = signMsg (ecryptoOf e.lib x509 (s.clock + 2) junk) a sk pk m) ∧
    (∀ x509 rnd junk a pk m sg,
      (verify e a pk m sg s).1 = verifySig (ecryptoOf e.lib x509 rnd junk) a pk m sg) ∧
    (∀ x509 rnd junk a sk pk,
      (sharedSecret e junk a sk pk s).1 = Edhoc.sharedSecret (ecryptoOf e.lib x509 rnd junk) a sk pk) :=
  ⟨fun key nonce aad t pt outCap hz => aeadEncrypt_refines he hq hl hs key nonce aad t pt outCap hz.1 hz.2,
   fun key nonce aad t ct out hz => aeadDecrypt_refines he hq hl hs key nonce aad t ct out hz,
   fun salt ikm hk => hkdfExtract_refines he hq hl hs salt ikm hk,
   fun cfg prk info L hk => hkdfExpand_refines he hq hl cfg hs prk info L hk,
   fun m hi hm => hash_refines hq hi m hm,
   fun x509 junk a sk pk m h64 => sign_refines he hq hc hs x509 junk a sk pk m h64,
   fun x509 rnd junk a pk m sg => verify_refines he hq hc hs x509 rnd junk a pk m sg,
   fun x509 rnd junk a sk pk => sharedSecret_refines he hq hc hs x509 rnd junk a sk pk⟩

/-- C65: when nothing fails spontaneously and a slot is free, key generation succeeds for both curves: P-256 gives the
library's new secret key and the x-coordinate of its public key; X25519 gives the key pair of compact25519 (for the seed see
C56). -/
theorem C65_keygen_succeeds {e : Env} (he : e.Lawful) (hq : e.Quiet) (hc : e.compact = true) {s : St} (hs : s.slots.length < e.cap)
    (seed : UInt32) (junk sk0 pk0 : Bytes) :
    (32 ≤ pk0.length → (e.lib.generate (s.clock + 1)).length = 32 → (e.lib.pub (e.lib.generate (s.clock + 1))).length = 65 →
      (keyGen e .p256 seed junk sk0 pk0 s).1 =
        .ok (e.lib.generate (s.clock + 1), ((e.lib.pub (e.lib.generate (s.clock + 1))).drop 1).take 32)) ∧
    (e.hashNeedsInit = false ∨ s.inited = true → (∀ m, (e.lib.sha256 m).length = 32) →
      (keyGen e .x25519 seed junk sk0 pk0 s).1 = .ok (e.lib.x25519Gen junk)) := by
  constructor
  · intro hp hg hpub
    unfold keyGen
    dsimp only
    rw [if_neg (by omega)]
    unfold keyGenP256
    rw [M.bind_ok (init_run hq s)]
    generalize hb : e.lib.generate (s.clock + 1) = b at hg hpub ⊢
    have h1 : tryPsa e 0 ext (psaGenerate e (.dhPair 256)) { tick s with inited := true } =
        (.ok (e.alloc (s.slots.map (·.id))), holding ⟨e.alloc (s.slots.map (·.id)), .dhPair 256, b⟩ s.slots (s.clock + 2)) := by
      have hf : full e { tick s with inited := true } = false := by
        simp only [full, hq.fail, Bool.false_or, Bool.not_true, tick]
        exact decide_eq_false (by omega)
      unfold tryPsa psaGenerate
      rw [hf]
      subst hb
      rfl
    rw [M.bind_ok h1]
    have hK : Top ⟨e.alloc (s.slots.map (·.id)), .dhPair 256, b⟩ s.slots := ⟨he.alloc_ne _, he.alloc_fresh _⟩
    generalize hk : (⟨e.alloc (s.slots.map (·.id)), .dhPair 256, b⟩ : Slot) = k at hK ⊢
    have hid : e.alloc (s.slots.map (·.id)) = k.id := by rw [← hk]
    have hby : k.bytes = b := by rw [← hk]
    rw [hid]
    rw [M.bind_ok (use_run hq (a := b) (by unfold useExport fits; rw [hby]; exact if_pos (by omega)))]
    rw [M.bind_ok (use_run hq (a := e.lib.pub b) (by unfold usePub fits; rw [hby]; exact if_pos (by omega)))]
    have h2 : ∀ t : St, tryPsa e k.id ext (check ((e.lib.pub b).length == 65)) t = (.ok (), t) := by
      intro t; unfold tryPsa check; rw [hpub]; rfl
    rw [M.bind_ok (h2 _)]
    exact destroy_run hq hK
  · intro hi hsh
    unfold keyGen
    dsimp only
    rw [if_pos hc]
    unfold keyGenX25519
    have h1 : tryExpect (psaHash e (KeyGen.seedBytes seed)) s = (.ok (e.lib.sha256 (KeyGen.seedBytes seed)), tick s) := by
      unfold tryExpect psaHash
      rw [hq.fail]
      rcases hi with h | h <;> rw [h] <;> simp
    rw [M.bind_ok h1, if_neg (by rw [hsh]; simp)]
    rfl

/-- C65: a generated P-256 key comes from randomness that was drawn during the call (so two calls never
use the same). -/
theorem C65_keygen_fresh {e : Env} (he : e.Lawful) {s s' : St} {sk pk : Bytes}
    (h : keyGenP256 e s = (.ok (sk, pk), s')) : ∃ n, s.clock ≤ n ∧ n < s'.clock ∧ sk = e.lib.generate n := by
  unfold keyGenP256 at h
  obtain ⟨_, s1, h1, h⟩ := M.bind_eq_ok.1 h
  have c1 : s.clock ≤ s1.clock := by have := (Clean.init e s).1; rwa [h1] at this
  have hx := Clean.generated (P := fun o : Bytes × Bytes => o.1 = e.lib.generate s1.clock) he (s := s1) (kd := .dhPair 256)
    (f := fun kid => do
      let sk ← tryPsa e kid ext (psaUse e kid useExport)
      let pub ← tryPsa e kid ext (psaUse e kid (usePub e))
      tryPsa e kid ext (check (pub.length == 65))
      tryExpect (psaDestroy e kid)
      pure (sk, (pub.drop 1).take 32)) (fun k _ h2 => by
        refine (Body.use _).closes fun sk hsk => ?_
        obtain ⟨_, hsk⟩ := hsk
        refine (Body.use _).closes fun pub _ => ?_
        refine (Body.check _).closes fun _ _ => Closes.destroy_pure ?_
        have a1 := (fits_some hsk).1
        cases a1
        exact h2)
  have hv : sk = e.lib.generate s1.clock := by
    have h4 := hx.2.2
    rw [h] at h4
    exact h4.2
  obtain ⟨kid, s2, h2, h⟩ := M.bind_eq_ok.1 h
  refine ⟨s1.clock, c1, ?_, hv⟩
  have c2 : s2.clock = s1.clock + 1 := by
    unfold tryPsa psaGenerate addKey at h2
    split at h2
    · rename_i h3
      split at h3
      · cases h3
      · simp only [Prod.mk.injEq] at h3 h2
        rw [← h2.2, ← h3.2]; rfl
    · simp at h2
  have mono : ∀ {α : Type} (x : Psa α) (a : α) (t t' : St) (kid : Nat) (er : Err), (∀ t, t.clock ≤ (x t).2.clock) →
      tryPsa e kid er x t = (.ok a, t') → t.clock ≤ t'.clock := by
    intro α x a t t' kid er hm ht
    have := hm t
    unfold tryPsa at ht
    split at ht
    · rename_i h3
      rw [h3] at this
      simp only [Prod.mk.injEq] at ht
      rw [← ht.2]; exact this
    · simp at ht
  obtain ⟨_, s3, h3, h⟩ := M.bind_eq_ok.1 h
  obtain ⟨_, s4, h4, h⟩ := M.bind_eq_ok.1 h
  obtain ⟨_, s5, h5, h⟩ := M.bind_eq_ok.1 h
  obtain ⟨_, s6, h6, h⟩ := M.bind_eq_ok.1 h
  have m3 := mono _ _ _ _ _ _ (fun t => by simp [psaUse, tick]) h3
  have m4 := mono _ _ _ _ _ _ (fun t => by simp [psaUse, tick]) h4
  have m5 := mono _ _ _ _ _ _ (fun t => by simp [check]) h5
  have m6 : s5.clock ≤ s6.clock := by
    unfold tryExpect at h6
    split at h6
    · rename_i h7
      simp only [Prod.mk.injEq] at h6
      unfold psaDestroy at h7
      split at h7
      · cases h7
      · simp only [Prod.mk.injEq] at h7
        rw [← h6.2, ← h7.2]; simp [tick]
    · simp at h6
  simp only [M.run_pure, Prod.mk.injEq] at h
  rw [← h.2]
  omega

/-- C65 does not hold of a build without COMPACT25519: the X25519 key generation reports success and leaves
the caller's buffers as they are (every other X25519/EdDSA function reports an error). -/
theorem C65_false_no_compact (e : Env) (hc : e.compact = false) (cfg : Cfg) (seed : UInt32) (junk sk0 pk0 : Bytes)
    (s : St) : exec cfg e (.keyGen .x25519 seed junk sk0 pk0) s = (.ok (.pair sk0 pk0), s) := by
  simp [exec, keyGen, hc, outM, M.run_bind]

/-- C65 does not hold without the caller's part: when the plaintext is shorter than `out->len`, decryption
hands back what was in the buffer before after it. -/
theorem C65_false_stale {e : Env} (he : e.Lawful) {key nonce aad ct out p : Bytes} {t : Nat} {s s' : St} {o : Bytes}
    (hp : e.lib.aeadDec key nonce aad t ct = some p)
    (h : aeadDecrypt e key nonce aad t ct out s = (.ok o, s')) : o = p ++ out.drop p.length := by
  have h1 := aeadDecrypt_clean he key nonce aad t ct out s
  rw [h] at h1
  obtain ⟨p', h2, _, h3⟩ := h1.2.2.2
  rw [hp] at h2
  cases h2
  exact h3

/-- C65 does not hold of `hash` on a PSA implementation that insists on `psa_crypto_init`: it is the only
function that does not call it, and EDHOC calls it first. -/
theorem C65_false_hash_init (e : Env) (hn : e.hashNeedsInit = true) (m : Bytes) (s : St) (hi : s.inited = false) :
    (hash e m s).1 = .err .unexpected_result_from_ext_lib := by
  unfold hash
  refine bind_err ?_
  simp [tryExpect, psaHash, hn, hi]

/-! #### Examples -/

/-- a library for the examples -/
def toyLib : Lib where
  keyOk := fun k b => match k with
    | .aes _ _ => b.length = 16
    | _ => !b.isEmpty
  aeadEnc := fun k _ _ t p => some (p ++ List.replicate t (k.headD 0))
  aeadDec := fun k _ _ t c => if t ≤ c.length ∧ c.drop (c.length - t) = List.replicate t (k.headD 0) then
    some (c.take (c.length - t)) else none
  mac := fun k m => (k ++ m ++ List.replicate 32 0).take 32
  sign := fun _ sk m => some ((sk ++ m ++ List.replicate 64 0).take 64)
  verify := fun pk m s => s = (pk ++ m ++ List.replicate 64 0).take 64
  agree := fun sk q => some ((sk ++ q ++ List.replicate 32 0).take 32)
  generate := fun n => List.replicate 32 (byte n)
  pub := fun sk => 4 :: (sk ++ sk)
  sha256 := fun m => (m ++ List.replicate 32 0).take 32
  edSign := fun _ _ _ => List.replicate 64 0
  edVerify := fun _ _ _ => false
  x25519 := fun sk _ => sk
  x25519Gen := fun r => (r, r)

theorem toyLib_lawful : toyLib.Lawful where
  mac_len := fun k m => by simp only [toyLib, List.length_take, List.length_append, List.length_replicate]; omega
  enc_len := fun k n a t p c h => by simp only [toyLib, Option.some.injEq] at h; subst h; simp
  dec_len := fun k n a t p c h => by
    simp only [toyLib] at h
    split at h
    · simp only [Option.some.injEq] at h
      rename_i h'
      subst h
      rw [List.length_take]; omega
    · cases h

/-- one key slot; the calls `bad` fail, the destructions `badD` fail -/
def toyEnv (bad badD : List Nat) : Env where
  lib := toyLib
  cap := 1
  alloc := fun l => l.sum + 1
  fail := fun n => bad.contains n
  failDestroy := fun n => badD.contains n
  hashNeedsInit := false
  compact := true

theorem le_sum_of_mem {l : List Nat} {x : Nat} (h : x ∈ l) : x ≤ l.sum := by
  induction l with
  | nil => cases h
  | cons a l ih =>
    rcases List.mem_cons.1 h with rfl | h
    · simp
    · have := ih h; simp only [List.sum_cons]; omega

theorem toyEnv_lawful (bad badD : List Nat) : (toyEnv bad badD).Lawful where
  alloc_ne := fun _ => Nat.succ_ne_zero _
  alloc_fresh := fun l h => by
    have := le_sum_of_mem h
    simp only [toyEnv] at this
    omega

/-- a verification between two key derivations, one of them interrupted: everything is as at the start,
although there is only one key slot -/
def exCalls : List Call :=
  [.hkdf [1, 2] [] [3] 40, .verify .es256 [4] [5] [6], .expand [9] [3] 40, .keyGen .p256 0 [] [] (List.replicate 32 0),
   .aeadEnc (List.replicate 16 7) [] [] 8 [1, 2, 3] 11]

example : ∀ c ∈ exCalls, c.Sized := by
  simp [exCalls, Call.Sized]

/-- an HMAC in the middle of `hkdf_expand` fails: the call reports it, the key is gone -/
example : (exec {} (toyEnv [3] []) (.expand [9] [3] 40) {}).1 = .err .unexpected_result_from_ext_lib ∧
    (exec {} (toyEnv [3] []) (.expand [9] [3] 40) {}).2.slots = [] := by decide +kernel

/-- the same, and the destruction fails too: the only slot is taken and the next call fails -/
example : (history {} (toyEnv [3] [4]) [.expand [9] [3] 40] {}).slots = [⟨1, .hmac, [9]⟩] ∧
    (exec {} (toyEnv [3] [4]) (.extract [] [1]) (history {} (toyEnv [3] [4]) [.expand [9] [3] 40] {})).1 =
      .err .unexpected_result_from_ext_lib := by decide +kernel

/-- the whole history succeeds with one slot -/
example : (history {} (toyEnv [] []) exCalls {}).slots = [] ∧
    (exec {} (toyEnv [] []) (.aeadEnc (List.replicate 16 7) [] [] 8 [1, 2, 3] 11) {}).1 =
      .ok (.pair ([1, 2, 3] ++ List.replicate 8 7) (List.replicate 8 7)) := by decide +kernel

/-- the hypotheses of C65_keygen_succeeds are met -/
example : (toyLib.generate 1).length = 32 ∧ (toyLib.pub (toyLib.generate 1)).length = 65 ∧
    (keyGen (toyEnv [] []) .p256 0 [] [] (List.replicate 32 0) {}).1 = .ok (List.replicate 32 1, List.replicate 32 1) ∧
    (keyGen (toyEnv [] []) .x25519 7 [5] [] [] {}).1 = .ok ([5], [5]) := by decide +kernel

example : (toyEnv [] []).Quiet where
  fail := fun n => by simp [toyEnv]
  destroy := fun n => by simp [toyEnv]

/-- a good and a bad signature -/
example : (exec {} (toyEnv [] []) (.verify .es256 [4] [5] (4 :: 5 :: List.replicate 62 0)) {}).1 = .ok (.flag true) ∧
    (exec {} (toyEnv [] []) (.verify .es256 [4] [5] [6]) {}).1 = .ok (.flag false) ∧
    (exec {} (toyEnv [2] []) (.verify .es256 [4] [5] (4 :: 5 :: List.replicate 62 0)) {}).1 = .ok (.flag false) := by
  decide +kernel

/-- decryption into a buffer longer than the plaintext -/
example : (aeadDecrypt (toyEnv [] []) (List.replicate 16 7) [] [] 8 ([1, 2, 3] ++ List.replicate 8 7)
    [0xaa, 0xaa, 0xaa, 0xbb] {}).1 = .ok [1, 2, 3, 0xbb] := by decide +kernel

end Verif.Psa
