import Verif.Model.TinyWrap
import Verif.Spec.CryptoSpec
import Verif.Props.PsaStore
import Verif.Props.OscoreKeys
import Verif.Props.Hkdf
import Verif.Props.Coap
import Verif.Props.Own
import Verif.Lemmas.MLemmas
import Verif.Lemmas.Examples
/-
C96: the crypto wrapper in the TINYCRYPT build, and devices built with different crypto libraries.
-/
namespace Verif.Tiny
open Verif Verif.Edhoc

/-- what is assumed of TinyCrypt: sizes, and that decryption inverts encryption -/
structure Lib.Lawful (T : Lib) : Prop where
  mac_len : ∀ k m, (T.mac k m).length = 32
  sha_len : ∀ m, (T.sha256 m).length = 32
  enc_len : ∀ k n a t p, (T.ccmEnc k n a t p).length = p.length + t
  dec_len : ∀ k n a t p c, T.ccmDec k n a t c = some p → c.length = p.length + t
  dec_enc : ∀ k n a t p, T.ccmDec k n a t (T.ccmEnc k n a t p) = some p

/-- the tag lengths of the library: 8 for OSCORE and suites 0 and 2, 16 for suites 1 and 3 (suites.c:76-87) -/
def TagLen (t : Nat) : Prop := t = 8 ∨ t = 16

theorem configOk_of {n t : Nat} (hn : n = 13) (ht : TagLen t) : configOk n t = true := by
  subst hn
  rcases ht with rfl | rfl <;> rfl

theorem inputOk_iff {a i : Nat} : inputOk a i = true ↔ a < 0xff00 ∧ i < 0x10000 := by
  unfold inputOk; simp

/-- **C96** encryption: called as OSCORE and EDHOC call it (16-byte key, 13-byte nonce, a tag of 8 or 16 bytes, `out->len` the
length of the plaintext, room for the tag behind it), the wrapper gives the AES-CCM ciphertext of the library with the tag at
its end, touches nothing behind it, and fails only for inputs that TinyCrypt does not support. -/
theorem C96_aead_encrypt {T : Lib} (hT : T.Lawful) (key nonce aad pt out : Bytes) (t : Nat) (hk : key.length = 16)
    (hn : nonce.length = 13) (ht : TagLen t) (ho : pt.length + t ≤ out.length) (h32 : pt.length + t < 2 ^ 32) :
    aeadEncrypt T key nonce aad t pt out pt.length =
      if aad.length < 0xff00 ∧ pt.length < 0x10000 then
        .ok (T.ccmEnc key nonce aad t pt ++ out.drop (pt.length + t), (T.ccmEnc key nonce aad t pt).drop pt.length)
      else .err .unexpected_result_from_ext_lib := by
  unfold aeadEncrypt
  rw [if_neg (by omega), configOk_of hn ht, if_neg (by simp)]
  have hk' : key.take 16 = key := List.take_of_length_le (by omega)
  by_cases h : aad.length < 0xff00 ∧ pt.length < 0x10000
  · rw [if_pos h, if_neg (by
      rw [inputOk_iff.2 h, Nat.mod_eq_of_lt h32]; simp), if_neg (by omega)]
    dsimp only
    rw [if_neg (by omega), hk', hT.enc_len]
    have hl := hT.enc_len key nonce aad t pt
    rw [List.drop_append_of_le_length (by omega), List.take_append_of_le_length (by rw [List.length_drop]; omega),
      List.take_of_length_le (by rw [List.length_drop]; omega)]
  · have hf : inputOk aad.length pt.length = false := by
      cases hx : inputOk aad.length pt.length
      · rfl
      · exact absurd (inputOk_iff.1 hx) h
    rw [if_neg h, if_pos (.inl hf)]; rfl

/-- **C96** decryption: called as OSCORE and EDHOC call it (`out->len` the 32-bit difference of the lengths), the wrapper
succeeds exactly when the ciphertext with its tag is genuine, and gives the plaintext. -/
theorem C96_aead_decrypt {T : Lib} (hT : T.Lawful) (key nonce aad ct out : Bytes) (t : Nat) (hk : key.length = 16)
    (hn : nonce.length = 13) (ht : TagLen t) (ho : ct.length = out.length + t) :
    aeadDecrypt T key nonce aad t ct out =
      if aad.length < 0xff00 ∧ ct.length < 0x10000 then ofLib (T.ccmDec key nonce aad t ct)
      else .err .unexpected_result_from_ext_lib := by
  unfold aeadDecrypt
  rw [if_neg (by omega), configOk_of hn ht, if_neg (by simp)]
  have hk' : key.take 16 = key := List.take_of_length_le (by omega)
  by_cases h : aad.length < 0xff00 ∧ ct.length < 0x10000
  · have hs : sub32 ct.length t = out.length := by unfold sub32; omega
    rw [if_pos h, if_neg (by rw [inputOk_iff.2 h, hs]; simp), hk']
    cases hd : T.ccmDec key nonce aad t ct with
    | none => rfl
    | some p =>
      have := hT.dec_len _ _ _ _ _ _ hd
      dsimp only
      rw [List.drop_eq_nil_of_le (by omega), List.append_nil]; rfl
  · have hf : inputOk aad.length ct.length = false := by
      cases hx : inputOk aad.length ct.length
      · rfl
      · exact absurd (inputOk_iff.1 hx) h
    rw [if_neg h, if_pos (.inl hf)]; rfl

/-- **C96** a ciphertext shorter than its tag is refused, whatever buffer there is for the plaintext (below 4 GiB) -/
theorem C96_short_ciphertext (T : Lib) (key nonce aad ct out : Bytes) (t : Nat) (hk : key.length = 16) (hn : nonce.length = 13)
    (ht : TagLen t) (hs : ct.length < t) (ho : out.length < 2 ^ 32 - 16) :
    aeadDecrypt T key nonce aad t ct out = .err .unexpected_result_from_ext_lib := by
  unfold aeadDecrypt
  have : t ≤ 16 := by rcases ht with rfl | rfl <;> omega
  rw [if_neg (by omega), configOk_of hn ht, if_neg (by simp), if_pos (.inr (by unfold sub32; omega)), failed]

/-- **C96** signatures, keys and hashes: a call that reports success has computed what it promises; for ES256 "verified" is
exactly the verdict of the library on key, SHA-256 of the message and signature, and "not verified" is never reported as
success. -/
theorem C96_sign_verify (T : Lib) (compact : Bool) (rnd : Nat) (sk pk m s : Bytes) :
    (sign T compact rnd .es256 sk pk m = .ok s → T.sign rnd (sk.take 32) (T.sha256 m) = some s) ∧
    (64 ≤ (keyPart pk).length → 64 ≤ s.length →
      (verify T compact .es256 pk m s = .ok true ↔ T.verify ((keyPart pk).take 64) (T.sha256 m) (s.take 64) = true)) ∧
    (verify T compact .es256 pk m s ≠ .ok false) ∧
    (32 ≤ sk.length → 32 ≤ pk.length → sign T true rnd .eddsa sk pk m = .ok (T.edSign sk pk m)) ∧
    (64 ≤ s.length → 32 ≤ pk.length → verify T true .eddsa pk m s = .ok (T.edVerify pk m s)) ∧
    hash T m = .ok (T.sha256 m) := by
  refine ⟨?_, ?_, ?_, ?_, ?_, rfl⟩
  · unfold sign
    dsimp only
    intro h
    split at h
    · cases h
    · cases hx : T.sign rnd (sk.take 32) (T.sha256 m) with
      | none => rw [hx] at h; cases h
      | some x => rw [hx] at h; injection h with h; rw [h]
  · intro h1 h2
    unfold verify
    dsimp only
    rw [if_neg (by omega)]
    cases T.verify ((keyPart pk).take 64) (T.sha256 m) (s.take 64) <;> simp [failed]
  · unfold verify
    dsimp only
    split
    · simp
    · cases T.verify ((keyPart pk).take 64) (T.sha256 m) (s.take 64) <;> simp [failed]
  · intro h1 h2
    unfold sign
    dsimp only
    rw [if_pos rfl, if_neg (by omega)]
  · intro h1 h2
    unfold verify
    dsimp only
    rw [if_pos rfl, if_neg (by omega)]

/-! ### OSCORE does not depend on the crypto library -/

/-- The two libraries compute the same AES-CCM for the keys, nonces, tags and lengths of OSCORE: a 16-byte key, a 13-byte nonce,
an 8-byte tag, fewer than 0xff00 bytes of AAD and fewer than 65536 of ciphertext with tag. -/
structure SameAead (C D : Crypto) : Prop where
  enc : ∀ k n a p, k.length = 16 → n.length = 13 → a.length < 0xff00 → p.length + 8 < 65536 → C.aeadEnc k n a 8 p = D.aeadEnc k n a 8 p
  dec : ∀ k n a c, k.length = 16 → n.length = 13 → a.length < 0xff00 → c.length < 65536 → C.aeadDec k n a 8 c = D.aeadDec k n a 8 c

/-- keys and nonce have the size of their arrays -/
structure Sizes (c : Ctx) : Prop where
  sk : c.senderKey.length = 16
  rk : c.recipientKey.length = 16
  nonce : c.nonce.length = 13

/-- the two computations do the same from `s`, and keep `P` -/
def Same {σ α : Type} (P : σ → Prop) (m m' : M σ α) (s : σ) : Prop := m s = m' s ∧ (P s → P (m s).2)

theorem same_refl {σ α : Type} {P : σ → Prop} {m : M σ α} {s : σ} (h : P s → P (m s).2) : Same P m m s := ⟨rfl, h⟩

theorem Same.bind {σ α β : Type} {P : σ → Prop} {m m' : M σ α} {f f' : α → M σ β} {s : σ} (hm : Same P m m' s)
    (hf : ∀ a s', m s = (.ok a, s') → Same P (f a) (f' a) s') : Same P (m >>= f) (m' >>= f') s := by
  obtain ⟨h1, h2⟩ := hm
  unfold Same
  rw [M.run_bind, M.run_bind, ← h1]
  rcases hx : m s with ⟨a | e | _, s'⟩
  · obtain ⟨g1, g2⟩ := hf a s' hx
    rw [hx] at h2
    exact ⟨g1, fun h => g2 (h2 h)⟩
  · rw [hx] at h2; exact ⟨rfl, h2⟩
  · rw [hx] at h2; exact ⟨rfl, h2⟩

theorem Same.lift {σ α β : Type} {P : σ → Prop} (x : R α) {f f' : α → M σ β} {s : σ} (hf : ∀ a, x = .ok a → Same P (f a) (f' a) s) :
    Same P (M.lift x >>= f) (M.lift x >>= f') s :=
  Same.bind ⟨rfl, id⟩ fun a s' h => by
    rw [M.run_lift, Prod.mk.injEq] at h
    obtain ⟨h1, rfl⟩ := h
    exact hf a h1

theorem Same.lift2 {σ α β : Type} {P : σ → Prop} {x y : R α} (hxy : x = y) {f f' : α → M σ β} {s : σ} (hf : ∀ a, x = .ok a → Same P (f a) (f' a) s) :
    Same P (M.lift x >>= f) (M.lift y >>= f') s := by
  subst hxy; exact Same.lift x hf

theorem Same.modify {σ β : Type} {P : σ → Prop} {g : σ → σ} {f f' : Unit → M σ β} {s : σ} (hg : P s → P (g s)) (hf : Same P (f ()) (f' ()) (g s)) :
    Same P (M.modify g >>= f) (M.modify g >>= f') s :=
  ⟨hf.1, fun h => hf.2 (hg h)⟩

theorem coseEncrypt_same {C D : Crypto} (h : SameAead C D) {pt nonce aad key : Bytes} (hp : pt.length + 8 < 65536) (hn : nonce.length = 13)
    (hk : key.length = 16) : coseEncrypt C pt nonce aad key = coseEncrypt D pt nonce aad key := by
  unfold coseEncrypt
  cases he : encStructure aad with
  | err e => rfl
  | ub => rfl
  | ok a =>
    rw [R.ok_bind, R.ok_bind]
    exact congrArg ofLib (h.enc key nonce a pt hk hn (encStructure_small he) hp)

theorem coseDecrypt_same {C D : Crypto} (h : SameAead C D) {ct nonce aad key : Bytes} (hp : ct.length < 65536) (hn : nonce.length = 13)
    (hk : key.length = 16) : coseDecrypt C ct nonce aad key = coseDecrypt D ct nonce aad key := by
  unfold coseDecrypt
  cases he : encStructure aad with
  | err e => rfl
  | ub => rfl
  | ok a =>
    rw [R.ok_bind, R.ok_bind]
    exact congrArg ofLib (h.dec key nonce a ct hk hn (encStructure_small he) hp)

theorem pt_length {cfg : Cfg} {p : Pkt} {e : List Opt} {plen : Nat} {pt : Bytes} (h : plaintextSetup cfg p e plen = .ok pt) :
    pt.length ≤ plen + 1 := by
  unfold plaintextSetup at h
  obtain ⟨ser, _, h1⟩ := R.bind_eq_ok.1 h
  clear h
  obtain ⟨ser', h2, h⟩ := R.bind_eq_ok.1 h1
  clear h1
  obtain ⟨he, hl⟩ := memcpyS_ok.1 h2
  subst he
  split at h
  · split at h
    · cases h
    · simp only [R.pure_eq, R.ok.injEq] at h
      subst h
      simp only [List.length_cons]
      omega
  · split at h
    · cases h
    · obtain ⟨pl, _, h⟩ := R.bind_eq_ok.1 h
      dsimp only at h
      split at h
      · cases h
      · split at h
        · cases h
        · simp only [R.pure_eq, R.ok.injEq] at h
          subst h
          rw [List.length_take]
          omega

/-- the sizes of the context of a device -/
def WSizes (w : World) : Prop := Sizes w.ctx

theorem generateNewSsn_sizes (cfg : Cfg) (nvmW : Option Err) (w : World) (h : WSizes w) : WSizes (generateNewSsn cfg nvmW w).2 := by
  unfold generateNewSsn
  dsimp only
  split
  · cases nvmW <;> exact ⟨h.sk, h.rk, h.nonce⟩
  · exact ⟨h.sk, h.rk, h.nonce⟩

theorem pickNonce_ok {cfg : Cfg} {nvmW : Option Err} {new : Bool} {w w' : World} {piv kid kctx nonce : Bytes} (hw : WSizes w)
    (h : pickNonce cfg nvmW new w = (.ok (piv, kid, kctx, nonce), w')) : nonce.length = 13 := by
  unfold pickNonce at h
  rw [M.bind_get] at h
  split at h
  · obtain ⟨_, _, _, h⟩ := M.bind_eq_ok.1 h
    obtain ⟨_, _, _, h⟩ := M.bind_eq_ok.1 h
    obtain ⟨_, _, hn, h⟩ := M.bind_eq_ok.1 h
    rw [M.run_lift, Prod.mk.injEq] at hn
    simp only [M.run_pure, Prod.mk.injEq, R.ok.injEq] at h
    obtain ⟨⟨_, _, _, rfl⟩, _⟩ := h
    exact createNonce_length hn.1
  · simp only [M.run_pure, Prod.mk.injEq, R.ok.injEq] at h
    obtain ⟨⟨_, _, _, rfl⟩, _⟩ := h
    exact hw.nonce

theorem pickNonce_sizes {cfg : Cfg} {nvmW : Option Err} {new : Bool} {w : World} (hw : WSizes w) : WSizes (pickNonce cfg nvmW new w).2 := by
  have : Same WSizes (pickNonce cfg nvmW new) (pickNonce cfg nvmW new) w := by
    unfold pickNonce
    refine Same.bind ⟨rfl, id⟩ fun w0 s' h => ?_
    split
    · refine Same.lift _ fun piv _ => Same.bind ⟨rfl, generateNewSsn_sizes cfg nvmW _⟩ fun _ s2 _ => ?_
      exact Same.lift _ fun _ _ => ⟨rfl, id⟩
    · exact ⟨rfl, id⟩
  exact this.2 hw

theorem encryptWrapper_same {cfg : Cfg} {C D : Crypto} (h : SameAead C D) {nvmW : Option Err} {pt : Bytes} {p : Pkt} {w : World}
    (hw : WSizes w) (hp : pt.length + 8 < 65536) :
    Same WSizes (encryptWrapper cfg C nvmW pt p) (encryptWrapper cfg D nvmW pt p) w := by
  unfold encryptWrapper
  refine Same.bind ⟨rfl, id⟩ fun w0 s' h0 => ?_
  obtain rfl : w = w0 := by cases h0; rfl
  obtain rfl : w = s' := by cases h0; rfl
  refine Same.bind ⟨rfl, pickNonce_sizes⟩ fun x s2 hx => ?_
  obtain ⟨piv, kid, kctx, nonce⟩ := x
  have hn := pickNonce_ok hw hx
  dsimp only
  refine Same.lift _ fun opt _ => Same.lift _ fun y _ => ?_
  obtain ⟨rp, rk⟩ := y
  dsimp only
  refine Same.lift _ fun aad _ => Same.lift2 (coseEncrypt_same h hp hn hw.sk) fun ct _ => ?_
  refine Same.modify (fun hs => ⟨hs.sk, hs.rk, hs.nonce⟩) ?_
  have rest : ∀ s3 : World, Same WSizes (do
      let uri ← M.lift (uriPathCreate p.opts cfg.uriMax)
      let t ← M.lift (updateWrapper cfg w.ctx.inter (msgType p) p.token uri rp rk)
      M.modify (fun v => { v with ctx := { v.ctx with inter := t } })
      pure (ct, opt) : M World (Bytes × Bytes)) (do
      let uri ← M.lift (uriPathCreate p.opts cfg.uriMax)
      let t ← M.lift (updateWrapper cfg w.ctx.inter (msgType p) p.token uri rp rk)
      M.modify (fun v => { v with ctx := { v.ctx with inter := t } })
      pure (ct, opt)) s3 := fun s3 =>
    Same.lift _ fun _ _ => Same.lift _ fun _ _ => Same.modify (fun hs => ⟨hs.sk, hs.rk, hs.nonce⟩) ⟨rfl, id⟩
  split
  · exact Same.modify (fun hs => ⟨hs.sk, hs.rk, hn⟩) (rest _)
  · exact rest _

theorem cacheEcho_sizes (e : List Opt) (w : World) (hw : WSizes w) : WSizes (cacheEcho e w).2 := by
  have : Same WSizes (cacheEcho e) (cacheEcho e) w := by
    unfold cacheEcho
    refine Same.bind ⟨rfl, id⟩ fun w0 s' h => ?_
    split
    · exact Same.lift _ fun _ _ => ⟨rfl, fun hs => ⟨hs.sk, hs.rk, hs.nonce⟩⟩
    · exact ⟨rfl, id⟩
  exact this.2 hw

theorem protect_same {cfg : Cfg} {C D : Crypto} (h : SameAead C D) (hc : cfg.maxPlaintext + 9 < 65536) (nvmW : Option Err) (inp : Bytes)
    (cap : Nat) (w : World) (hw : WSizes w) : Same WSizes (coap2oscore cfg C nvmW inp cap) (coap2oscore cfg D nvmW inp cap) w := by
  unfold coap2oscore
  refine Same.bind ⟨rfl, id⟩ fun w0 s' h0 => ?_
  obtain rfl : w = w0 := by cases h0; rfl
  obtain rfl : w = s' := by cases h0; rfl
  refine Same.lift _ fun _ _ => Same.lift _ fun p _ => ?_
  split
  · split <;> exact ⟨rfl, id⟩
  · unfold protectPkt
    refine Same.lift _ fun s _ => Same.lift _ fun _ hb => Same.lift _ fun pt hpt => ?_
    have h1 := pt_length hpt
    have h2 : plaintextLen p s.eLen ≤ cfg.maxPlaintext := by
      unfold checkBufferSize at hb
      split at hb
      · cases hb
      · omega
    refine Same.bind ⟨rfl, cacheEcho_sizes _ _⟩ fun _ s2 hs2 => ?_
    have hw2 : WSizes s2 := by have := cacheEcho_sizes s.e w hw; rw [hs2] at this; exact this
    refine Same.bind (encryptWrapper_same h hw2 (by omega)) fun x s3 _ => ?_
    exact ⟨rfl, id⟩

theorem decNonce_ok {c : Ctx} {o : Option OscOpt} {n : Bytes} (hc : Sizes c) (h : decNonce c o = .ok n) : n.length = 13 := by
  cases o with
  | none => simp only [decNonce, R.ok.injEq] at h; subst h; exact hc.nonce
  | some o =>
    obtain ⟨x, _, h2⟩ := R.bind_eq_ok.1 h
    exact createNonce_length h2

theorem decryptWrapper_same {cfg : Cfg} {C D : Crypto} (h : SameAead C D) {o : Option OscOpt} {p : Pkt} {c : Ctx} (hc : Sizes c)
    (hp : p.payload.length < 65536) : Same Sizes (decryptWrapper cfg C o p) (decryptWrapper cfg D o p) c := by
  unfold decryptWrapper
  refine Same.bind ⟨rfl, id⟩ fun c0 s' h0 => ?_
  obtain rfl : c = c0 := by cases h0; rfl
  obtain rfl : c = s' := by cases h0; rfl
  refine Same.lift _ fun y _ => ?_
  obtain ⟨rp, rk⟩ := y
  dsimp only
  refine Same.lift _ fun nonce hn => Same.lift _ fun aad _ => Same.lift2 (coseDecrypt_same h hp (decNonce_ok hc hn) hc.rk) fun pt _ => ?_
  have rest : ∀ s3 : Ctx, Same Sizes (do
      let out ← M.lift (oCoapPkgGenerate pt p)
      let uri ← M.lift (uriPathCreate out.opts cfg.uriMax)
      let t ← M.lift (updateWrapper cfg c.inter (msgType out) p.token uri rp rk)
      M.modify (fun c => { c with inter := t })
      pure (out, pt) : M Ctx (Pkt × Bytes)) (do
      let out ← M.lift (oCoapPkgGenerate pt p)
      let uri ← M.lift (uriPathCreate out.opts cfg.uriMax)
      let t ← M.lift (updateWrapper cfg c.inter (msgType out) p.token uri rp rk)
      M.modify (fun c => { c with inter := t })
      pure (out, pt)) s3 := fun s3 =>
    Same.lift _ fun _ _ => Same.lift _ fun _ _ => Same.lift _ fun _ _ => Same.modify (fun hs => ⟨hs.sk, hs.rk, hs.nonce⟩) ⟨rfl, id⟩
  split
  · exact Same.modify (fun hs => ⟨hs.sk, hs.rk, decNonce_ok hc hn⟩) (rest _)
  · exact rest _

theorem notificationUpdate_sizes (piv : Bytes) (c : Ctx) (hc : Sizes c) : Sizes (notificationUpdate piv c).2 := by
  have : Same Sizes (notificationUpdate piv) (notificationUpdate piv) c := by
    unfold notificationUpdate
    exact Same.lift _ fun _ _ => ⟨rfl, fun hs => ⟨hs.sk, hs.rk, hs.nonce⟩⟩
  exact this.2 hc

theorem afterRequest_sizes (o : OscOpt) (pt : Bytes) (c : Ctx) (hc : Sizes c) : Sizes (afterRequest o pt c).2 := by
  have : Same Sizes (afterRequest o pt) (afterRequest o pt) c := by
    unfold afterRequest
    refine Same.bind ⟨rfl, id⟩ fun c0 s' h0 => ?_
    split
    · exact ⟨rfl, fun hs => ⟨hs.sk, hs.rk, hs.nonce⟩⟩
    · split
      · exact Same.lift _ fun _ _ => ⟨rfl, fun hs => ⟨hs.sk, hs.rk, hs.nonce⟩⟩
      · exact ⟨rfl, id⟩
      · exact ⟨rfl, id⟩
    · refine Same.lift _ fun piv _ => ?_
      cases piv with
      | nil => exact ⟨rfl, id⟩
      | cons b bs => exact ⟨rfl, fun hs => ⟨hs.sk, hs.rk, hs.nonce⟩⟩
  exact this.2 hc

theorem payload_le {inp : Bytes} {p : Pkt} {t : List (Opt × Bytes)} (h : coapParse inp = .ok (p, t)) : p.payload.length ≤ inp.length := by
  have hd : coapDeserialize inp = .ok p := by unfold coapDeserialize; rw [h]; rfl
  exact (C16_reported_inside_partial inp p hd).2.2.1.length_le

theorem unprotectRequest_same {cfg : Cfg} {C D : Crypto} (h : SameAead C D) (o : OscOpt) {p : Pkt} (c : Ctx) (hs : Sizes c)
    (hp : p.payload.length < 65536) : Same Sizes (unprotectRequest cfg C o p) (unprotectRequest cfg D o p) c := by
  unfold unprotectRequest
  refine Same.bind ⟨rfl, id⟩ fun c0 s' h0 => ?_
  obtain rfl : c = c0 := by cases h0; rfl
  obtain rfl : c = s' := by cases h0; rfl
  refine Same.lift _ fun m _ => ?_
  split
  · exact ⟨rfl, id⟩
  · refine Same.lift _ fun _ _ => Same.bind (decryptWrapper_same h hs hp) fun x s1 _ => ?_
    exact Same.bind ⟨rfl, afterRequest_sizes _ _ _⟩ fun _ _ _ => ⟨rfl, id⟩

theorem unprotectResponse_same {cfg : Cfg} {C D : Crypto} (h : SameAead C D) (o : OscOpt) {p : Pkt} (c : Ctx) (hs : Sizes c)
    (hp : p.payload.length < 65536) : Same Sizes (unprotectResponse cfg C o p) (unprotectResponse cfg D o p) c := by
  unfold unprotectResponse
  refine Same.bind ⟨rfl, id⟩ fun c0 s' h0 => ?_
  obtain rfl : c = c0 := by cases h0; rfl
  obtain rfl : c = s' := by cases h0; rfl
  split
  · split
    · refine Same.lift _ fun piv _ => Same.lift _ fun _ _ => Same.bind (decryptWrapper_same h hs hp) fun x s1 _ => ?_
      exact Same.bind ⟨rfl, notificationUpdate_sizes _ _⟩ fun _ _ _ => ⟨rfl, id⟩
    · exact ⟨rfl, id⟩
  · exact Same.bind (decryptWrapper_same h hs hp) fun x s1 _ => ⟨rfl, id⟩

theorem unprotect_same {cfg : Cfg} {C D : Crypto} (h : SameAead C D) (hc : cfg.maxPlaintext + 9 < 65536) (inp : Bytes)
    (cap : Nat) (c : Ctx) (hs : Sizes c) (hl : inp.length < 2 ^ 32) : Same Sizes (oscore2coap cfg C inp cap) (oscore2coap cfg D inp cap) c := by
  unfold oscore2coap
  refine Same.bind ⟨rfl, id⟩ fun c0 s' h0 => ?_
  obtain rfl : c = c0 := by cases h0; rfl
  obtain rfl : c = s' := by cases h0; rfl
  refine Same.lift _ fun _ _ => Same.lift _ fun x hx => ?_
  obtain ⟨p, t⟩ := x
  dsimp only
  refine Same.lift _ fun o _ => Same.lift _ fun _ hb => ?_
  have hp : p.payload.length < 65536 := by
    have := payload_le hx
    unfold checkBufferSize sub32 at hb
    split at hb
    · cases hb
    · omega
  split
  · exact Same.bind (unprotectRequest_same h o c hs hp) fun _ _ _ => ⟨rfl, id⟩
  · exact Same.bind (unprotectResponse_same h o c hs hp) fun _ _ _ => ⟨rfl, id⟩

/-- the packet of a call is shorter than 4 GiB -/
def OpSmall : Op → Prop
  | .protect .. => True
  | .unprotect inp _ => inp.length < 2 ^ 32

theorem step_same {cfg : Cfg} {C D : Crypto} (h : SameAead C D) (hc : cfg.maxPlaintext + 9 < 65536) {w : World} (hw : Sizes w.ctx) {op : Op}
    (ho : OpSmall op) : step cfg C w op = step cfg D w op ∧ Sizes (step cfg C w op).2.ctx := by
  cases op with
  | protect inp cap nvmW =>
    have := protect_same (cfg := cfg) h hc nvmW inp cap w hw
    exact ⟨this.1, this.2 hw⟩
  | unprotect inp cap =>
    have := unprotect_same (cfg := cfg) h hc inp cap w.ctx hw ho
    refine ⟨?_, this.2 hw⟩
    unfold step
    dsimp only
    rw [this.1]

/-- **C96** OSCORE does not depend on the crypto library: two devices that start from the same context and process the same calls,
one built with a library `C`, one with a library `D` that computes the same AES-CCM for 16-byte keys, 13-byte nonces, 8-byte tags
and messages below 64 KiB, give the same packet or error at every call, and are in the same state after it.  `h1` is everything
before the call `op`. -/
theorem C96_oscore_history {cfg : Cfg} {C D : Crypto} (h : SameAead C D) (hc : cfg.maxPlaintext + 9 < 65536) (w : World) (hw : Sizes w.ctx)
    (h1 : List Op) (op : Op) (hs : ∀ o ∈ h1 ++ [op], OpSmall o) :
    run cfg C w h1 = run cfg D w h1 ∧ step cfg C (run cfg C w h1) op = step cfg D (run cfg D w h1) op := by
  have key : ∀ (h1 : List Op) (w : World), Sizes w.ctx → (∀ o ∈ h1, OpSmall o) → run cfg C w h1 = run cfg D w h1 ∧ Sizes (run cfg C w h1).ctx := by
    intro h1
    induction h1 with
    | nil => intro w hw _; exact ⟨by simp only [run, List.foldl_nil], by simpa only [run, List.foldl_nil] using hw⟩
    | cons o os ih =>
      intro w hw hs
      obtain ⟨e1, e2⟩ := step_same h hc hw (hs o (by simp))
      obtain ⟨i1, i2⟩ := ih (step cfg C w o).2 e2 fun o ho => hs o (by simp [ho])
      rw [run_cons, run_cons, ← e1]
      exact ⟨i1, i2⟩
  obtain ⟨a1, a2⟩ := key h1 w hw fun o ho => hs o (by simp [ho])
  exact ⟨a1, by rw [← a1]; exact (step_same h hc a2 (hs op (by simp))).1⟩

/-! ### libraries that compute the same AES-CCM -/

/-- AES-CCM without the limits of TinyCrypt -/
def unlimited (T : Lib) : Crypto where
  hmac := T.mac
  hash := T.sha256
  aeadEnc := fun k n a t p => some (T.ccmEnc k n a t p)
  aeadDec := fun k n a t c => T.ccmDec k n a t c

theorem unlimited_lawful {T : Lib} (hT : T.Lawful) : (unlimited T).Lawful where
  hmac_len := hT.mac_len
  hash_len := hT.sha_len
  dec_enc := fun k n a t p c h => by
    simp only [unlimited, Option.some.injEq] at h
    subst h; exact hT.dec_enc k n a t p
  enc_len := fun k n a t p c h => by
    simp only [unlimited, Option.some.injEq] at h
    subst h; exact hT.enc_len k n a t p
  dec_len := fun k n a t p c h => hT.dec_len k n a t p c h

/-- **C96** for OSCORE the TINYCRYPT build has no limits of its own (its limits of 0xff00 bytes of AAD and 65535 bytes of input are
not reached), so the theorems of the other claims, which assume a `Crypto.Lawful`, hold of it -/
theorem C96_tinycrypt_is_aes_ccm {T : Lib} (hT : T.Lawful) : SameAead (cryptoOf T) (unlimited T) := by
  refine ⟨fun k n a p hk hn ha hp => ?_, fun k n a c hk hn ha hcl => ?_⟩
  · have hk' : k.take 16 = k := List.take_of_length_le (by omega)
    simp only [cryptoOf, unlimited]
    rw [if_pos ⟨configOk_of hn (.inl rfl), inputOk_iff.2 ⟨ha, by omega⟩⟩, hk']
  · have hk' : k.take 16 = k := List.take_of_length_le (by omega)
    simp only [cryptoOf, unlimited]
    rw [hk']
    by_cases h8 : 8 ≤ c.length
    · rw [if_pos ⟨configOk_of hn (.inl rfl), inputOk_iff.2 ⟨ha, hcl⟩, h8⟩]
    · rw [if_neg (by omega)]
      cases hd : T.ccmDec k n a 8 c with
      | none => rfl
      | some p => have := hT.dec_len _ _ _ _ _ _ hd; omega

/-- **C96** a client built with TINYCRYPT and a server built with MBEDTLS (or the reverse): if PSA accepts 16-byte AES keys and both
libraries compute the same AES-CCM, `C96_oscore_history` applies to the two builds. -/
theorem C96_tinycrypt_and_mbedtls {T : Lib} (hT : T.Lawful) (l : Psa.Lib) (hkey : ∀ k : Bytes, k.length = 16 → l.keyOk (.aes 128 8) k = true)
    (henc : ∀ k n a p, k.length = 16 → n.length = 13 → l.aeadEnc k n a 8 p = some (T.ccmEnc k n a 8 p))
    (hdec : ∀ k n a c, k.length = 16 → n.length = 13 → l.aeadDec k n a 8 c = T.ccmDec k n a 8 c) :
    SameAead (cryptoOf T) (Psa.cryptoOf l) := by
  have h := C96_tinycrypt_is_aes_ccm hT
  refine ⟨fun k n a p hk hn ha hp => ?_, fun k n a c hk hn ha hcl => ?_⟩
  · rw [h.enc k n a p hk hn ha hp]
    simp only [Psa.cryptoOf, unlimited]
    rw [hk, hkey k hk, if_pos rfl, henc k n a p hk hn]
  · rw [h.dec k n a c hk hn ha hcl]
    simp only [Psa.cryptoOf, unlimited]
    rw [hk, hkey k hk, if_pos rfl, hdec k n a c hk hn]

theorem expandLoopTc_hmac {C D : Crypto} (h : C.hmac = D.hmac) (prk info : Bytes) (L it : Nat) :
    ∀ (fuel i : Nat) (t out : Bytes), expandLoopTc C prk info L it fuel i t out = expandLoopTc D prk info L it fuel i t out := by
  intro fuel
  induction fuel with
  | zero => intro i t out; rfl
  | succ n ih =>
    intro i t out
    unfold expandLoopTc
    split
    · split
      · rfl
      · rw [h]; exact ih _ _ _
    · rfl

/-- **C96** key derivation: with any salt and any non-empty pseudorandom key, for output of at most 254 blocks, extract and
expand are those of RFC 5869, so both builds derive the same keys (C37 says the same of MBEDTLS). -/
theorem C96_hkdf {T : Lib} (hT : T.Lawful) (salt ikm prk info : Bytes) (L : Nat) (hp : prk ≠ []) (hL : L ≤ 254 * 32) :
    hkdfExtract T salt ikm = .ok (Hkdf.extract T.mac salt ikm) ∧ hkdfExpand T prk info L = .ok (Hkdf.expand T.mac prk info L) := by
  constructor
  · unfold hkdfExtract Hkdf.extract
    cases salt with
    | nil => rfl
    | cons b bs => simp
  · unfold hkdfExpand
    have hp' : prk.length ≠ 0 := by cases prk with
      | nil => exact absurd rfl hp
      | cons => simp
    rw [if_neg (by omega)]
    have : hkdfExpandTc (cryptoOf T) prk info L = hkdfExpandTc (unlimited T) prk info L := by
      unfold hkdfExpandTc
      dsimp only
      split
      · rfl
      · exact expandLoopTc_hmac (C := cryptoOf T) (D := unlimited T) rfl prk info L _ _ _ _ _
    rw [this]
    exact C37_expand_tinycrypt_partial (unlimited_lawful hT) prk info hL

theorem hkdfInfo_small {id idc info : Bytes} {ty : DeriveType} (h : hkdfInfo id idc ty = .ok info) : info.length ≤ 50 := by
  unfold hkdfInfo at h
  generalize cborArr 5 ++ cborBstr id ++ _ ++ _ ++ _ = x at h
  unfold cborOut at h
  split at h
  · injection h with h; subst h; assumption
  · cases h

/-- **C96** both builds derive the same sender key, recipient key and Common IV from the same parameters, and fail on the same ones:
`D` is any crypto library with the same HMAC-SHA-256. -/
theorem C96_keys {T : Lib} (hT : T.Lawful) {cfg : Cfg} {D : Crypto} (hD : D.Lawful) (hinfo : 50 ≤ cfg.infoMax) (hm : D.hmac = T.mac)
    (p : InitParams) (id : Bytes) (ty : DeriveType) : derive T p id ty = Verif.derive cfg D p id ty := by
  unfold derive Verif.derive
  cases hi : hkdfInfo id p.idContext ty with
  | err e => rfl
  | ub => rfl
  | ok info =>
    have h50 := hkdfInfo_small hi
    rw [R.ok_bind, R.ok_bind, (C96_hkdf hT p.masterSalt p.masterSecret [0] [] 0 (by simp) (by omega)).1, R.ok_bind]
    have hne : Hkdf.extract T.mac p.masterSalt p.masterSecret ≠ [] := by
      intro h
      have := hT.mac_len (if p.masterSalt = [] then List.replicate 32 0 else p.masterSalt) p.masterSecret
      unfold Hkdf.extract at h
      rw [h] at this; simp at this
    cases ty with
    | key =>
      dsimp only
      rw [(C96_hkdf hT [] [] _ info 16 hne (by omega)).2, C37_hkdf hD p.masterSecret p.masterSalt info (by omega) (by omega), hm]
    | iv =>
      dsimp only
      rw [(C96_hkdf hT [] [] _ info 13 hne (by omega)).2, C37_hkdf hD p.masterSecret p.masterSalt info (by omega) (by omega), hm]

/-- **C96** a context after a successful initialisation has the sizes that `C96_oscore_history` asks for (`jn`: what was in the 13
bytes of the nonce before) -/
theorem C96_init_sizes {cfg : Cfg} {C : Crypto} (hC : C.Lawful) (hinfo : 50 ≤ cfg.infoMax) {p : InitParams} {nv : R Nat} {jn je : Bytes} {c : Ctx}
    (h : contextInit cfg C p nv jn je = .ok c) (hj : jn.length = 13) : Sizes c := by
  obtain ⟨iv, rk, ssn, sk, _, _, _, _, h1, _, h2, rfl⟩ := contextInit_ok h
  exact ⟨Own.derive_len hC hinfo h2, Own.derive_len hC hinfo h1, hj⟩

/-! ### where the builds differ -/

/-- a library that computes something -/
def toyTiny (good : Bool) : Lib where
  ccmEnc := fun _ _ _ t p => p ++ List.replicate t 7
  ccmDec := fun _ _ _ t c => if c.drop (c.length - t) = List.replicate t 7 then some (c.take (c.length - t)) else none
  mac := fun k m => ((k ++ m) ++ List.replicate 32 1).take 32
  sha256 := fun m => (m ++ List.replicate 32 2).take 32
  sign := fun _ sk h => some (sk ++ h)
  verify := fun _ _ _ => good
  edSign := fun sk _ m => sk ++ m
  edVerify := fun _ _ _ => good

theorem toyTiny_lawful (g : Bool) : (toyTiny g).Lawful where
  mac_len := fun k m => by simp only [toyTiny, List.length_take, List.length_append, List.length_replicate]; omega
  sha_len := fun m => by simp only [toyTiny, List.length_take, List.length_append, List.length_replicate]; omega
  enc_len := fun k n a t p => by simp [toyTiny]
  dec_len := fun k n a t p c h => by
    simp only [toyTiny] at h
    split at h
    · rename_i hd
      injection h with h
      have h2 := congrArg List.length hd
      rw [List.length_drop, List.length_replicate] at h2
      rw [← h, List.length_take]; omega
    · cases h
  dec_enc := fun k n a t p => by simp [toyTiny]

/-- **C96** false as stated for signatures: an ES256 signature that does not verify is reported by the TINYCRYPT build as a failure
of the library call, where `verify` promises success with the result "not verified" (and gives it for EdDSA).  EDHOC aborts in both
cases, but with different codes. -/
theorem C96_false_verify_error (T : Lib) (compact : Bool) (pk m s : Bytes) (hpk : pk.length = 64) (hs : s.length = 64)
    (hv : T.verify pk (T.sha256 m) s = false) : verify T compact .es256 pk m s = .err .unexpected_result_from_ext_lib := by
  have hp : keyPart pk = pk := by unfold keyPart; rw [if_neg (by omega)]
  have e1 : pk.take 64 = pk := List.take_of_length_le (by omega)
  have e2 : s.take 64 = s := List.take_of_length_le (by omega)
  unfold verify
  dsimp only
  rw [hp, e1, e2, hv, if_neg (by omega), if_neg (by simp)]; rfl

/-- **C96** false as stated for short arguments: the lengths of an ES256 key and signature are not looked at, so that a shorter one
(a static Diffie-Hellman key of 32 bytes, say, which is what the credential of a peer may hold) is read beyond its end, whatever
the library does. -/
theorem C96_false_short_key (T : Lib) (compact : Bool) (pk m s : Bytes) (h : pk.length < 64 ∨ s.length < 64) :
    verify T compact .es256 pk m s = .ub := by
  unfold verify
  dsimp only
  rw [if_pos (by
    rcases h with h | h
    · left; unfold keyPart; rw [if_neg (by omega)]; exact h
    · right; exact h)]

/-- **C96** false as stated for messages between 65528 and 65535 bytes: TinyCrypt encrypts them and does not decrypt the result.
(OSCORE and EDHOC stay below, see `C96_tinycrypt_is_aes_ccm`.) -/
theorem C96_false_large_message {T : Lib} (hT : T.Lawful) (key nonce aad pt out out2 : Bytes) (hk : key.length = 16)
    (hn : nonce.length = 13) (ha : aad.length < 0xff00) (h1 : 65528 ≤ pt.length) (h2 : pt.length < 65536)
    (ho : out.length = pt.length + 8) (ho2 : out2.length = pt.length) :
    ∃ ct tag, aeadEncrypt T key nonce aad 8 pt out pt.length = .ok (ct, tag) ∧ T.ccmDec key nonce aad 8 ct = some pt ∧
      aeadDecrypt T key nonce aad 8 ct out2 = .err .unexpected_result_from_ext_lib := by
  have e := C96_aead_encrypt hT key nonce aad pt out 8 hk hn (.inl rfl) (by omega) (by omega)
  have hd : out.drop (pt.length + 8) = [] := List.drop_eq_nil_of_le (by omega)
  rw [if_pos ⟨ha, h2⟩, hd, List.append_nil] at e
  refine ⟨_, _, e, hT.dec_enc _ _ _ _ _, ?_⟩
  have hl := hT.enc_len key nonce aad 8 pt
  rw [C96_aead_decrypt hT _ _ _ _ _ 8 hk hn (.inl rfl) (by omega), if_neg (by omega)]

/-! ### the hypotheses are met -/

/-- a round trip through the wrapper, and a forged tag -/
example :
    aeadEncrypt (toyTiny true) (List.replicate 16 1) (List.replicate 13 2) [9] 8 [5, 6] (List.replicate 12 0) 2 =
      .ok ([5, 6, 7, 7, 7, 7, 7, 7, 7, 7, 0, 0], List.replicate 8 7) ∧
    aeadDecrypt (toyTiny true) (List.replicate 16 1) (List.replicate 13 2) [9] 8 [5, 6, 7, 7, 7, 7, 7, 7, 7, 7] [0, 0] = .ok [5, 6] ∧
    aeadDecrypt (toyTiny true) (List.replicate 16 1) (List.replicate 13 2) [9] 8 [5, 6, 7, 7, 7, 7, 7, 7, 7, 6] [0, 0] =
      .err .unexpected_result_from_ext_lib ∧
    aeadDecrypt (toyTiny true) (List.replicate 16 1) (List.replicate 13 2) [9] 8 [5, 6, 7] [0, 0] = .err .unexpected_result_from_ext_lib := by
  decide +kernel

/-- `C96_sign_verify`: an uncompressed key of 65 bytes -/
example : verify (toyTiny true) true .es256 (4 :: List.replicate 64 3) [1] (List.replicate 64 0) = .ok true ∧
    verify (toyTiny false) true .es256 (4 :: List.replicate 64 3) [1] (List.replicate 64 0) = .err .unexpected_result_from_ext_lib ∧
    verify (toyTiny false) true .eddsa (List.replicate 32 3) [1] (List.replicate 64 0) = .ok false := by decide +kernel

/-- `C96_oscore_history`: the sizes hold of a context after its initialisation, and the default limits are below -/
example : Sizes exClient ∧ Sizes exServer ∧ exCfg.maxPlaintext + 9 < 65536 ∧ OpSmall (.unprotect exRsp 256) ∧
    SameAead (cryptoOf (toyTiny true)) (unlimited (toyTiny true)) :=
  ⟨⟨by decide +kernel, by decide +kernel, by decide +kernel⟩, ⟨by decide +kernel, by decide +kernel, by decide +kernel⟩, by decide +kernel,
    (by unfold OpSmall; decide +kernel), C96_tinycrypt_is_aes_ccm (toyTiny_lawful true)⟩

end Verif.Tiny
