import Verif.Lemmas.P256Std
import Verif.Lemmas.Ed25519Std
import Verif.Props.RealEdhoc
import Verif.Props.EdhocHonest
import Verif.Props.P256Static
import Verif.Props.Conversation
/-
C73: honest runs with the standardised primitives.  What C39 and C53 assume of the crypto libraries - Diffie-Hellman
commutes, signatures verify - is proved for X25519, Ed25519, ECDH and ECDSA on P-256 as standardised (Spec/Curves).
-/
namespace Verif.Edhoc
open Verif Verif.Fips Verif.Curves
open Verif.P256 (Psa p256Shared p256KeyGen PsaOk SkOk Limbs)

/-! ### The P-256 key agreement of the MBEDTLS configuration -/

/-- PSA with P-256 as standardised: keys from 1 to n - 1 can be imported, peer keys are uncompressed points;
a generated secret key is any number from 1 to n - 1 -/
def stdPsa : Psa where
  importKey sk := decide (sk.length = 32 ∧ 0 < beNat sk ∧ beNat sk < n256)
  agree sk q := if q.length = 65 then p256Dh sk q else none
  generate n := (p256Public (toBe 32 (n % (n256 - 1) + 1))).map fun pub => (toBe 32 (n % (n256 - 1) + 1), pub)

theorem encPoint_length {q : Bytes} {P : P256Spec.curve.Point} (h : P256Spec.EncPoint q P) : q.length = 65 := by
  obtain ⟨x, y, hn, xb, yb, _, hx, hy, rfl⟩ := h
  rw [List.length_cons, List.length_append, hx.1, hy.1]

/-- **C73** What C53 assumes of PSA holds of P-256 as standardised. -/
theorem C73_psa : PsaOk stdPsa P256.G where
  agree sk q P s hi hq := by
    have hk : SkOk sk := (decide_eq_true_iff (p := sk.length = 32 ∧ 0 < beNat sk ∧ beNat sk < n256)).1 hi
    show (if q.length = 65 then p256Dh sk q else none) = some s ↔ _
    rw [if_pos (encPoint_length hq), P256.dh_full hk hq, P256.beNat_eq, ← P256.be_eq]
  gen n sk pub h := by
    have h1 : n % (n256 - 1) < n256 - 1 := Nat.mod_lt _ (by decide)
    have hk : SkOk (toBe 32 (n % (n256 - 1) + 1)) := by
      refine ⟨toBe_length _ _, ?_, ?_⟩ <;> rw [P256.beNat_toBe (by omega)] <;> omega
    have h' : (p256Public (toBe 32 (n % (n256 - 1) + 1))).map (fun pub => (toBe 32 (n % (n256 - 1) + 1), pub)) = some (sk, pub) := h
    obtain ⟨pub', h2, h3⟩ := P256.public_spec hk
    rw [h2, Option.map_some, Option.some.injEq, Prod.mk.injEq] at h'
    obtain ⟨rfl, rfl⟩ := h'
    refine ⟨decide_eq_true hk, ?_⟩
    rwa [P256.beNat_eq, ← P256.be_eq] at h3

/-- crypto_wrapper.c in the MBEDTLS configuration with the standardised primitives: X25519 and Ed25519 (compact25519) and ES256
are called as they are; the P-256 agreement goes through the decompression of the peer's key and PSA (`p256Shared`) -/
def mbedE (junk : Limbs) (nonce : Bytes → Bytes → Nat) (x509 : Bytes → Option X509) : ECrypto :=
  { realE nonce x509 with
    dh := fun a sk pk => match a with
      | .x25519 => some (Curves.x25519 sk pk)
      | .p256 => match p256Shared stdPsa junk sk pk with
        | .ok s => some s
        | _ => none }

/-- **C73** The P-256 agreement of the code computes the standard function of the secret key and the x-coordinate, for
all 32-byte keys; it refuses what the standard function refuses. -/
theorem C73_p256 (junk : Limbs) (hj : junk.length = 8) (sk pk s : Bytes) (hpk : pk.length = 32) :
    p256Shared stdPsa junk sk pk = .ok s ↔ p256Dh sk pk = some s := by
  by_cases hk : SkOk sk
  · by_cases hc : ∃ y, P256Spec.OnCurve (P256Spec.be pk) y
    · obtain ⟨y, hy⟩ := hc
      have hE : P256Spec.Enc pk ((P256Spec.be pk : Nat) : P256.F) := ⟨hpk, (P256.val_cast hy.1).symm⟩
      rw [P256.shared_point C73_psa hj (decide_eq_true hk) rfl (hn := P256.onCurve_point hy) hE, P256.dh_x hk hE, P256.beNat_eq, ← P256.be_eq]
    · rw [P256.C53_invalid_refused stdPsa junk sk pk hj (.inr (fun y h => hc ⟨y, h⟩))]
      refine ⟨fun h => (by cases h), fun h => ?_⟩
      exfalso
      apply hc
      have hp : ∃ J, p256Point pk = some J := by
        cases hp : p256Point pk with
        | none => simp only [p256Dh, force_eq, hp, ite_self] at h; cases h
        | some J => exact ⟨J, rfl⟩
      obtain ⟨J, hJ⟩ := hp
      exact P256.point_onCurve hpk hJ
  · have h1 : stdPsa.importKey sk = false := decide_eq_false hk
    have e1 : p256Shared stdPsa junk sk pk = .err .unexpected_result_from_ext_lib := by
      unfold p256Shared; rw [if_pos h1]
    have e2 : p256Dh sk pk = none := by
      unfold p256Dh; rw [force_eq, if_neg (show ¬ (sk.length = 32 ∧ 0 < beNat sk ∧ beNat sk < n256) from hk)]
    rw [e1, e2]
    constructor <;> intro h <;> cases h

/-! ### Key pairs -/

/-- a Diffie-Hellman key pair: X25519 of the base point 9; for P-256 a secret number from 1 to n - 1 and the x-coordinate
of the public point (what EDHOC transports) -/
def DhPair (a : EcdhAlg) (sk pk : Bytes) : Prop :=
  match a with
  | .x25519 => 32 ≤ sk.length ∧ pk = Curves.x25519 sk (9 :: List.replicate 31 0)
  | .p256 => (sk.length = 32 ∧ 0 < beNat sk ∧ beNat sk < n256) ∧ ∃ pub, p256Public sk = some pub ∧ pk = (pub.drop 1).take 32

/-- a signature key pair: `pks` the signer's copy of its public key, `pkv` the verifier's.  ES256: signing with the random
number `nonce` works (the library draws another one if not; one of 1 and 2 always works, `C73_nonce`). -/
def SigPair (nonce : Bytes → Bytes → Nat) (a : SignAlg) (sk pks pkv : Bytes) : Prop :=
  match a with
  | .eddsa => 32 ≤ sk.length ∧ pks.take 32 = edPublic sk ∧ pkv.take 32 = edPublic sk
  | .es256 => (sk.length = 32 ∧ 0 < beNat sk ∧ beNat sk < n256) ∧ 32 ≤ pks.length ∧ p256Public sk = some pkv ∧
      ∀ m, 0 < nonce sk m ∧ nonce sk m < n256 ∧ ecdsaSign (nonce sk m) sk m ≠ none

/-- **C73** Both parties of an exchange compute the same secret, for every two key pairs. -/
theorem C73_dh (junk : Limbs) (hj : junk.length = 8) (nonce : Bytes → Bytes → Nat) (x509 : Bytes → Option X509) (a : EcdhAlg)
    {x gX y gY : Bytes} (hx : DhPair a x gX) (hy : DhPair a y gY) :
    ∃ s, (mbedE junk nonce x509).dh a x gY = some s ∧ (mbedE junk nonce x509).dh a y gX = some s := by
  cases a with
  | x25519 =>
    refine ⟨_, rfl, ?_⟩
    rw [hx.2, hy.2]
    exact congrArg some (C25519.x25519_agree y x)
  | p256 =>
    obtain ⟨kx, px, e1, e2⟩ := hx
    obtain ⟨ky, py, e3, e4⟩ := hy
    obtain ⟨s, h1, h2⟩ := P256.dh_agree kx ky ⟨px, e1, .inr e2⟩ ⟨py, e3, .inr e4⟩
    have l : ∀ {k p g : Bytes}, SkOk k → p256Public k = some p → g = (p.drop 1).take 32 → g.length = 32 := by
      intro k p g hk hp hg
      obtain ⟨p', h, hE⟩ := P256.public_spec hk
      rw [hp] at h
      cases h
      have := encPoint_length hE
      rw [hg, List.length_take, List.length_drop]; omega
    refine ⟨s, ?_, ?_⟩
    · show (match p256Shared stdPsa junk x gY with | .ok s => some s | _ => none) = some s
      rw [(C73_p256 junk hj x gY s (l ky e3 e4)).2 h1]
    · show (match p256Shared stdPsa junk y gX with | .ok s => some s | _ => none) = some s
      rw [(C73_p256 junk hj y gX s (l kx e1 e2)).2 h2]

theorem edVerify_take (pk m s : Bytes) : edVerify pk m s = edVerify (pk.take 32) m s := by
  unfold edVerify
  rw [List.take_take, Nat.min_self]

theorem edSign_take (sk pk m : Bytes) : edSign sk pk m = edSign sk (pk.take 32) m := by
  unfold edSign
  rw [List.take_take, Nat.min_self]

/-- **C73** Whatever is signed with a key pair verifies, for every message. -/
theorem C73_sign (junk : Limbs) (nonce : Bytes → Bytes → Nat) (x509 : Bytes → Option X509) (a : SignAlg)
    {sk pks pkv : Bytes} (h : SigPair nonce a sk pks pkv) (m : Bytes) :
    ∃ s, (mbedE junk nonce x509).sign a sk pks m = some s ∧ (mbedE junk nonce x509).verify a pkv m s = some true := by
  cases a with
  | eddsa =>
    refine ⟨_, rfl, ?_⟩
    show some (edVerify pkv m (edSign sk pks m)) = some true
    rw [edVerify_take, edSign_take, h.2.1, h.2.2, C25519.ed_ok]
  | es256 =>
    obtain ⟨hk, _, hp, hn⟩ := h
    obtain ⟨n0, n1, n2⟩ := hn m
    obtain ⟨s, hs⟩ := Option.ne_none_iff_exists'.1 n2
    refine ⟨s, hs, ?_⟩
    show some (ecdsaVerify pkv m s) = some true
    rw [P256.ecdsa_ok hk hp n0 n1 hs]

/-- **C73** There is always a random number to sign with. -/
theorem C73_nonce : ∃ nonce : Bytes → Bytes → Nat, ∀ sk m : Bytes, sk.length = 32 → 0 < beNat sk → beNat sk < n256 →
    0 < nonce sk m ∧ nonce sk m < n256 ∧ ecdsaSign (nonce sk m) sk m ≠ none := by
  refine ⟨fun sk m => if ecdsaSign 1 sk m = none then 2 else 1, fun sk m h1 h2 h3 => ?_⟩
  have := P256.ecdsa_nonce (sk := sk) ⟨h1, h2, h3⟩ m
  by_cases h : ecdsaSign 1 sk m = none
  · simp only [h, if_true]
    exact ⟨by decide, by decide, this.resolve_left (fun k => k h)⟩
  · simp only [h, if_false]
    exact ⟨by decide, by decide, h⟩

theorem mbedE_lawful (junk : Limbs) (nonce : Bytes → Bytes → Nat) (x509 : Bytes → Option X509) : (mbedE junk nonce x509).Lawful where
  base := C69_lawful
  dh_len a sk pk s h := by
    cases a with
    | x25519 => exact (C69_edhoc_lawful nonce x509).dh_len .x25519 sk pk s h
    | p256 =>
      have h' : (match p256Shared stdPsa junk sk pk with | .ok s => some s | _ => none) = some s := h
      unfold p256Shared at h'
      split at h'
      · rename_i s' hs
        cases h'
        split at hs
        · cases hs
        · split at hs
          · rename_i q hq
            split at hs
            · rename_i s'' hs'
              cases hs
              have h2 : (if q.length = 65 then p256Dh sk q else none) = some s := hs'
              split at h2
              · exact p256Dh_length h2
              · cases h2
            · cases hs
          · cases hs
          · cases hs
      · cases h'
  sign_len := (C69_edhoc_lawful nonce x509).sign_len

/-- the keys of the two parties of a run are key pairs of the standards -/
structure Setup.Keys (S : Setup) (A : Agreed) (nonce : Bytes → Bytes → Nat) : Prop where
  /-- the ephemeral keys -/
  eph_i : DhPair A.suite.ecdh S.i.x S.i.gX
  eph_r : DhPair A.suite.ecdh S.r.y S.r.gY
  /-- the static Diffie-Hellman keys; the public one is what the other side finds in the credential -/
  static_r : A.sR = true → DhPair A.suite.ecdh S.r.r A.gR
  static_i : A.sI = true → DhPair A.suite.ecdh S.i.i A.gI
  /-- the signature keys -/
  sig_r : A.sR = false → SigPair nonce A.suite.sign S.r.skR S.r.pkR A.pkR
  sig_i : A.sI = false → SigPair nonce A.suite.sign S.i.skI S.i.pkI A.pkI

theorem DhPair.len {a : EcdhAlg} {sk pk : Bytes} (h : DhPair a sk pk) : 32 ≤ pk.length ∧ 32 ≤ sk.length := by
  cases a with
  | x25519 => exact ⟨by rw [h.2, x25519_length], h.1⟩
  | p256 =>
    obtain ⟨hk, pub, e1, e2⟩ := h
    obtain ⟨p', h, hE⟩ := P256.public_spec hk
    rw [e1] at h
    cases h
    have := encPoint_length hE
    refine ⟨?_, by rw [hk.1]⟩
    rw [e2, List.length_take, List.length_drop]; omega

theorem SigPair.len {nonce : Bytes → Bytes → Nat} {a : SignAlg} {sk pks pkv : Bytes} (h : SigPair nonce a sk pks pkv) :
    32 ≤ sk.length ∧ 32 ≤ pks.length ∧ 32 ≤ pkv.length := by
  cases a with
  | eddsa =>
    have l : (edPublic sk).length = 32 := by simp only [edPublic, force_eq, edPack_length]
    have e1 := congrArg List.length h.2.1
    have e2 := congrArg List.length h.2.2
    rw [l, List.length_take] at e1 e2
    exact ⟨h.1, by omega, by omega⟩
  | es256 =>
    obtain ⟨hk, hs, hp, _⟩ := h
    obtain ⟨p', h, hE⟩ := P256.public_spec hk
    rw [hp] at h
    cases h
    exact ⟨by rw [hk.1], hs, by rw [encPoint_length hE]; decide⟩

/-- Consistent configuration and standard key pairs make a run honest in the sense of C39: nothing is assumed of the
crypto library any more. -/
theorem Setup.Conf.honest {S : Setup} {A : Agreed} (H : S.Conf A) {junk : Limbs} (hj : junk.length = 8) {nonce : Bytes → Bytes → Nat}
    {x509 : Bytes → Option X509} (hC : S.C = mbedE junk nonce x509) (K : S.Keys A nonce) :
    ∃ gxy grx giy, S.Honest { A with gxy := gxy, grx := grx, giy := giy } := by
  obtain ⟨gxy, a1, a2⟩ := C73_dh junk hj nonce x509 _ K.eph_i K.eph_r
  have hr : ∃ grx, A.sR = true → S.C.dh A.suite.ecdh S.i.x A.gR = some grx ∧ S.C.dh A.suite.ecdh S.r.r S.i.gX = some grx := by
    cases h : A.sR with
    | false => exact ⟨[], fun h => by cases h⟩
    | true =>
      obtain ⟨g, b1, b2⟩ := C73_dh junk hj nonce x509 _ K.eph_i (K.static_r h)
      exact ⟨g, fun _ => by rw [hC]; exact ⟨b1, b2⟩⟩
  have hi : ∃ giy, A.sI = true → S.C.dh A.suite.ecdh S.i.i S.r.gY = some giy ∧ S.C.dh A.suite.ecdh S.r.y A.gI = some giy := by
    cases h : A.sI with
    | false => exact ⟨[], fun h => by cases h⟩
    | true =>
      obtain ⟨g, b1, b2⟩ := C73_dh junk hj nonce x509 _ (K.static_i h) K.eph_r
      exact ⟨g, fun _ => by rw [hC]; exact ⟨b1, b2⟩⟩
  obtain ⟨grx, hr⟩ := hr
  obtain ⟨giy, hi⟩ := hi
  refine ⟨gxy, grx, giy, ?_⟩
  have hs : ∀ {sd : Bool} {sk pks pkv : Bytes}, (sd = false → SigPair nonce A.suite.sign sk pks pkv) → SigOk S.C sd A.suite sk pks pkv := by
    intro sd sk pks pkv h hd
    refine ⟨(h hd).len, fun m => ?_⟩
    rw [hC]; exact C73_sign junk nonce x509 _ (h hd) m
  exact
    { H with
      lawful := by rw [hC]; exact mbedE_lawful junk nonce x509
      dh_xy := by rw [hC]; exact ⟨a1, a2⟩
      dh_r := fun h => ⟨(hr h).1, (hr h).2, (K.static_r h).len⟩
      dh_i := fun h => ⟨(hi h).1, (hi h).2, (K.static_i h).len⟩
      sig_r := hs K.sig_r
      sig_i := hs K.sig_i
      aead := by rw [hC]; exact realE_aeadOk nonce x509 A.suite }

/-- **C73** An honest run with the standardised primitives ends with the same key on both sides (C39), whatever the keys:
consistent configuration and key pairs as the standards define them are all that is needed.
Missing: what is missing from `C39_partial` (EAD_2, EAD_3, long message_3), where the claim is false of the code. -/
theorem C73_partial {S : Setup} {A : Agreed} (H : S.Conf A) (hm : S.cfgI.message4 = false ∧ S.cfgR.message4 = false)
    {junk : Limbs} (hj : junk.length = 8) {nonce : Bytes → Bytes → Nat} {x509 : Bytes → Option X509}
    (hC : S.C = mbedE junk nonce x509) (K : S.Keys A nonce) : ∃ m1 m2 m3 oI oR nI nR,
    initiatorRun S.cfgI S.C S.i S.credsR S.crBuf S.L (netOf [m2]) = (.ok oI, nI) ∧ nI.sent = [m1, m3] ∧
    responderRun S.cfgR S.C S.r S.credsI S.cICap S.L (netOf [m1, m3]) = (.ok oR, nR) ∧ nR.sent = [m2] ∧
    oI.prkOut = some oR.prkOut ∧ oR.prkOut.length = S.L ∧ oI.th4 = oR.th4 ∧ oI.prk4e3m = oR.prk4e3m ∧
    oI.cR = S.r.cR ∧ oR.cI = cIStored S.i.cI ∧ oR.pk = A.pkI := by
  obtain ⟨_, _, _, h⟩ := H.honest hj hC K
  have h' := C39_partial h hm
  exact h'

/-- **C73** The same with message_4. -/
theorem C73_message_4_partial {S : Setup} {A : Agreed} (H : S.Conf A) (hm : S.cfgI.message4 = true ∧ S.cfgR.message4 = true)
    (he : S.r.ead4 = []) (ht : A.suite.aead.tagLen ≤ S.cfgI.eadSize + 8 ∧ A.suite.aead.tagLen ≤ S.cfgR.eadSize + 8)
    {junk : Limbs} (hj : junk.length = 8) {nonce : Bytes → Bytes → Nat} {x509 : Bytes → Option X509}
    (hC : S.C = mbedE junk nonce x509) (K : S.Keys A nonce) : ∃ m1 m2 m3 m4 oI oR nI nR,
    initiatorRun S.cfgI S.C S.i S.credsR S.crBuf S.L (netOf [m2, m4]) = (.ok oI, nI) ∧ nI.sent = [m1, m3] ∧
    responderRun S.cfgR S.C S.r S.credsI S.cICap S.L (netOf [m1, m3]) = (.ok oR, nR) ∧ nR.sent = [m2, m4] ∧
    oI.prkOut = some oR.prkOut ∧ oR.prkOut.length = S.L ∧ oI.th4 = oR.th4 ∧ oI.prk4e3m = oR.prk4e3m ∧
    oI.cR = S.r.cR ∧ oR.cI = cIStored S.i.cI ∧ oR.pk = A.pkI := by
  obtain ⟨_, _, _, h⟩ := H.honest hj hC K
  have h' := C39_message_4_partial h hm he ht
  exact h'

/-- **C73** EDHOC and then OSCORE, everything computed with the standardised primitives: after the run both sides derive OSCORE
parameters and contexts, over which every proper sequence of requests and responses (C64), in both directions, is delivered.
Missing: as in C39, C45 and C64. -/
theorem C73_conversation_partial {S : Setup} {A : Agreed} (H : S.Conf A) (hm : S.cfgI.message4 = false ∧ S.cfgR.message4 = false)
    {junk : Limbs} (hj : junk.length = 8) {nonce : Bytes → Bytes → Nat} {x509 : Bytes → Option X509}
    (hC : S.C = mbedE junk nonce x509) (K : S.Keys A nonce) (hcI : cIStored S.i.cI = S.i.cI)
    (hid : S.i.cI.length ≤ 4 ∧ S.r.cR.length ≤ 4) (idContext : Bytes) (hctx : idContext.length ≤ 10) :
    ∃ m1 m2 m3 oI oR nI nR prk p q,
      initiatorRun S.cfgI S.C S.i S.credsR S.crBuf S.L (netOf [m2]) = (.ok oI, nI) ∧ nI.sent = [m1, m3] ∧
      responderRun S.cfgR S.C S.r S.credsI S.cICap S.L (netOf [m1, m3]) = (.ok oR, nR) ∧ nR.sent = [m2] ∧
      oI.prkOut = some prk ∧
      oscoreParams S.cfgI S.C prk oI.cR S.i.cI idContext = .ok p ∧
      oscoreParams S.cfgR S.C oR.prkOut oR.cI S.r.cR idContext = .ok q ∧
      ∀ (cfg : Cfg) (nv nv' : R Nat) (jn je jn' je' : Bytes), 0 < cfg.interactions → 50 ≤ cfg.infoMax → cfg.uriMax ≤ 255 →
        ∃ a b, contextInit cfg realCrypto p nv jn je = .ok a ∧ contextInit cfg realCrypto q nv' jn' je' = .ok b ∧
          ∀ ms, Proper cfg [] ms → ms.length ≤ 0x7FFFFF →
            (converse cfg realCrypto ⟨a, 0, []⟩ ⟨b, 0, []⟩ ms).length = ms.length ∧
            ∀ x ∈ ms.zip (converse cfg realCrypto ⟨a, 0, []⟩ ⟨b, 0, []⟩ ms), Delivered x.1 x.2 := by
  have e : S.C.toCrypto = realCrypto := by rw [hC]; rfl
  obtain ⟨_, _, _, h⟩ := H.honest hj hC K
  have h' := C64_edhoc_partial h hm hcI hid idContext hctx (by rw [e]; exact realCrypto_aeadTotal)
  rw [e] at h'
  exact h'

/-- **C73** The same with message_4. -/
theorem C73_conversation_message_4_partial {S : Setup} {A : Agreed} (H : S.Conf A) (hm : S.cfgI.message4 = true ∧ S.cfgR.message4 = true)
    (he : S.r.ead4 = []) (ht : A.suite.aead.tagLen ≤ S.cfgI.eadSize + 8 ∧ A.suite.aead.tagLen ≤ S.cfgR.eadSize + 8)
    {junk : Limbs} (hj : junk.length = 8) {nonce : Bytes → Bytes → Nat} {x509 : Bytes → Option X509}
    (hC : S.C = mbedE junk nonce x509) (K : S.Keys A nonce) (hcI : cIStored S.i.cI = S.i.cI)
    (hid : S.i.cI.length ≤ 4 ∧ S.r.cR.length ≤ 4) (idContext : Bytes) (hctx : idContext.length ≤ 10) :
    ∃ m1 m2 m3 m4 oI oR nI nR prk p q,
      initiatorRun S.cfgI S.C S.i S.credsR S.crBuf S.L (netOf [m2, m4]) = (.ok oI, nI) ∧ nI.sent = [m1, m3] ∧
      responderRun S.cfgR S.C S.r S.credsI S.cICap S.L (netOf [m1, m3]) = (.ok oR, nR) ∧ nR.sent = [m2, m4] ∧
      oI.prkOut = some prk ∧
      oscoreParams S.cfgI S.C prk oI.cR S.i.cI idContext = .ok p ∧
      oscoreParams S.cfgR S.C oR.prkOut oR.cI S.r.cR idContext = .ok q ∧
      ∀ (cfg : Cfg) (nv nv' : R Nat) (jn je jn' je' : Bytes), 0 < cfg.interactions → 50 ≤ cfg.infoMax → cfg.uriMax ≤ 255 →
        ∃ a b, contextInit cfg realCrypto p nv jn je = .ok a ∧ contextInit cfg realCrypto q nv' jn' je' = .ok b ∧
          ∀ ms, Proper cfg [] ms → ms.length ≤ 0x7FFFFF →
            (converse cfg realCrypto ⟨a, 0, []⟩ ⟨b, 0, []⟩ ms).length = ms.length ∧
            ∀ x ∈ ms.zip (converse cfg realCrypto ⟨a, 0, []⟩ ⟨b, 0, []⟩ ms), Delivered x.1 x.2 := by
  have e : S.C.toCrypto = realCrypto := by rw [hC]; rfl
  obtain ⟨_, _, _, h⟩ := H.honest hj hC K
  have h' := C64_edhoc_message_4_partial h hm he ht hcI hid idContext hctx (by rw [e]; exact realCrypto_aeadTotal)
  rw [e] at h'
  exact h'

/-! ### Concrete runs: suites 0 and 2, methods 0 and 3, with these keys -/
namespace RealEx

def x1 : Bytes := [164, 224, 146, 146, 182, 81, 194, 120, 185, 119, 44, 86, 159, 95, 169, 187, 19, 217, 6, 180, 106, 182, 140, 157, 249, 220, 43, 68, 9, 248, 162, 9]
def x2 : Bytes := [206, 141, 58, 209, 204, 182, 51, 236, 123, 112, 193, 120, 20, 165, 199, 110, 205, 2, 150, 133, 5, 13, 52, 71, 69, 186, 5, 135, 14, 88, 125, 89]
def x5 : Bytes := [80, 166, 20, 9, 177, 221, 208, 50, 94, 155, 22, 183, 0, 231, 25, 233, 119, 44, 7, 0, 11, 27, 215, 120, 110, 144, 124, 101, 61, 32, 73, 93]
def x6 : Bytes := [245, 178, 214, 230, 15, 148, 119, 227, 16, 194, 152, 45, 170, 166, 201, 19, 108, 16, 138, 23, 119, 197, 148, 126, 68, 143, 163, 125, 104, 23, 69, 87]
def e3 : Bytes := [237, 73, 40, 198, 40, 209, 194, 198, 234, 233, 3, 56, 144, 89, 149, 97, 41, 89, 39, 58, 92, 99, 249, 54, 54, 193, 70, 20, 172, 135, 55, 209]
def e7 : Bytes := [234, 74, 108, 99, 226, 156, 82, 10, 190, 245, 80, 123, 19, 46, 197, 249, 149, 71, 118, 174, 190, 190, 123, 146, 66, 30, 234, 105, 20, 70, 210, 44]
def p1 : Bytes := [111, 240, 59, 148, 146, 65, 206, 29, 173, 212, 53, 25, 230, 150, 14, 10, 133, 180, 26, 105, 160, 92, 50, 129, 3, 170, 43, 206, 21, 148, 202, 22]
def p2 : Bytes := [85, 15, 71, 16, 3, 243, 223, 151, 195, 223, 80, 106, 199, 151, 246, 114, 31, 177, 161, 251, 123, 143, 111, 131, 210, 36, 73, 138, 101, 200, 142, 36]
def p5 : Bytes := [7, 129, 14, 169, 116, 206, 165, 119, 62, 99, 184, 151, 243, 126, 59, 233, 160, 158, 122, 95, 233, 185, 113, 164, 77, 16, 101, 172, 42, 58, 147, 17]
def p6 : Bytes := [176, 81, 76, 76, 19, 84, 15, 35, 151, 245, 71, 25, 243, 51, 46, 126, 243, 142, 66, 173, 157, 192, 139, 113, 230, 96, 206, 22, 185, 232, 141, 9]
def s3 : Bytes := [4, 89, 26, 183, 113, 235, 188, 253, 109, 156, 185, 9, 77, 16, 101, 40, 173, 209, 166, 157, 68, 194, 193, 246, 39, 240, 137, 236, 88, 185, 198, 26, 223, 159, 78, 106, 191, 13, 4, 92, 12, 105, 58, 60, 104, 173, 124, 151, 202, 114, 190, 100, 222, 244, 162, 111, 236, 210, 99, 221, 152, 169, 39, 128, 240]
def s7 : Bytes := [4, 30, 24, 83, 47, 212, 117, 76, 2, 243, 4, 29, 156, 117, 206, 179, 59, 131, 255, 216, 26, 199, 206, 79, 232, 130, 204, 177, 201, 139, 197, 137, 110, 164, 108, 49, 28, 78, 47, 244, 13, 217, 106, 54, 83, 230, 228, 84, 69, 211, 45, 254, 72, 110, 206, 215, 92, 122, 144, 198, 161, 136, 129, 192, 163]

/-- a random number that works -/
def nonce (sk m : Bytes) : Nat := if ecdsaSign 1 sk m = none then 2 else 1

theorem nonce_ok {sk : Bytes} (h : SkOk sk) (m : Bytes) : 0 < nonce sk m ∧ nonce sk m < n256 ∧ ecdsaSign (nonce sk m) sk m ≠ none := by
  have := P256.ecdsa_nonce h m
  unfold nonce
  by_cases h : ecdsaSign 1 sk m = none
  · rw [if_pos h]
    exact ⟨by decide, by decide, this.resolve_left (fun k => k h)⟩
  · rw [if_neg h]
    exact ⟨by decide, by decide, h⟩

def junk : Limbs := [1, 2, 3, 4, 5, 6, 7, 8]

/-- the parties: P-256 (`p`) or 25519 -/
def setup (p : Bool) (method : Int) : Setup where
  cfgI := {}
  cfgR := {}
  C := mbedE junk nonce (fun _ => none)
  i := { toyI method with suitesI := if p then [2] else [0], gX := if p then p1 else x1, pkI := if p then s3 else e3 }
  r := { toyR with suitesR := if p then [2] else [0], gY := if p then p5 else x5, pkR := if p then s7 else e7 }
  credsR := [⟨[0xa1, 0x18, 0x22, 0x82, 0x2e, 0x42, 1, 2], [0xa1, 3, 4], if p then s7 else e7, if p then p6 else x6, [], []⟩]
  credsI := [⟨[0xa1, 0x04, 0x2b], [0xa1, 1, 2], if p then s3 else e3, if p then p2 else x2, [], []⟩]
  crBuf := List.replicate 10 0
  cICap := 10
  L := 32

def agreed (p sI sR : Bool) : Agreed where
  sI := sI
  sR := sR
  suite := if p then ⟨2, .ccm64, 8, .p256, .es256, .ccm64⟩ else ⟨0, .ccm64, 8, .x25519, .eddsa, .ccm64⟩
  pkI := if sI then [] else if p then s3 else e3
  gI := if sI then (if p then p2 else x2) else []
  pkR := if sR then [] else if p then s7 else e7
  gR := if sR then (if p then p6 else x6) else []
  gxy := []
  grx := []
  giy := []
  wI := [0x2b]
  wR := toyR.idCredR

theorem conf (p b : Bool) : (setup p (if b then 3 else 0)).Conf (agreed p b b) where
  method := by cases p <;> cases b <;> decide
  suite_ne := by cases p <;> simp [setup, toyI]
  suite_len := by cases p <;> simp [setup, toyI]
  suite_fit := by cases p <;> simp [setup, toyI]
  suite := by cases p <;> cases b <;> decide +kernel
  suite_supp := by cases p <;> cases b <;> decide +kernel
  gX := by cases p <;> rfl
  gY := by cases p <;> rfl
  x := by cases p <;> simp [setup, toyI]
  y := by cases p <;> simp [setup, toyR]
  cred_r := by cases p <;> cases b <;> decide +kernel
  cred_i := by cases p <;> cases b <;> decide +kernel
  cred_r_ne := by simp [setup, toyR]
  cred_i_ne := by simp [setup, toyI]
  wire_r := ex_wire_r
  wire_i := ex_wire_i
  ead_2 := rfl
  ead_3 := rfl
  mem_r := by intro h; cases h
  mem_i := by intro h; cases h
  fit_ri := by cases p <;> cases b <;> exact ⟨by unfold ECfg.Small; decide +kernel, by decide, by decide, by decide⟩
  fit_rr := by cases p <;> cases b <;> exact ⟨by unfold ECfg.Small; decide +kernel, by decide, by decide, by decide⟩
  fit_ii := by cases p <;> cases b <;> exact ⟨by unfold ECfg.Small; decide +kernel, by decide, by decide, by decide⟩
  fit_ir := by cases p <;> cases b <;> exact ⟨by unfold ECfg.Small; decide +kernel, by decide, by decide, by decide⟩
  fit_id_r := by cases p <;> cases b <;> decide +kernel
  fit_id_i := by cases p <;> cases b <;> decide +kernel
  fit_cr_i := by cases p <;> cases b <;> decide +kernel
  fit_cr_r := by cases p <;> cases b <;> decide +kernel
  fit_cr_r' := by cases p <;> cases b <;> decide +kernel
  fit_cr_buf := by cases p <;> cases b <;> decide +kernel
  fit_ci := by cases p <;> cases b <;> decide +kernel
  fit_ci' := by cases p <;> cases b <;> decide +kernel
  fit_ead1 := by cases p <;> cases b <;> decide +kernel
  fit_m1 := by cases p <;> cases b <;> decide +kernel
  fit_p2 := by cases p <;> cases b <;> decide +kernel
  fit_p2_i := by cases p <;> cases b <;> decide +kernel
  fit_p2_kdf := by cases p <;> cases b <;> decide +kernel
  fit_m2 := by cases p <;> cases b <;> decide +kernel
  fit_p3 := by cases p <;> cases b <;> decide +kernel
  fit_c3 := by cases p <;> cases b <;> decide +kernel
  fit_p3_r := by cases p <;> cases b <;> decide +kernel
  fit_m3_r := by cases p <;> cases b <;> decide +kernel
  fit_m3 := by cases p <;> cases b <;> decide +kernel
  fit_L := by cases p <;> cases b <;> decide +kernel

theorem skOk (n : UInt8) (h : n = 1 ∨ n = 2 ∨ n = 3 ∨ n = 5 ∨ n = 6 ∨ n = 7) : SkOk (List.replicate 32 n) := by
  rcases h with rfl | rfl | rfl | rfl | rfl | rfl <;> exact ⟨rfl, by decide +kernel, by decide +kernel⟩

set_option maxRecDepth 100000 in
theorem keys25519 (b : Bool) : (setup false (if b then 3 else 0)).Keys (agreed false b b) nonce where
  eph_i := ⟨by simp [setup, toyI], (by decide +kernel : x1 = Curves.x25519 (List.replicate 32 1) _)⟩
  eph_r := ⟨by simp [setup, toyR], (by decide +kernel : x5 = Curves.x25519 (List.replicate 32 5) _)⟩
  static_r h := by
    cases b with
    | false => cases h
    | true => exact ⟨by simp [setup, toyR], (by decide +kernel : x6 = Curves.x25519 (List.replicate 32 6) _)⟩
  static_i h := by
    cases b with
    | false => cases h
    | true => exact ⟨by simp [setup, toyI], (by decide +kernel : x2 = Curves.x25519 (List.replicate 32 2) _)⟩
  sig_r h := by
    cases b with
    | true => cases h
    | false =>
      have e : e7 = edPublic (List.replicate 32 7) := by decide +kernel
      exact ⟨by simp [setup, toyR], e, e⟩
  sig_i h := by
    cases b with
    | true => cases h
    | false =>
      have e : e3 = edPublic (List.replicate 32 3) := by decide +kernel
      exact ⟨by simp [setup, toyI], e, e⟩

theorem pub_x {n : UInt8} {x : Bytes} (hk : SkOk (List.replicate 32 n)) (h : ((p256Public (List.replicate 32 n)).map fun p => (p.drop 1).take 32) = some x) :
    DhPair .p256 (List.replicate 32 n) x := by
  refine ⟨hk, ?_⟩
  cases hp : p256Public (List.replicate 32 n) with
  | none => rw [hp] at h; cases h
  | some p =>
    rw [hp] at h
    cases h
    exact ⟨p, rfl, rfl⟩

set_option maxRecDepth 100000 in
theorem keys256 (b : Bool) : (setup true (if b then 3 else 0)).Keys (agreed true b b) nonce where
  eph_i := pub_x (skOk 1 (by decide)) (x := p1) (by decide +kernel)
  eph_r := pub_x (skOk 5 (by decide)) (x := p5) (by decide +kernel)
  static_r h := by
    cases b with
    | false => cases h
    | true => exact pub_x (skOk 6 (by decide)) (x := p6) (by decide +kernel)
  static_i h := by
    cases b with
    | false => cases h
    | true => exact pub_x (skOk 2 (by decide)) (x := p2) (by decide +kernel)
  sig_r h := by
    cases b with
    | true => cases h
    | false => exact ⟨skOk 7 (by decide), (by decide : 32 ≤ s7.length), (by decide +kernel : p256Public (List.replicate 32 7) = some s7), nonce_ok (skOk 7 (by decide))⟩
  sig_i h := by
    cases b with
    | true => cases h
    | false => exact ⟨skOk 3 (by decide), (by decide : 32 ≤ s3.length), (by decide +kernel : p256Public (List.replicate 32 3) = some s3), nonce_ok (skOk 3 (by decide))⟩

/-- the hypotheses of `C73_partial` and `C73_conversation_partial` are met by the four examples -/
example (p b : Bool) : (setup p (if b then 3 else 0)).Conf (agreed p b b) ∧ (setup p (if b then 3 else 0)).Keys (agreed p b b) nonce ∧
    junk.length = 8 ∧ (setup p (if b then 3 else 0)).C = mbedE junk nonce (fun _ => none) ∧
    ((setup p (if b then 3 else 0)).cfgI.message4 = false ∧ (setup p (if b then 3 else 0)).cfgR.message4 = false) ∧
    (cIStored (setup p (if b then 3 else 0)).i.cI = (setup p (if b then 3 else 0)).i.cI ∧ (setup p (if b then 3 else 0)).i.cI.length ≤ 4 ∧
      (setup p (if b then 3 else 0)).r.cR.length ≤ 4) :=
  ⟨conf p b, by cases p <;> first | exact keys25519 b | exact keys256 b, rfl, rfl, ⟨rfl, rfl⟩, rfl, by cases p <;> cases b <;> decide, by cases p <;> cases b <;> decide⟩

end RealEx

end Verif.Edhoc
