import Verif.Model.EdhocFaults
import Verif.Props.Faults
import Verif.Props.EdhocHonest
import Verif.Props.EdhocOut
/-
C100: EDHOC over a crypto library that fails now and then.
-/
namespace Verif.Edhoc
open Verif

/-- `m'` is `m`, or the error of the library -/
def FallsR (m m' : R α) : Prop := m' = m ∨ m' = .err .unexpected_result_from_ext_lib

theorem FallsR.refl {m : R α} : FallsR m m := Or.inl rfl

theorem FallsR.bind {m m' : R α} {f f' : α → R β} (h : FallsR m m') (hf : ∀ a, FallsR (f a) (f' a)) :
    FallsR (m >>= f) (m' >>= f') := by
  rcases h with rfl | rfl
  · cases m' with
    | ok a => exact hf a
    | err e => exact Or.inl rfl
    | ub => exact Or.inl rfl
  · exact Or.inr rfl

theorem FallsR.map {m m' : R α} {f : α → R β} (h : FallsR m m') : FallsR (m >>= f) (m' >>= f) := h.bind fun _ => .refl

theorem FallsR.next {m : R α} {f f' : α → R β} (hf : ∀ a, FallsR (f a) (f' a)) : FallsR (m >>= f) (m >>= f') :=
  FallsR.refl.bind hf

section
variable {C C' : ECrypto} (hF : FaultyE C C')
include hF

theorem hash_falls (m : Bytes) : hash C' m = hash C m := by unfold hash; rw [hF.base.hash]

theorem hkdfExtract_falls (s i : Bytes) : hkdfExtract C'.toCrypto s i = hkdfExtract C.toCrypto s i := by
  unfold hkdfExtract; rw [hF.base.hmac]

theorem expandLoop_falls (prk info : Bytes) (L : Nat) : ∀ n i t b out,
    expandLoop C'.toCrypto prk info L n i t b out = expandLoop C.toCrypto prk info L n i t b out
  | 0, _, _, _, _ => rfl
  | n + 1, i, t, b, out => by
    simp only [expandLoop]
    rw [hF.base.hmac]
    exact expandLoop_falls prk info L n _ _ _ _

theorem edhocKdf_falls (cfg : ECfg) (prk : Bytes) (label : Nat) (context : Bytes) (L : Nat) :
    edhocKdf cfg C' prk label context L = edhocKdf cfg C prk label context L := by
  unfold edhocKdf hkdfExpand
  simp only [expandLoop_falls hF]

theorem sharedSecret_falls (a : EcdhAlg) (sk pk : Bytes) : FallsR (sharedSecret C a sk pk) (sharedSecret C' a sk pk) := by
  unfold sharedSecret
  split
  · exact .refl
  · rcases hF.dh a sk pk with h | h <;> rw [h]
    · exact Or.inr rfl
    · exact .refl

theorem signMsg_falls (a : SignAlg) (sk pk m : Bytes) : FallsR (signMsg C a sk pk m) (signMsg C' a sk pk m) := by
  unfold signMsg
  split
  · exact .refl
  · rcases hF.sign a sk pk m with h | h <;> rw [h]
    · exact Or.inr rfl
    · exact .refl

theorem verifySig_falls (a : SignAlg) (pk m s : Bytes) : FallsR (verifySig C a pk m s) (verifySig C' a pk m s) := by
  unfold verifySig
  split
  · exact .refl
  · rcases hF.verify a pk m s with h | h <;> rw [h]
    · exact Or.inr rfl
    · exact .refl

theorem th2Calc_falls (h gY : Bytes) : th2Calc C' h gY = th2Calc C h gY := by
  unfold th2Calc; simp only [hash_falls hF]

theorem th34Calc_falls (cfg : ECfg) (th pt cred : Bytes) : th34Calc cfg C' th pt cred = th34Calc cfg C th pt cred := by
  unfold th34Calc; simp only [hash_falls hF]

theorem prkDerive_falls (cfg : ECfg) (b : Bool) (suite : Suite) (label : Nat) (context prkIn pk sk : Bytes) :
    FallsR (prkDerive cfg C b suite label context prkIn pk sk) (prkDerive cfg C' b suite label context prkIn pk sk) := by
  unfold prkDerive
  split
  · simp only [edhocKdf_falls hF, hkdfExtract_falls hF]
    exact (sharedSecret_falls hF _ _ _).map
  · exact .refl

theorem mac_falls (cfg : ECfg) (prk cR mem th idCred cred ead : Bytes) (label : Nat) (b : Bool) (suite : Suite) :
    mac cfg C' prk cR mem th idCred cred ead label b suite = mac cfg C prk cR mem th idCred cred ead label b suite := by
  unfold mac; simp only [edhocKdf_falls hF]

theorem sigOrMacGen_falls (cfg : ECfg) (b : Bool) (suite : Suite) (sk pk prk cR mem th idCred cred ead : Bytes) (label : Nat) :
    FallsR (sigOrMacGen cfg C b suite sk pk prk cR mem th idCred cred ead label)
      (sigOrMacGen cfg C' b suite sk pk prk cR mem th idCred cred ead label) := by
  unfold sigOrMacGen
  rw [mac_falls hF]
  refine .next fun m => ?_
  split
  · exact .refl
  · exact .next fun s => signMsg_falls hF _ _ _ _

theorem sigOrMacVerify_falls (cfg : ECfg) (b : Bool) (suite : Suite) (pk prk cR mem th idCred cred ead : Bytes) (label : Nat)
    (rcv : Bytes) :
    FallsR (sigOrMacVerify cfg C b suite pk prk cR mem th idCred cred ead label rcv)
      (sigOrMacVerify cfg C' b suite pk prk cR mem th idCred cred ead label rcv) := by
  unfold sigOrMacVerify
  rw [mac_falls hF]
  refine .next fun m => ?_
  split
  · exact .refl
  · exact .next fun s => (verifySig_falls hF _ _ _ _).map

theorem caSearch_falls (mem : Bytes) : ∀ creds, FallsR (caSearch C mem creds) (caSearch C' mem creds)
  | [] => .refl
  | c :: cs => by
    unfold caSearch
    split
    · exact caSearch_falls mem cs
    · rcases hF.x509 c.ca with h | h <;> rw [h]
      · exact Or.inr rfl
      · split
        · exact .refl
        · split
          · exact .refl
          · exact caSearch_falls mem cs

theorem caPkGet_falls (creds : List Cred) (mem : Bytes) : FallsR (caPkGet C creds mem) (caPkGet C' creds mem) := by
  unfold caPkGet
  split
  · split
    · exact .refl
    · exact caSearch_falls hF _ _
  · exact caSearch_falls hF _ _

theorem certX509Verify_falls (cert : Bytes) (creds : List Cred) (cap : Nat) :
    FallsR (certX509Verify C cert creds cap) (certX509Verify C' cert creds cap) := by
  unfold certX509Verify
  rcases hF.x509 cert with h | h <;> rw [h]
  · exact Or.inr rfl
  · split
    · exact .refl
    · split
      · exact .refl
      · exact (caPkGet_falls hF _ _).bind fun _ => (verifySig_falls hF _ _ _ _).map

theorem certC509Verify_falls (cfg : ECfg) (cert : Bytes) (creds : List Cred) (cap : Nat) :
    FallsR (certC509Verify cfg C cert creds cap) (certC509Verify cfg C' cert creds cap) := by
  unfold certC509Verify
  split
  · exact .refl
  · refine (caPkGet_falls hF _ _).bind fun _ => FallsR.map ?_
    unfold c509Sig
    split
    · exact verifySig_falls hF _ _ _ _
    · split
      · exact verifySig_falls hF _ _ _ _
      · exact .refl

theorem verifyCert2cred_falls (cfg : ECfg) (b : Bool) (creds : List Cred) (x : Bool) (cert : Bytes) (cap : Nat) :
    FallsR (verifyCert2cred cfg C b creds x cert cap) (verifyCert2cred cfg C' b creds x cert cap) := by
  unfold verifyCert2cred certOut
  refine .next fun _ => FallsR.map ?_
  split
  · exact certX509Verify_falls hF _ _ _
  · exact certC509Verify_falls hF _ _ _ _

theorem retrieveCred_falls (cfg : ECfg) (b : Bool) (creds : List Cred) (id : Bytes) (cap : Nat) :
    FallsR (retrieveCred cfg C b creds id cap) (retrieveCred cfg C' b creds id cap) := by
  unfold retrieveCred
  split
  · exact .refl
  · split
    · exact .refl
    · split
      · exact verifyCert2cred_falls hF _ _ _ _ _ _
      · exact verifyCert2cred_falls hF _ _ _ _ _ _
      · exact verifyCert2cred_falls hF _ _ _ _ _ _
      · exact verifyCert2cred_falls hF _ _ _ _ _ _
      · exact .refl

theorem keyGen_falls (cfg : ECfg) (ct : Ctxt) (prk th : Bytes) (len : Nat) : keyGen cfg C' ct prk th len = keyGen cfg C ct prk th len := by
  unfold keyGen; simp only [edhocKdf_falls hF]

theorem ctxtEncrypt_falls (ct : Ctxt) (suite : Suite) (key iv th p : Bytes) (n : Nat) :
    FallsR (ctxtEncrypt C ct suite key iv th p n) (ctxtEncrypt C' ct suite key iv th p n) := by
  unfold ctxtEncrypt
  split
  · exact .refl
  · refine .next fun aad => ?_
    split
    · exact .refl
    · rcases hF.base.enc key iv aad suite.aead.tagLen p with h | h <;> rw [h]
      · exact Or.inr rfl
      · exact .refl

theorem ciphertextGen_falls (cfg : ECfg) (ct : Ctxt) (suite : Suite) (cR id sm ead prk th : Bytes) (n cap : Nat) :
    FallsR (ciphertextGen cfg C ct suite cR id sm ead prk th n cap) (ciphertextGen cfg C' ct suite cR id sm ead prk th n cap) := by
  unfold ciphertextGen
  simp only [keyGen_falls hF]
  exact .next fun _ => .next fun _ => (ctxtEncrypt_falls hF _ _ _ _ _ _ _).map

theorem ctxtDecrypt_falls (cfg : ECfg) (ct : Ctxt) (suite : Suite) (prk th c : Bytes) :
    FallsR (ctxtDecrypt cfg C ct suite prk th c) (ctxtDecrypt cfg C' ct suite prk th c) := by
  unfold ctxtDecrypt
  simp only [keyGen_falls hF]
  refine .next fun k => .next fun aad => ?_
  split
  · exact .refl
  · split
    · exact .refl
    · rcases hF.base.dec k.1 k.2 aad suite.aead.tagLen c with h | h <;> rw [h]
      · exact Or.inr rfl
      · exact .refl

theorem msg1Gen_falls (cfg : ECfg) (c : ICtx) : msg1Gen cfg C' c = msg1Gen cfg C c := by
  unfold msg1Gen; simp only [hash_falls hF]

theorem msg2Gen_falls (cfg : ECfg) (c : RCtx) (m1 : Bytes) (cap : Nat) (ead : Bytes) :
    FallsR (msg2Gen cfg C c m1 cap ead) (msg2Gen cfg C' c m1 cap ead) := by
  unfold msg2Gen
  refine .next fun p => ?_
  split
  · exact .refl
  · unfold msg2Build ctxt2Gen
    simp only [hash_falls hF, th2Calc_falls hF, th34Calc_falls hF, hkdfExtract_falls hF]
    refine .next fun _ => .next fun _ => (sharedSecret_falls hF _ _ _).bind fun _ => (prkDerive_falls hF _ _ _ _ _ _ _ _).bind fun _ =>
      FallsR.map ((sigOrMacGen_falls hF _ _ _ _ _ _ _ _ _ _ _ _ _).bind fun _ => .next fun _ => ciphertextGen_falls hF _ _ _ _ _ _ _ _ _ _ _)

theorem msg2Process_falls (cfg : ECfg) (c : ICtx) (creds : List Cred) (suite : Suite) (h m2 : Bytes) (sI sR : Bool) (buf ead : Bytes) :
    FallsR (msg2Process cfg C c creds suite h m2 sI sR buf ead) (msg2Process cfg C' c creds suite h m2 sI sR buf ead) := by
  unfold msg2Process msg2Auth
  simp only [th2Calc_falls hF, th34Calc_falls hF, hkdfExtract_falls hF]
  exact .next fun _ => .next fun _ => (sharedSecret_falls hF _ _ _).bind fun _ => .next fun _ => (ctxtDecrypt_falls hF _ _ _ _ _ _).bind fun _ =>
    .next fun _ => (retrieveCred_falls hF _ _ _ _ _).bind fun _ => (prkDerive_falls hF _ _ _ _ _ _ _ _).bind fun _ =>
    (sigOrMacVerify_falls hF _ _ _ _ _ _ _ _ _ _ _ _ _).bind fun _ => .next fun _ => (prkDerive_falls hF _ _ _ _ _ _ _ _).map

theorem msg3Build_falls (cfg : ECfg) (c : ICtx) (suite : Suite) (sI : Bool) (s : IState) (cap : Nat) :
    FallsR (msg3Build cfg C c suite sI s cap) (msg3Build cfg C' c suite sI s cap) := by
  unfold msg3Build
  exact .next fun _ => .next fun _ => (sigOrMacGen_falls hF _ _ _ _ _ _ _ _ _ _ _ _ _).bind fun _ => (ciphertextGen_falls hF _ _ _ _ _ _ _ _ _ _ _).map

/-- the error of `msg3_only_gen` is ignored -/
theorem msg3OnlyGen_falls (cfg : ECfg) (c : ICtx) (suite : Suite) (sI : Bool) (s : IState) (m2 : Bytes) (L : Nat) :
    msg3OnlyGen cfg C' c suite sI s m2 L = msg3OnlyGen cfg C c suite sI s m2 L ∨
    msg3OnlyGen cfg C' c suite sI s m2 L = .ok ⟨m2, List.replicate 32 0, none⟩ := by
  unfold msg3OnlyGen th4Of
  simp only [th34Calc_falls hF, edhocKdf_falls hF]
  rcases msg3Build_falls hF cfg c suite sI s m2.length with h | h <;> rw [h]
  · exact Or.inl rfl
  · exact Or.inr rfl

theorem msg3Process_falls (cfg : ECfg) (c : RCtx) (creds : List Cred) (rs : RState) (m3 : Bytes) (L : Nat) :
    FallsR (msg3Process cfg C c creds rs m3 L) (msg3Process cfg C' c creds rs m3 L) := by
  unfold msg3Process msg3Auth
  simp only [th34Calc_falls hF, edhocKdf_falls hF]
  exact .next fun _ => .next fun _ => .next fun _ => (ctxtDecrypt_falls hF _ _ _ _ _ _).bind fun _ => .next fun _ =>
    (retrieveCred_falls hF _ _ _ _ _).bind fun _ => (prkDerive_falls hF _ _ _ _ _ _ _ _).bind fun _ =>
    (sigOrMacVerify_falls hF _ _ _ _ _ _ _ _ _ _ _ _ _).map

theorem msg4Gen_falls (cfg : ECfg) (ead : Bytes) (suite : Suite) (prk th : Bytes) (cap : Nat) :
    FallsR (msg4Gen cfg C ead suite prk th cap) (msg4Gen cfg C' ead suite prk th cap) := by
  unfold msg4Gen
  exact (ciphertextGen_falls hF _ _ _ _ _ _ _ _ _ _ _).map

theorem msg4Process_falls (cfg : ECfg) (suite : Suite) (prk th m4 : Bytes) (cap : Nat) :
    FallsR (msg4Process cfg C suite prk th m4 cap) (msg4Process cfg C' suite prk th m4 cap) := by
  unfold msg4Process
  exact .next fun _ => .next fun _ => (ctxtDecrypt_falls hF _ _ _ _ _ _).map
end

/-- a result of the library that may have failed, and what is done with it -/
theorem FallsAt.liftR {σ : Type} {s : σ} {x x' : R α} {f f' : α → M σ β} (h : FallsR x x')
    (hf : ∀ a, FallsAt (fun _ => True) s (f a) (f' a)) : FallsAt (fun _ => True) s (M.lift x >>= f) (M.lift x' >>= f') := by
  rcases h with rfl | rfl
  · exact FallsAt.lift fun a _ => hf a
  · exact Or.inr ⟨rfl, trivial⟩

/-! ### C100 -/

/-- C100: a responder whose crypto library fails now and then does what it does with a working library, or returns the
library's error. -/
theorem C100_responder {C C' : ECrypto} (hF : FaultyE C C') (cfg : ECfg) (c : RCtx) (creds : List Cred) (cap L : Nat) (n : Net) :
    responderRun cfg C' c creds cap L n = responderRun cfg C c creds cap L n ∨
    (responderRun cfg C' c creds cap L n).1 = .err .unexpected_result_from_ext_lib := by
  have h : FallsAt (fun _ => True) n (responderRun cfg C c creds cap L) (responderRun cfg C' c creds cap L) := by
    unfold responderRun
    refine FallsAt.bind fun m1 n1 _ => FallsAt.liftR (msg2Gen_falls hF _ _ _ _ _) fun x => FallsAt.bind fun _ _ _ => FallsAt.bind fun _ _ _ =>
      FallsAt.bind fun m3 _ _ => FallsAt.liftR (msg3Process_falls hF _ _ _ _ _ _) fun o => FallsAt.bind fun _ _ _ => ?_
    split
    · refine FallsAt.left ?_
      unfold responderMsg4
      exact FallsAt.liftR (msg4Gen_falls hF _ _ _ _ _ _) fun _ => FallsAt.refl
    · exact FallsAt.refl
  exact h.imp id (·.1)

/-- C100: so a responder that finishes has the results, and sent the messages, of a working library: what is proved about
successful runs holds of it. -/
theorem C100_responder_ok {C C' : ECrypto} (hF : FaultyE C C') {cfg : ECfg} {c : RCtx} {creds : List Cred} {cap L : Nat} {n n' : Net}
    {o : ROut} (h : responderRun cfg C' c creds cap L n = (.ok o, n')) : responderRun cfg C c creds cap L n = (.ok o, n') := by
  rcases C100_responder hF cfg c creds cap L n with h1 | h1
  · rw [← h1, h]
  · rw [h] at h1; cases h1

/-- `m'` does from `s` what `m` does, or its result has `Q` -/
def FallsQ (Q : R α → Prop) (s : σ) (m m' : M σ α) : Prop := m' s = m s ∨ Q (m' s).1

theorem FallsQ.bind {Q : R β → Prop} {s : σ} {m : M σ α} {f f' : α → M σ β}
    (h : ∀ a s1, m s = (.ok a, s1) → FallsQ Q s1 (f a) (f' a)) : FallsQ Q s (m >>= f) (m >>= f') := by
  unfold FallsQ
  rw [M.run_bind, M.run_bind]
  rcases hm : m s with ⟨r, s1⟩
  cases r with
  | ok a => exact h a s1 hm
  | err e => exact Or.inl rfl
  | ub => exact Or.inl rfl

theorem msg3Gen_falls {C C' : ECrypto} (hF : FaultyE C C') (cfg : ECfg) (c : ICtx) (creds : List Cred) (suite : Suite)
    (h m2 buf ead : Bytes) (L : Nat) :
    FallsR (msg3Gen cfg C c creds suite h m2 buf ead L) (msg3Gen cfg C' c creds suite h m2 buf ead L) ∨
    ∃ s, msg3Gen cfg C' c creds suite h m2 buf ead L = .ok (s, ⟨m2, List.replicate 32 0, none⟩) := by
  unfold msg3Gen
  simp only
  rcases msg2Process_falls hF cfg c creds suite h m2 (authType c.method (false, false)).1 (authType c.method (false, false)).2 buf ead with h1 | h1 <;>
    rw [h1]
  · cases msg2Process cfg C c creds suite h m2 (authType c.method (false, false)).1 (authType c.method (false, false)).2 buf ead with
    | ok s =>
      simp only [R.ok_bind]
      rcases msg3OnlyGen_falls hF cfg c suite (authType c.method (false, false)).1 s m2 L with h2 | h2 <;> rw [h2]
      · exact Or.inl .refl
      · exact Or.inr ⟨s, rfl⟩
    | err e => exact Or.inl .refl
    | ub => exact Or.inl .refl
  · exact Or.inl (Or.inr rfl)

/-- no result, or none of value -/
def NoKey (cfg : ECfg) (r : R IOut) : Prop := (∀ o, r = .ok o → o.prkOut = none) ∧ (cfg.message4 = false → r ≠ .ub)

theorem netTx_ne_ub (m : Bytes) (n : Net) : (netTx m n).1 ≠ .ub := by
  unfold netTx; split <;> simp

theorem netEad_ne_ub (m : Bytes) (n : Net) : (netEad m n).1 ≠ .ub := by
  unfold netEad; split <;> simp

/-- C100 (partial): an initiator whose crypto library fails now and then does what it does with a working library, or
returns an error, or returns without a PRK_out.  Missing: in the last case the function reports success
(`C100_false_initiator`). -/
theorem C100_initiator_partial {C C' : ECrypto} (hF : FaultyE C C') (cfg : ECfg) (c : ICtx) (creds : List Cred) (buf : Bytes) (L : Nat) (n : Net) :
    initiatorRun cfg C' c creds buf L n = initiatorRun cfg C c creds buf L n ∨
    ((∀ o, (initiatorRun cfg C' c creds buf L n).1 = .ok o → o.prkOut = none) ∧
      (cfg.message4 = false → (initiatorRun cfg C' c creds buf L n).1 ≠ .ub)) := by
  have herr : ∀ (e : Err), NoKey cfg (.err e) := fun e => ⟨(fun o h => by cases h), (fun _ h => by cases h)⟩
  have hnone : ∀ o : IOut, o.prkOut = none → NoKey cfg (.ok o) := fun o ho => ⟨(fun o' h => by cases h; exact ho), (fun _ h => by cases h)⟩
  show FallsQ (NoKey cfg) n (initiatorRun cfg C c creds buf L) (initiatorRun cfg C' c creds buf L)
  unfold initiatorRun
  rw [msg1Gen_falls hF]
  refine FallsQ.bind fun x n1 _ => FallsQ.bind fun _ n2 _ => FallsQ.bind fun m2 n3 _ => ?_
  rcases msg3Gen_falls hF cfg c creds x.2.1 x.2.2 m2 buf (List.replicate cfg.eadSize 0) L with (h1 | h1) | ⟨s, h1⟩
  · rw [h1]
    refine FallsQ.bind fun y n4 _ => FallsQ.bind fun _ n5 _ => FallsQ.bind fun _ n6 _ => ?_
    split
    · unfold initiatorMsg4
      unfold FallsQ
      rw [M.run_bind, M.run_bind, M.run_bind, M.run_bind]
      rcases netRx cfg.msgMaxSize n6 with ⟨r, n7⟩
      cases r with
      | ok m4 =>
        simp only
        rcases msg4Process_falls hF cfg x.2.1 y.1.prk4e3m y.2.th4 m4 y.1.ead.length with h2 | h2 <;> rw [h2]
        · exact Or.inl rfl
        · exact Or.inr (herr _)
      | err e => exact Or.inl rfl
      | ub => exact Or.inl rfl
    · exact Or.inl rfl
  · rw [h1]
    exact Or.inr (herr _)
  · rw [h1]
    refine Or.inr ?_
    rw [M.run_bind, M.run_lift]
    simp only
    rw [M.run_bind]
    rcases he : netEad s.ead n3 with ⟨r, n4⟩
    have hu := netEad_ne_ub s.ead n3
    rw [he] at hu
    cases r with
    | err e => exact herr _
    | ub => exact absurd rfl hu
    | ok u =>
      simp only
      rw [M.run_bind]
      rcases ht : netTx m2 n4 with ⟨r, n5⟩
      have hu := netTx_ne_ub m2 n4
      rw [ht] at hu
      cases r with
      | err e => exact herr _
      | ub => exact absurd rfl hu
      | ok u =>
        simp only
        split
        · rename_i h4
          rw [M.run_bind]
          rcases initiatorMsg4 cfg C' x.2.1 s ⟨m2, List.replicate 32 0, none⟩ n5 with ⟨r, n6⟩
          cases r with
          | ok u => exact hnone _ rfl
          | err e => exact herr _
          | ub => exact ⟨(fun o h => by cases h), fun h => absurd h4 (by rw [h]; simp)⟩
        · exact hnone _ rfl

/-- C100: an initiator that finishes with a PRK_out has the results of a working library. -/
theorem C100_initiator_ok {C C' : ECrypto} (hF : FaultyE C C') {cfg : ECfg} {c : ICtx} {creds : List Cred} {buf : Bytes} {L : Nat} {n n' : Net}
    {o : IOut} (h : initiatorRun cfg C' c creds buf L n = (.ok o, n')) (hk : o.prkOut ≠ none) :
    initiatorRun cfg C c creds buf L n = (.ok o, n') := by
  rcases C100_initiator_partial hF cfg c creds buf L n with h1 | h1
  · rw [← h1, h]
  · exact absurd (h1.1 o (by rw [h])) hk

/-! ### The hypotheses are met, and the counterexample -/

/-- a library that cannot sign -/
def deadSign : ECrypto := { toyE with sign := fun _ _ _ _ => none }

theorem deadSign_faulty : FaultyE toyE deadSign :=
  ⟨⟨rfl, rfl, fun _ _ _ _ _ => Or.inr rfl, fun _ _ _ _ _ => Or.inr rfl⟩, fun _ _ _ => Or.inr rfl, fun _ _ _ _ => Or.inl rfl,
    fun _ _ _ _ => Or.inr rfl, fun _ => Or.inr rfl⟩

/-- **C100 is false of the initiator**: method 0, the library fails to sign message_3 (all else works).
`edhoc_initiator_run_extended` sends message_2 back to the responder, leaves the caller's PRK_out untouched and returns ok;
with a working library the same run gives a PRK_out. -/
theorem C100_false_initiator :
    FaultyE toyE deadSign ∧
    (∃ o n', initiatorRun {} deadSign (toyI 0) toyCredsR (List.replicate 8 0) 32 (netOf [exMsg2 0 toyR]) = (.ok o, n') ∧
      o.prkOut = none ∧ n'.sent.getLast? = some (exMsg2 0 toyR)) ∧
    (∃ o n', initiatorRun {} toyE (toyI 0) toyCredsR (List.replicate 8 0) 32 (netOf [exMsg2 0 toyR]) = (.ok o, n') ∧
      o.prkOut ≠ none) := by
  have h : (initiatorRun {} deadSign (toyI 0) toyCredsR (List.replicate 8 0) 32 (netOf [exMsg2 0 toyR])).1.isOk = true := by
    decide +kernel
  have h' : (initiatorRun {} toyE (toyI 0) toyCredsR (List.replicate 8 0) 32 (netOf [exMsg2 0 toyR])).1.isOk = true := by
    decide +kernel
  refine ⟨deadSign_faulty, ⟨_, _, Prod.ext (R.eq_getD ⟨[], none, [], []⟩ h) rfl, ?_, ?_⟩, ⟨_, _, Prod.ext (R.eq_getD ⟨[], none, [], []⟩ h') rfl, ?_⟩⟩
  · decide +kernel
  · decide +kernel
  · decide +kernel

/-- a responder that cannot sign returns the error; with a working library it sends message_2 and waits for message_3 -/
example :
    (responderRun {} deadSign toyR toyCredsI 10 32 (netOf [outM1 0])).1 = .err .unexpected_result_from_ext_lib ∧
    (responderRun {} deadSign toyR toyCredsI 10 32 (netOf [outM1 0])).2.sent = [] ∧
    (responderRun {} toyE toyR toyCredsI 10 32 (netOf [outM1 0])).1 = .err .transport_deinitialized := by
  decide +kernel

/-- a responder of method 3 does not sign, and finishes -/
example : (responderRun {} deadSign toyR toyCredsI 10 32
    (netOf [outM1 3, ((initiatorRun {} toyE (toyI 3) toyCredsR (List.replicate 10 0) 32 (netOf [exMsg2 3 toyR])).2.sent.getLastD [])])).1.isOk = true := by
  decide +kernel

end Verif.Edhoc
