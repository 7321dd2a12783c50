import Verif.Model.EdhocOut
import Verif.Props.EdhocAuthn
import Verif.Lemmas.MLemmas
/-
C71: what a run leaves in the caller's buffers, also when it fails.
-/
namespace Verif.Edhoc
open Verif

/-! ### The runs with buffers are the runs -/

theorem overwrite_drop (mem v : Bytes) : (overwrite mem v).drop v.length = mem.drop v.length := by
  simp [overwrite]

theorem msg1ParseO_run (cfg : ECfg) (m1 ead : Bytes) (b : RBufs) :
    (msg1ParseO cfg m1 ead b).1 = msg1Parse cfg m1 b.cI.len ead ∧
    (msg1ParseO cfg m1 ead b).2.prk = b.prk ∧ (msg1ParseO cfg m1 ead b).2.pk = b.pk ∧
    ∀ p, msg1Parse cfg m1 b.cI.len ead = .ok p → (msg1ParseO cfg m1 ead b).2 = storeCI p.cI b := by
  unfold msg1ParseO msg1Parse
  cases decMsg1 cfg.strictCbor m1 with
  | none => exact ⟨rfl, rfl, rfl, fun p h => nomatch h⟩
  | some m =>
    simp only
    split
    · exact ⟨rfl, rfl, rfl, fun p h => nomatch h⟩
    · cases suitesOf cfg m.suites with
      | err e => exact ⟨rfl, rfl, rfl, fun p h => nomatch h⟩
      | ub => exact ⟨rfl, rfl, rfl, fun p h => nomatch h⟩
      | ok s =>
        cases memcpyS 32 m.gX with
        | err e => exact ⟨rfl, rfl, rfl, fun p h => nomatch h⟩
        | ub => exact ⟨rfl, rfl, rfl, fun p h => nomatch h⟩
        | ok g =>
          simp only [R.ok_bind, M.bind_lift_ok, M.bind_get]
          cases cIOf m.cI b.cI.len with
          | err e => exact ⟨rfl, rfl, rfl, fun p h => nomatch h⟩
          | ub => exact ⟨rfl, rfl, rfl, fun p h => nomatch h⟩
          | ok c =>
            simp only [R.ok_bind, M.bind_lift_ok, M.bind_modify]
            cases ead1Of m.ead1 ead with
            | err e => exact ⟨rfl, rfl, rfl, fun p h => nomatch h⟩
            | ub => exact ⟨rfl, rfl, rfl, fun p h => nomatch h⟩
            | ok e =>
              refine ⟨rfl, rfl, rfl, fun p h => ?_⟩
              simp only [R.ok_bind, R.pure_eq, R.ok.injEq] at h
              subst h; rfl

theorem msg2GenO_run (cfg : ECfg) (C : ECrypto) (c : RCtx) (m1 ead : Bytes) (b : RBufs) :
    (msg2GenO cfg C c m1 ead b).1 = msg2Gen cfg C c m1 b.cI.len ead ∧
    (msg2GenO cfg C c m1 ead b).2.prk = b.prk ∧ (msg2GenO cfg C c m1 ead b).2.pk = b.pk ∧
    ∀ m2 rs, msg2Gen cfg C c m1 b.cI.len ead = .ok (m2, rs) →
      (msg2GenO cfg C c m1 ead b).2 = storeCI rs.cI b := by
  obtain ⟨h1, h2, h3, h4⟩ := msg1ParseO_run cfg m1 ead b
  unfold msg2GenO msg2Gen
  rw [M.run_bind]
  rcases hx : msg1ParseO cfg m1 ead b with ⟨r, b'⟩
  rw [hx] at h1 h2 h3 h4
  simp only at h1 h2 h3 h4
  rw [← h1] at h4 ⊢
  cases r with
  | err e => exact ⟨rfl, h2, h3, fun _ _ h => nomatch h⟩
  | ub => exact ⟨rfl, h2, h3, fun _ _ h => nomatch h⟩
  | ok p =>
    simp only [R.ok_bind]
    split
    · exact ⟨rfl, h2, h3, fun _ _ h => nomatch h⟩
    · refine ⟨rfl, h2, h3, fun m2 rs h => ?_⟩
      show b' = _
      rw [h4 p rfl]
      have : rs.cI = p.cI := by
        unfold msg2Build at h
        obtain ⟨_, _, h⟩ := R.bind_eq_ok.1 h
        obtain ⟨_, _, h⟩ := R.bind_eq_ok.1 h
        obtain ⟨_, _, h⟩ := R.bind_eq_ok.1 h
        obtain ⟨_, _, h⟩ := R.bind_eq_ok.1 h
        obtain ⟨⟨_, _⟩, _, h⟩ := R.bind_eq_ok.1 h
        obtain ⟨_, _, h⟩ := R.bind_eq_ok.1 h
        obtain ⟨_, _, h⟩ := R.bind_eq_ok.1 h
        simp only [R.pure_eq, R.ok.injEq, Prod.mk.injEq] at h
        rw [← h.2]
      rw [this]

theorem exportPk_prk (k : Bytes) (b : RBufs) : (exportPk k b).prk = b.prk := by
  unfold exportPk; split <;> rfl
theorem exportPk_cI (k : Bytes) (b : RBufs) : (exportPk k b).cI = b.cI := by
  unfold exportPk; split <;> rfl

theorem msg3AuthO_run (cfg : ECfg) (C : ECrypto) (c : RCtx) (creds : List Cred) (rs : RState) (s : Split)
    (ptxt : Bytes) (b : RBufs) :
    (msg3AuthO cfg C c creds rs s ptxt b).1 = msg3Auth cfg C c creds rs s ptxt b.prk.length ∧
    ((∀ o, msg3Auth cfg C c creds rs s ptxt b.prk.length ≠ .ok o) →
      (msg3AuthO cfg C c creds rs s ptxt b).2.prk = b.prk) ∧
    (msg3AuthO cfg C c creds rs s ptxt b).2.cI = b.cI ∧
    (∀ o, msg3Auth cfg C c creds rs s ptxt b.prk.length = .ok o →
      (msg3AuthO cfg C c creds rs s ptxt b).2 = { exportPk o.pk b with prk := o.prkOut }) := by
  unfold msg3AuthO msg3Auth
  cases retrieveCred cfg C rs.staticDhI creds s.idCred cfg.credISize with
  | err e => exact ⟨rfl, fun _ => rfl, rfl, fun o h => nomatch h⟩
  | ub => exact ⟨rfl, fun _ => rfl, rfl, fun o h => nomatch h⟩
  | ok t =>
    obtain ⟨credI, pk, gI⟩ := t
    simp only [R.ok_bind, M.bind_lift_ok, M.bind_modify]
    have e1 := exportPk_prk pk b
    have e2 := exportPk_cI pk b
    cases prkDerive cfg C rs.staticDhI rs.suite 5 rs.th3 rs.prk3e2m gI c.y with
    | err e => exact ⟨rfl, fun _ => e1, e2, fun o h => nomatch h⟩
    | ub => exact ⟨rfl, fun _ => e1, e2, fun o h => nomatch h⟩
    | ok prk4 =>
      simp only [R.ok_bind, M.bind_lift_ok]
      cases sigOrMacVerify cfg C rs.staticDhI rs.suite pk prk4 [] [] rs.th3 s.idCred credI s.ead 6 s.sigOrMac with
      | err e => exact ⟨rfl, fun _ => e1, e2, fun o h => nomatch h⟩
      | ub => exact ⟨rfl, fun _ => e1, e2, fun o h => nomatch h⟩
      | ok u =>
        simp only [R.ok_bind, M.bind_lift_ok]
        cases th34Calc cfg C rs.th3 ptxt credI with
        | err e => exact ⟨rfl, fun _ => e1, e2, fun o h => nomatch h⟩
        | ub => exact ⟨rfl, fun _ => e1, e2, fun o h => nomatch h⟩
        | ok th4 =>
          simp only [R.ok_bind, M.bind_lift_ok, M.bind_get, e1]
          cases edhocKdf cfg C prk4 labelPrkOut th4 b.prk.length with
          | err e => exact ⟨rfl, fun _ => e1, e2, fun o h => nomatch h⟩
          | ub => exact ⟨rfl, fun _ => e1, e2, fun o h => nomatch h⟩
          | ok k =>
            refine ⟨rfl, fun h => absurd rfl (h _), e2, fun o h => ?_⟩
            simp only [R.ok_bind, R.pure_eq, R.ok.injEq] at h
            subst h; rfl

theorem msg3ProcessO_run (cfg : ECfg) (C : ECrypto) (c : RCtx) (creds : List Cred) (rs : RState)
    (m3 : Bytes) (b : RBufs) :
    (msg3ProcessO cfg C c creds rs m3 b).1 = msg3Process cfg C c creds rs m3 b.prk.length ∧
    ((∀ o, msg3Process cfg C c creds rs m3 b.prk.length ≠ .ok o) →
      (msg3ProcessO cfg C c creds rs m3 b).2.prk = b.prk) ∧
    (msg3ProcessO cfg C c creds rs m3 b).2.cI = b.cI ∧
    (∀ o, msg3Process cfg C c creds rs m3 b.prk.length = .ok o →
      (msg3ProcessO cfg C c creds rs m3 b).2 = { exportPk o.pk b with prk := o.prkOut }) := by
  unfold msg3ProcessO msg3Process
  cases checkBufferSize cfg.ciphertext3Size m3.length with
  | err e => exact ⟨rfl, fun _ => rfl, rfl, fun o h => nomatch h⟩
  | ub => exact ⟨rfl, fun _ => rfl, rfl, fun o h => nomatch h⟩
  | ok u =>
    simp only [R.ok_bind, M.bind_lift_ok]
    cases decodeBstr cfg m3 m3.length with
    | err e => exact ⟨rfl, fun _ => rfl, rfl, fun o h => nomatch h⟩
    | ub => exact ⟨rfl, fun _ => rfl, rfl, fun o h => nomatch h⟩
    | ok c3 =>
      simp only [R.ok_bind, M.bind_lift_ok]
      cases checkBufferSize (cfg.plaintext3Size + rs.suite.aead.tagLen) c3.length with
      | err e => exact ⟨rfl, fun _ => rfl, rfl, fun o h => nomatch h⟩
      | ub => exact ⟨rfl, fun _ => rfl, rfl, fun o h => nomatch h⟩
      | ok u =>
        simp only [R.ok_bind, M.bind_lift_ok]
        cases ctxtDecrypt cfg C .c3 rs.suite rs.prk3e2m rs.th3 c3 with
        | err e => exact ⟨rfl, fun _ => rfl, rfl, fun o h => nomatch h⟩
        | ub => exact ⟨rfl, fun _ => rfl, rfl, fun o h => nomatch h⟩
        | ok ptxt =>
          simp only [R.ok_bind, M.bind_lift_ok]
          cases plaintext3Split cfg ptxt cfg.idCredISize rs.ead.length with
          | err e => exact ⟨rfl, fun _ => rfl, rfl, fun o h => nomatch h⟩
          | ub => exact ⟨rfl, fun _ => rfl, rfl, fun o h => nomatch h⟩
          | ok s =>
            simp only [R.ok_bind, M.bind_lift_ok]
            exact msg3AuthO_run cfg C c creds rs s ptxt b

theorem plaintext2SplitO_run (cfg : ECfg) (ptxt : Bytes) (idCap eadCap : Nat) (b : IBufs) :
    (plaintext2SplitO cfg ptxt idCap eadCap b).1 = plaintext2Split cfg ptxt b.cR.len idCap eadCap ∧
    (plaintext2SplitO cfg ptxt idCap eadCap b).2.prk = b.prk ∧
    ∀ cR s, plaintext2Split cfg ptxt b.cR.len idCap eadCap = .ok (cR, s) →
      (plaintext2SplitO cfg ptxt idCap eadCap b).2 = storeCR cR b := by
  unfold plaintext2SplitO plaintext2Split
  cases decPtxt2 cfg.strictCbor ptxt with
  | none => exact ⟨rfl, rfl, fun _ _ h => nomatch h⟩
  | some t =>
    obtain ⟨c, p⟩ := t
    simp only [M.bind_get]
    cases crOf c b.cR.len with
    | err e => exact ⟨rfl, rfl, fun _ _ h => nomatch h⟩
    | ub => exact ⟨rfl, rfl, fun _ _ h => nomatch h⟩
    | ok cR =>
      simp only [R.ok_bind, M.bind_lift_ok, M.bind_modify]
      cases splitFields p idCap eadCap with
      | err e => exact ⟨rfl, rfl, fun _ _ h => nomatch h⟩
      | ub => exact ⟨rfl, rfl, fun _ _ h => nomatch h⟩
      | ok s =>
        refine ⟨rfl, rfl, fun cR' s' h => ?_⟩
        simp only [R.ok_bind, R.pure_eq, R.ok.injEq, Prod.mk.injEq] at h
        rw [← h.1]; rfl

theorem msg2ProcessO_run (cfg : ECfg) (C : ECrypto) (c : ICtx) (creds : List Cred) (suite : Suite)
    (h1 m2 : Bytes) (sI sR : Bool) (ead : Bytes) (b : IBufs) (hb : b.cR.len = b.cR.mem.length) :
    (msg2ProcessO cfg C c creds suite h1 m2 sI sR ead b).1 =
      msg2Process cfg C c creds suite h1 m2 sI sR b.cR.mem ead ∧
    (msg2ProcessO cfg C c creds suite h1 m2 sI sR ead b).2.prk = b.prk ∧
    ∀ s, msg2Process cfg C c creds suite h1 m2 sI sR b.cR.mem ead = .ok s →
      (msg2ProcessO cfg C c creds suite h1 m2 sI sR ead b).2 = storeCR s.cR b := by
  unfold msg2ProcessO msg2Process
  cases checkBufferSize cfg.plaintext2Size (ctxt2Len m2.length) with
  | err e => exact ⟨rfl, rfl, fun _ h => nomatch h⟩
  | ub => exact ⟨rfl, rfl, fun _ h => nomatch h⟩
  | ok u =>
    simp only [R.ok_bind, M.bind_lift_ok]
    cases msg2Parse cfg m2 (ctxt2Len m2.length) with
    | err e => exact ⟨rfl, rfl, fun _ h => nomatch h⟩
    | ub => exact ⟨rfl, rfl, fun _ h => nomatch h⟩
    | ok t =>
      obtain ⟨gY, c2⟩ := t
      simp only [R.ok_bind, M.bind_lift_ok]
      cases sharedSecret C suite.ecdh c.x gY with
      | err e => exact ⟨rfl, rfl, fun _ h => nomatch h⟩
      | ub => exact ⟨rfl, rfl, fun _ h => nomatch h⟩
      | ok gxy =>
        simp only [R.ok_bind, M.bind_lift_ok]
        cases th2Calc C h1 gY with
        | err e => exact ⟨rfl, rfl, fun _ h => nomatch h⟩
        | ub => exact ⟨rfl, rfl, fun _ h => nomatch h⟩
        | ok th2 =>
          simp only [R.ok_bind, M.bind_lift_ok]
          cases ctxtDecrypt cfg C .c2 suite (hkdfExtract C.toCrypto th2 gxy) th2 c2 with
          | err e => exact ⟨rfl, rfl, fun _ h => nomatch h⟩
          | ub => exact ⟨rfl, rfl, fun _ h => nomatch h⟩
          | ok ptxt =>
            simp only [R.ok_bind, M.bind_lift_ok]
            rw [M.run_bind]
            obtain ⟨g1, g2, g3⟩ := plaintext2SplitO_run cfg ptxt cfg.idCredRSize ead.length b
            rcases hx : plaintext2SplitO cfg ptxt cfg.idCredRSize ead.length b with ⟨r, b'⟩
            rw [hx, hb] at g1 g3
            rw [hx] at g2
            simp only at g1 g2 g3
            rw [← g1] at g3 ⊢
            cases r with
            | err e => exact ⟨rfl, g2, fun _ h => nomatch h⟩
            | ub => exact ⟨rfl, g2, fun _ h => nomatch h⟩
            | ok t =>
              obtain ⟨cR, s⟩ := t
              have hb' := g3 cR s rfl
              subst hb'
              simp only [R.ok_bind, M.bind_get, M.run_lift]
              have hd : (storeCR cR b).cR.mem.drop cR.length = b.cR.mem.drop cR.length := overwrite_drop _ _
              rw [hd]
              refine ⟨rfl, rfl, fun st h => ?_⟩
              have : st.cR = cR := by
                unfold msg2Auth at h
                obtain ⟨⟨_, _, _⟩, _, h⟩ := R.bind_eq_ok.1 h
                obtain ⟨_, _, h⟩ := R.bind_eq_ok.1 h
                obtain ⟨_, _, h⟩ := R.bind_eq_ok.1 h
                obtain ⟨_, _, h⟩ := R.bind_eq_ok.1 h
                obtain ⟨_, _, h⟩ := R.bind_eq_ok.1 h
                simp only [R.pure_eq, R.ok.injEq] at h
                rw [← h]
              rw [this]

theorem storePrk_bind (x : M IBufs IState) (y : R IState) (f : IState → Nat → R M3Out) (b : IBufs)
    (g1 : (x b).1 = y) (g2 : (x b).2.prk = b.prk) (g3 : ∀ s, y = .ok s → (x b).2 = storeCR s.cR b) :
    ((x >>= fun s => M.get >>= fun b => M.lift (f s b.prk.length) >>= fun o =>
      M.modify (storePrk o.prkOut) >>= fun _ => (pure (s, o) : M IBufs (IState × M3Out))) b).1 =
      (y >>= fun s => f s b.prk.length >>= fun o => pure (s, o)) ∧
    ((∀ t, (y >>= fun s => f s b.prk.length >>= fun o => pure (s, o)) ≠ .ok t) →
      ((x >>= fun s => M.get >>= fun b => M.lift (f s b.prk.length) >>= fun o =>
      M.modify (storePrk o.prkOut) >>= fun _ => (pure (s, o) : M IBufs (IState × M3Out))) b).2.prk = b.prk) ∧
    ∀ s o, (y >>= fun s => f s b.prk.length >>= fun o => pure (s, o)) = .ok (s, o) →
      ((x >>= fun s => M.get >>= fun b => M.lift (f s b.prk.length) >>= fun o =>
      M.modify (storePrk o.prkOut) >>= fun _ => (pure (s, o) : M IBufs (IState × M3Out))) b).2 =
        storePrk o.prkOut (storeCR s.cR b) := by
  rw [M.run_bind]
  rcases hx : x b with ⟨r, b'⟩
  rw [hx] at g1 g2 g3
  simp only at g1 g2 g3
  rw [← g1] at g3 ⊢
  cases r with
  | err e => exact ⟨rfl, fun _ => g2, fun _ _ h => nomatch h⟩
  | ub => exact ⟨rfl, fun _ => g2, fun _ _ h => nomatch h⟩
  | ok s =>
    have hb' := g3 s rfl
    subst hb'
    have hp : (storeCR s.cR b).prk = b.prk := rfl
    simp only [R.ok_bind, M.bind_get, hp]
    cases f s b.prk.length with
    | err e => exact ⟨rfl, fun _ => rfl, fun _ _ h => nomatch h⟩
    | ub => exact ⟨rfl, fun _ => rfl, fun _ _ h => nomatch h⟩
    | ok o =>
      refine ⟨rfl, fun h => absurd rfl (h _), fun s' o' h => ?_⟩
      simp only [R.ok_bind, R.pure_eq, R.ok.injEq, Prod.mk.injEq] at h
      rw [← h.1, ← h.2]; rfl

theorem msg3GenO_run (cfg : ECfg) (C : ECrypto) (c : ICtx) (creds : List Cred) (suite : Suite)
    (h1 m2 ead : Bytes) (b : IBufs) (hb : b.cR.len = b.cR.mem.length) :
    (msg3GenO cfg C c creds suite h1 m2 ead b).1 =
      msg3Gen cfg C c creds suite h1 m2 b.cR.mem ead b.prk.length ∧
    ((∀ t, msg3Gen cfg C c creds suite h1 m2 b.cR.mem ead b.prk.length ≠ .ok t) →
      (msg3GenO cfg C c creds suite h1 m2 ead b).2.prk = b.prk) ∧
    ∀ s o, msg3Gen cfg C c creds suite h1 m2 b.cR.mem ead b.prk.length = .ok (s, o) →
      (msg3GenO cfg C c creds suite h1 m2 ead b).2 = storePrk o.prkOut (storeCR s.cR b) := by
  obtain ⟨g1, g2, g3⟩ := msg2ProcessO_run cfg C c creds suite h1 m2 (authType c.method (false, false)).1
    (authType c.method (false, false)).2 ead b hb
  have := storePrk_bind _ _ (fun s L => msg3OnlyGen cfg C c suite (authType c.method (false, false)).1 s m2 L)
    b g1 g2 g3
  unfold msg3GenO msg3Gen
  exact this

theorem onNet_bind {β α γ : Type} (m : M Net α) (f : α → M (Net × β) γ) (n : Net) (b : β) :
    (onNet m >>= f) (n, b) = match m n with
      | (.ok a, n') => f a (n', b)
      | (.err e, n') => (.err e, (n', b))
      | (.ub, n') => (.ub, (n', b)) := by
  rw [M.run_bind]; unfold onNet
  rcases m n with ⟨r, n'⟩
  cases r <;> rfl
theorem onBuf_bind {β α γ : Type} (m : M β α) (f : α → M (Net × β) γ) (n : Net) (b : β) :
    (onBuf m >>= f) (n, b) = match m b with
      | (.ok a, b') => f a (n, b')
      | (.err e, b') => (.err e, (n, b'))
      | (.ub, b') => (.ub, (n, b')) := by
  rw [M.run_bind]; unfold onBuf
  rcases m b with ⟨r, b'⟩
  cases r <;> rfl

theorem net_step {β α γ : Type} {m : M Net α} {f : α → M (Net × β) γ} {n n' : Net} {b b' : β} {r : R γ}
    (h : (onNet m >>= f) (n, b) = (r, n', b')) :
    ((∀ v, r ≠ .ok v) ∧ b' = b) ∨ ∃ a n1, m n = (.ok a, n1) ∧ f a (n1, b) = (r, n', b') := by
  rw [onNet_bind] at h
  rcases hm : m n with ⟨x, n1⟩
  rw [hm] at h
  cases x with
  | ok a => exact .inr ⟨a, n1, rfl, h⟩
  | err e =>
    simp only [Prod.mk.injEq] at h
    exact .inl ⟨(fun v hv => by rw [← h.1] at hv; cases hv), h.2.2.symm⟩
  | ub =>
    simp only [Prod.mk.injEq] at h
    exact .inl ⟨(fun v hv => by rw [← h.1] at hv; cases hv), h.2.2.symm⟩
theorem buf_step {β α γ : Type} {m : M β α} {f : α → M (Net × β) γ} {n n' : Net} {b b' : β} {r : R γ}
    (h : (onBuf m >>= f) (n, b) = (r, n', b')) :
    ((∀ v, r ≠ .ok v) ∧ (∀ a, (m b).1 ≠ .ok a) ∧ b' = (m b).2) ∨
    ∃ a b1, m b = (.ok a, b1) ∧ f a (n, b1) = (r, n', b') := by
  rw [onBuf_bind] at h
  rcases hm : m b with ⟨x, b1⟩
  rw [hm] at h
  cases x with
  | ok a => exact .inr ⟨a, b1, rfl, h⟩
  | err e =>
    simp only [Prod.mk.injEq] at h
    exact .inl ⟨(fun v hv => by rw [← h.1] at hv; cases hv), (fun a ha => by cases ha), h.2.2.symm⟩
  | ub =>
    simp only [Prod.mk.injEq] at h
    exact .inl ⟨(fun v hv => by rw [← h.1] at hv; cases hv), (fun a ha => by cases ha), h.2.2.symm⟩
theorem lift_step {β α γ : Type} {x : R α} {f : α → M (Net × β) γ} {n n' : Net} {b b' : β} {r : R γ}
    (h : (M.lift x >>= f) (n, b) = (r, n', b')) :
    ((∀ v, r ≠ .ok v) ∧ b' = b) ∨ ∃ a, x = .ok a ∧ f a (n, b) = (r, n', b') := by
  cases x with
  | ok a => exact .inr ⟨a, rfl, h⟩
  | err e =>
    rw [M.bind_lift_err] at h
    simp only [Prod.mk.injEq] at h
    exact .inl ⟨(fun v hv => by rw [← h.1] at hv; cases hv), h.2.2.symm⟩
  | ub =>
    rw [M.bind_lift_ub] at h
    simp only [Prod.mk.injEq] at h
    exact .inl ⟨(fun v hv => by rw [← h.1] at hv; cases hv), h.2.2.symm⟩
theorem pure_step {β γ : Type} {a : γ} {n n' : Net} {b b' : β} {r : R γ}
    (h : (pure a : M (Net × β) γ) (n, b) = (r, n', b')) : b' = b ∧ ∀ v, r = .ok v → v = a := by
  simp only [M.run_pure, Prod.mk.injEq] at h
  refine ⟨h.2.2.symm, fun v hv => ?_⟩
  rw [← h.1] at hv
  exact (R.ok.inj hv).symm

/-- `x` with buffers behaves as `y` without -/
def Same {β α : Type} (x : M (Net × β) α) (y : M Net α) (b : β) : Prop :=
  ∀ n, (x (n, b)).1 = (y n).1 ∧ (x (n, b)).2.1 = (y n).2

theorem Same.pure {β α : Type} (a : α) (b : β) : Same (Pure.pure a) (Pure.pure a) b := fun _ => ⟨rfl, rfl⟩
theorem Same.net {β α γ : Type} {m : M Net α} {f : α → M (Net × β) γ} {g : α → M Net γ} {b : β}
    (h : ∀ a, Same (f a) (g a) b) : Same (onNet m >>= f) (m >>= g) b := by
  intro n
  rw [onNet_bind, M.run_bind]
  rcases m n with ⟨r, n'⟩
  cases r with
  | ok a => exact h a n'
  | err e => exact ⟨rfl, rfl⟩
  | ub => exact ⟨rfl, rfl⟩
theorem Same.buf {β α γ : Type} {m : M β α} {r : R α} {f : α → M (Net × β) γ} {g : α → M Net γ} {b : β}
    (hm : (m b).1 = r) (h : ∀ a, r = .ok a → Same (f a) (g a) (m b).2) :
    Same (onBuf m >>= f) (M.lift r >>= g) b := by
  intro n
  rw [onBuf_bind]
  rcases hx : m b with ⟨r', b'⟩
  rw [hx] at hm h
  simp only at hm h
  subst hm
  cases r' with
  | ok a => exact h a rfl n
  | err e => exact ⟨rfl, rfl⟩
  | ub => exact ⟨rfl, rfl⟩
theorem Same.lift {β α γ : Type} {r : R α} {f : α → M (Net × β) γ} {g : α → M Net γ} {b : β}
    (h : ∀ a, r = .ok a → Same (f a) (g a) b) : Same (M.lift r >>= f) (M.lift r >>= g) b := by
  intro n
  cases r with
  | ok a => exact h a rfl n
  | err e => exact ⟨rfl, rfl⟩
  | ub => exact ⟨rfl, rfl⟩

/-- The responder's run with the caller's buffers returns the same result, and makes the same calls of the
callbacks, as the run of `Model/EdhocRun`, for which the other properties are proved. -/
theorem C71_refines_responder (cfg : ECfg) (C : ECrypto) (c : RCtx) (creds : List Cred) (n : Net) (b : RBufs) :
    (responderRunO cfg C c creds (n, b)).1 = (responderRun cfg C c creds b.cI.len b.prk.length n).1 ∧
    (responderRunO cfg C c creds (n, b)).2.1 = (responderRun cfg C c creds b.cI.len b.prk.length n).2 := by
  revert n
  show Same (responderRunO cfg C c creds) (responderRun cfg C c creds b.cI.len b.prk.length) b
  unfold responderRunO responderRun
  refine Same.net fun m1 => Same.buf (msg2GenO_run cfg C c m1 _ b).1 fun t ht => ?_
  obtain ⟨m2, rs⟩ := t
  refine Same.net fun _ => Same.net fun _ => Same.net fun m3 => Same.buf ?_ fun o ho => Same.net fun _ => ?_
  · rw [(msg3ProcessO_run cfg C c creds rs m3 _).1, (msg2GenO_run cfg C c m1 _ b).2.1]
  · split
    · exact Same.net fun _ => Same.pure _ _
    · exact Same.pure _ _

/-- The same for the initiator; the length of the C_R array is the size of its buffer. -/
theorem C71_refines_initiator (cfg : ECfg) (C : ECrypto) (c : ICtx) (creds : List Cred) (n : Net) (b : IBufs)
    (hb : b.cR.len = b.cR.mem.length) :
    (initiatorRunO cfg C c creds (n, b)).1 = (initiatorRun cfg C c creds b.cR.mem b.prk.length n).1 ∧
    (initiatorRunO cfg C c creds (n, b)).2.1 = (initiatorRun cfg C c creds b.cR.mem b.prk.length n).2 := by
  revert n
  show Same (initiatorRunO cfg C c creds) (initiatorRun cfg C c creds b.cR.mem b.prk.length) b
  unfold initiatorRunO initiatorRun
  refine Same.lift fun t ht => ?_
  obtain ⟨m1, suite, h1⟩ := t
  refine Same.net fun _ => Same.net fun m2 => Same.buf (msg3GenO_run cfg C c creds suite h1 m2 _ b hb).1
    fun t ht => ?_
  obtain ⟨s, o⟩ := t
  refine Same.net fun _ => Same.net fun _ => ?_
  split
  · exact Same.net fun _ => Same.pure _ _
  · exact Same.pure _ _

/-! ### PRK_out is written only for an authenticated peer -/

theorem netRx_okO {cap : Nat} {n n' : Net} {m : Bytes} (h : netRx cap n = (.ok m, n')) :
    m.length ≤ cap ∧ n.rxq = .inr m :: n'.rxq := by
  unfold netRx at h
  split at h
  · cases (Prod.mk.inj h).1
  · cases (Prod.mk.inj h).1
  · split at h
    · simp only [Prod.mk.injEq, R.ok.injEq] at h
      obtain ⟨rfl, rfl⟩ := h
      exact ⟨‹_›, by simpa using ‹n.rxq = _›⟩
    · cases (Prod.mk.inj h).1
theorem netTx_rxq (m : Bytes) (n : Net) : (netTx m n).2.rxq = n.rxq := by unfold netTx; split <;> rfl
theorem netEad_rxq (e : Bytes) (n : Net) : (netEad e n).2.rxq = n.rxq := by unfold netEad; split <;> rfl

/-- the network in which no callback but `rx` fails -/
def quiet (n : Net) : Net := { n with txq := [], eadq := [] }

theorem netEad_quiet (e : Bytes) (q : List (Err ⊕ Bytes)) (s es : List Bytes) :
    netEad e ⟨q, [], [], s, es⟩ = (.ok (), ⟨q, [], [], s, es ++ [e]⟩) := rfl
theorem netTx_quiet (m : Bytes) (q : List (Err ⊕ Bytes)) (s es : List Bytes) :
    netTx m ⟨q, [], [], s, es⟩ = (.ok (), ⟨q, [], [], s ++ [m], es⟩) := rfl

theorem responder_quiet {cfg : ECfg} {C : ECrypto} {c : RCtx} {creds : List Cred} {cap L : Nat} {n : Net}
    {m1 m2 m3 : Bytes} {rs : RState} {o : R3Out} {q : List (Err ⊕ Bytes)}
    (hq : n.rxq = .inr m1 :: .inr m3 :: q) (l1 : m1.length ≤ cfg.msgMaxSize) (l3 : m3.length ≤ cfg.msgMaxSize)
    (e1 : msg2Gen cfg C c m1 cap (List.replicate cfg.eadSize 0) = .ok (m2, rs))
    (e2 : msg3Process cfg C c creds rs m3 L = .ok o) :
    (responderRun { cfg with message4 := false } C c creds cap L (quiet n)).1 =
      .ok ⟨rs.cI, o.prkOut, o.pk, o.th4, o.prk4e3m⟩ := by
  have f1 : msg2Gen { cfg with message4 := false } C c m1 cap (List.replicate cfg.eadSize 0) = .ok (m2, rs) := e1
  have f2 : msg3Process { cfg with message4 := false } C c creds rs m3 L = .ok o := e2
  unfold responderRun
  have r1 : netRx ({ cfg with message4 := false } : ECfg).msgMaxSize (quiet n) =
      (.ok m1, ⟨.inr m3 :: q, [], [], n.sent, n.eads⟩) := by
    show netRx cfg.msgMaxSize (quiet n) = _
    unfold netRx quiet
    simp only [hq, if_pos l1]
  have r3 : netRx ({ cfg with message4 := false } : ECfg).msgMaxSize
      ⟨.inr m3 :: q, [], [], n.sent ++ [m2], n.eads ++ [rs.ead]⟩ =
      (.ok m3, ⟨q, [], [], n.sent ++ [m2], n.eads ++ [rs.ead]⟩) := by
    show netRx cfg.msgMaxSize _ = _
    unfold netRx
    simp only [if_pos l3]
  rw [M.bind_ok r1, f1, M.bind_lift_ok]
  simp only
  rw [M.bind_ok (netEad_quiet rs.ead _ _ _), M.bind_ok (netTx_quiet m2 _ _ _), M.bind_ok r3, f2, M.bind_lift_ok,
    M.bind_ok (netEad_quiet o.ead _ _ _)]
  rfl

theorem responderRunO_cases {cfg : ECfg} {C : ECrypto} {c : RCtx} {creds : List Cred} {n n' : Net} {b b'' : RBufs}
    {r : R ROut} (hr : responderRunO cfg C c creds (n, b) = (r, n', b'')) :
    (b''.prk = b.prk ∧ ∀ v, r ≠ .ok v) ∨
    ∃ m1 m2 rs m3 q o, n.rxq = .inr m1 :: .inr m3 :: q ∧ m1.length ≤ cfg.msgMaxSize ∧
      m3.length ≤ cfg.msgMaxSize ∧
      msg2Gen cfg C c m1 b.cI.len (List.replicate cfg.eadSize 0) = .ok (m2, rs) ∧
      msg3Process cfg C c creds rs m3 b.prk.length = .ok o ∧
      b'' = { exportPk o.pk (storeCI rs.cI b) with prk := o.prkOut } ∧
      ∀ v, r = .ok v → v = ⟨rs.cI, o.prkOut, o.pk, o.th4, o.prk4e3m⟩ := by
  unfold responderRunO at hr
  rw [onNet_bind] at hr
  have no : ∀ {r' : R ROut} {m m' : Net} {b1 : RBufs}, b1.prk = b.prk → (∀ v, r' ≠ .ok v) →
      (r', m, b1) = (r, m', b'') → (b''.prk = b.prk ∧ ∀ v, r ≠ .ok v) := by
    intro r' m m' b1 hb hv h
    simp only [Prod.mk.injEq] at h
    obtain ⟨rfl, _, rfl⟩ := h
    exact ⟨hb, hv⟩
  have ne : ∀ (e : Err) (v : ROut), (R.err e : R ROut) ≠ .ok v := fun _ _ h => nomatch h
  have nu : ∀ (v : ROut), (R.ub : R ROut) ≠ .ok v := fun _ h => nomatch h
  rcases h1 : netRx cfg.msgMaxSize n with ⟨r1, n1⟩
  rw [h1] at hr
  cases r1 with
  | err e => exact .inl (no rfl (ne e) hr)
  | ub => exact .inl (no rfl nu hr)
  | ok m1 =>
    simp only [onBuf_bind] at hr
    obtain ⟨g1, g2, g3, g4⟩ := msg2GenO_run cfg C c m1 (List.replicate cfg.eadSize 0) b
    rcases h2 : msg2GenO cfg C c m1 (List.replicate cfg.eadSize 0) b with ⟨r2, b2⟩
    rw [h2] at hr g1 g2 g3 g4
    simp only at g1 g2 g3 g4
    cases r2 with
    | err e => exact .inl (no g2 (ne e) hr)
    | ub => exact .inl (no g2 nu hr)
    | ok t =>
      obtain ⟨m2, rs⟩ := t
      simp only [onNet_bind] at hr
      rcases h3 : netEad rs.ead n1 with ⟨r3, n3⟩
      rw [h3] at hr
      cases r3 with
      | err e => exact .inl (no g2 (ne e) hr)
      | ub => exact .inl (no g2 nu hr)
      | ok _ =>
        simp only at hr
        rcases h4 : netTx m2 n3 with ⟨r4, n4⟩
        rw [h4] at hr
        cases r4 with
        | err e => exact .inl (no g2 (ne e) hr)
        | ub => exact .inl (no g2 nu hr)
        | ok _ =>
          simp only at hr
          rcases h5 : netRx cfg.msgMaxSize n4 with ⟨r5, n5⟩
          rw [h5] at hr
          cases r5 with
          | err e => exact .inl (no g2 (ne e) hr)
          | ub => exact .inl (no g2 nu hr)
          | ok m3 =>
            simp only [onBuf_bind] at hr
            obtain ⟨k1, k2, k3, k4⟩ := msg3ProcessO_run cfg C c creds rs m3 b2
            rcases h6 : msg3ProcessO cfg C c creds rs m3 b2 with ⟨r6, b6⟩
            rw [h6] at hr k1 k2 k3 k4
            simp only at k1 k2 k3 k4
            cases r6 with
            | err e => exact .inl (no (by rw [k2 (by rw [← k1]; intro o h; cases h), g2]) (ne e) hr)
            | ub => exact .inl (no (by rw [k2 (by rw [← k1]; intro o h; cases h), g2]) nu hr)
            | ok o =>
              right
              obtain ⟨l1, q1⟩ := netRx_okO h1
              obtain ⟨l3, q3⟩ := netRx_okO h5
              have e3 : n3.rxq = n1.rxq := by have := netEad_rxq rs.ead n1; rw [h3] at this; exact this
              have e4 : n4.rxq = n3.rxq := by have := netTx_rxq m2 n3; rw [h4] at this; exact this
              rw [← e3, ← e4, q3] at q1
              have hb2 := g4 m2 rs g1.symm
              have hb6 := k4 o k1.symm
              rw [hb2] at hb6
              refine ⟨m1, m2, rs, m3, _, o, q1, l1, l3, g1.symm, by rw [← g2, ← k1], ?_⟩
              rw [← hb6]
              simp only [onNet_bind] at hr
              rcases h7 : netEad o.ead n5 with ⟨r7, n7⟩
              rw [h7] at hr
              cases r7 with
              | err e => simp only [Prod.mk.injEq] at hr; exact ⟨hr.2.2.symm, fun v h => (ne e v (hr.1.trans h)).elim⟩
              | ub => simp only [Prod.mk.injEq] at hr; exact ⟨hr.2.2.symm, fun v h => (nu v (hr.1.trans h)).elim⟩
              | ok _ =>
                simp only at hr
                split at hr
                · rw [onNet_bind] at hr
                  rcases h8 : responderMsg4 cfg C c rs o m3 n7 with ⟨r8, n8⟩
                  rw [h8] at hr
                  cases r8 with
                  | err e =>
                    simp only [Prod.mk.injEq] at hr; exact ⟨hr.2.2.symm, fun v h => (ne e v (hr.1.trans h)).elim⟩
                  | ub => simp only [Prod.mk.injEq] at hr; exact ⟨hr.2.2.symm, fun v h => (nu v (hr.1.trans h)).elim⟩
                  | ok _ =>
                    simp only [M.run_pure, Prod.mk.injEq] at hr
                    exact ⟨hr.2.2.symm, fun v h => by rw [h] at hr; exact (R.ok.inj hr.1).symm⟩
                · simp only [M.run_pure, Prod.mk.injEq] at hr
                  exact ⟨hr.2.2.symm, fun v h => by rw [h] at hr; exact (R.ok.inj hr.1).symm⟩

/-- C71, responder: for every behaviour of the network and the callbacks, and whatever the run returns,
the caller's PRK_out buffer is untouched - or the messages received authenticate the initiator: with
callbacks that do not fail the run up to message_3 returns ok, and the buffer holds the key of that run. -/
theorem C71_prk_responder (cfg : ECfg) (C : ECrypto) (c : RCtx) (creds : List Cred) (n : Net) (b : RBufs) :
    let b' := (responderRunO cfg C c creds (n, b)).2.2
    b'.prk = b.prk ∨
    ∃ o, (responderRun { cfg with message4 := false } C c creds b.cI.len b.prk.length (quiet n)).1 = .ok o ∧
      b'.prk = o.prkOut := by
  intro b'
  rcases hr : responderRunO cfg C c creds (n, b) with ⟨r, n', b''⟩
  have hb' : b' = b'' := by show (responderRunO cfg C c creds (n, b)).2.2 = _; rw [hr]
  rw [hb']
  rcases responderRunO_cases hr with h | ⟨m1, m2, rs, m3, q, o, hq, l1, l3, e1, e2, hb, _⟩
  · exact .inl h.1
  · right
    refine ⟨_, responder_quiet hq l1 l3 e1 e2, ?_⟩
    rw [hb]

/-- C71, responder, after a run that returned ok: the C_I array starts with the C_I of the run and has its
length, PRK_out is the key of the run, and the key array (if there is one and it is large enough) starts
with the key the run used to verify the initiator's signature (empty with static DH) and has its length. -/
theorem C71_buffers_responder_partial (cfg : ECfg) (C : ECrypto) (c : RCtx) (creds : List Cred) (n n' : Net)
    (b b' : RBufs) (v : ROut) (hr : responderRunO cfg C c creds (n, b) = (.ok v, n', b')) :
    b'.cI = ⟨v.cI ++ b.cI.mem.drop v.cI.length, v.cI.length⟩ ∧ b'.prk = v.prkOut ∧
    (b.pk = none → b'.pk = none) ∧
    ∀ a, b.pk = some a → v.pk.length ≤ a.len →
      b'.pk = some ⟨v.pk ++ a.mem.drop v.pk.length, v.pk.length⟩ := by
  rcases responderRunO_cases hr with h | ⟨m1, m2, rs, m3, q, o, hq, l1, l3, e1, e2, hb, hv⟩
  · exact absurd rfl (h.2 v)
  · have := hv v rfl
    subst this
    subst hb
    simp only
    refine ⟨?_, trivial, fun h => ?_, fun a ha hl => ?_⟩
    · rw [exportPk_cI]; rfl
    · have : (storeCI rs.cI b).pk = none := h
      unfold exportPk; rw [this]; exact this
    · have : (storeCI rs.cI b).pk = some a := ha
      unfold exportPk; rw [this]
      simp only [if_pos hl, overwrite]

/-! ### Initiator -/

theorem initiator_quiet {cfg : ECfg} {C : ECrypto} {c : ICtx} {creds : List Cred} {crBuf : Bytes} {L : Nat}
    {n : Net} {m1 h1 m2 : Bytes} {suite : Suite} {s : IState} {o : M3Out} {q : List (Err ⊕ Bytes)}
    (hq : n.rxq = .inr m2 :: q) (l2 : m2.length ≤ cfg.msgMaxSize)
    (e1 : msg1Gen cfg C c = .ok (m1, suite, h1))
    (e2 : msg3Gen cfg C c creds suite h1 m2 crBuf (List.replicate cfg.eadSize 0) L = .ok (s, o)) :
    (initiatorRun { cfg with message4 := false } C c creds crBuf L (quiet n)).1 =
      .ok ⟨s.cR, o.prkOut, o.th4, s.prk4e3m⟩ := by
  have f1 : msg1Gen { cfg with message4 := false } C c = .ok (m1, suite, h1) := e1
  have f2 : msg3Gen { cfg with message4 := false } C c creds suite h1 m2 crBuf (List.replicate cfg.eadSize 0) L =
    .ok (s, o) := e2
  have r2 : netRx ({ cfg with message4 := false } : ECfg).msgMaxSize
      ⟨n.rxq, [], [], n.sent ++ [m1], n.eads⟩ = (.ok m2, ⟨q, [], [], n.sent ++ [m1], n.eads⟩) := by
    show netRx cfg.msgMaxSize _ = _
    unfold netRx
    simp only [hq, if_pos l2]
  unfold initiatorRun
  rw [f1, M.bind_lift_ok]
  simp only
  rw [show quiet n = ⟨n.rxq, [], [], n.sent, n.eads⟩ from rfl, M.bind_ok (netTx_quiet m1 _ _ _), M.bind_ok r2, f2,
    M.bind_lift_ok]
  simp only
  rw [M.bind_ok (netEad_quiet s.ead _ _ _), M.bind_ok (netTx_quiet o.msg _ _ _)]
  rfl

theorem initiatorRunO_cases {cfg : ECfg} {C : ECrypto} {c : ICtx} {creds : List Cred} {n n' : Net} {b b'' : IBufs}
    {r : R IOut} (hb : b.cR.len = b.cR.mem.length)
    (hr : initiatorRunO cfg C c creds (n, b) = (r, n', b'')) :
    (b''.prk = b.prk ∧ ∀ v, r ≠ .ok v) ∨
    ∃ m1 suite h1 m2 q s o, n.rxq = .inr m2 :: q ∧ m2.length ≤ cfg.msgMaxSize ∧
      msg1Gen cfg C c = .ok (m1, suite, h1) ∧
      msg3Gen cfg C c creds suite h1 m2 b.cR.mem (List.replicate cfg.eadSize 0) b.prk.length = .ok (s, o) ∧
      b'' = storePrk o.prkOut (storeCR s.cR b) ∧
      ∀ v, r = .ok v → v = ⟨s.cR, o.prkOut, o.th4, s.prk4e3m⟩ := by
  unfold initiatorRunO at hr
  have fin : ∀ {b1 : IBufs}, ((∀ v, r ≠ .ok v) ∧ b'' = b1) → b1.prk = b.prk → (b''.prk = b.prk ∧ ∀ v, r ≠ .ok v) :=
    fun h hp => ⟨by rw [h.2, hp], h.1⟩
  rcases lift_step hr with h | ⟨⟨m1, suite, h1⟩, e1, hr⟩
  · exact .inl (fin h rfl)
  rcases net_step hr with h | ⟨_, n2, h2, hr⟩
  · exact .inl (fin h rfl)
  rcases net_step hr with h | ⟨m2, n3, h3, hr⟩
  · exact .inl (fin h rfl)
  obtain ⟨g1, g2, g3⟩ := msg3GenO_run cfg C c creds suite h1 m2 (List.replicate cfg.eadSize 0) b hb
  rcases buf_step hr with ⟨hv, hx, hbb⟩ | ⟨⟨s, o⟩, b4, h4, hr⟩
  · exact .inl ⟨by rw [hbb]; exact g2 (by rw [← g1]; exact hx), hv⟩
  · right
    rw [h4] at g1 g3
    obtain ⟨l2, q2⟩ := netRx_okO h3
    have e2 : n2.rxq = n.rxq := by have := netTx_rxq m1 n; rw [h2] at this; exact this
    rw [e2] at q2
    have hb4 : b4 = _ := g3 s o g1.symm
    refine ⟨m1, suite, h1, m2, _, s, o, q2, l2, e1, g1.symm, ?_⟩
    rw [← hb4]
    rcases net_step hr with h | ⟨_, n5, h5, hr⟩
    · exact ⟨h.2, fun v hv => absurd hv (h.1 v)⟩
    rcases net_step hr with h | ⟨_, n6, h6, hr⟩
    · exact ⟨h.2, fun v hv => absurd hv (h.1 v)⟩
    split at hr
    · rcases net_step hr with h | ⟨_, n7, h7, hr⟩
      · exact ⟨h.2, fun v hv => absurd hv (h.1 v)⟩
      · exact pure_step hr
    · exact pure_step hr

/-- C71, initiator: for every behaviour of the network and the callbacks, and whatever the run returns,
the caller's PRK_out buffer is untouched - or message_2 authenticates the responder: with callbacks that
do not fail the run up to message_3 returns ok, and the buffer holds the key of that run. -/
theorem C71_prk_initiator (cfg : ECfg) (C : ECrypto) (c : ICtx) (creds : List Cred) (n : Net) (b : IBufs)
    (hb : b.cR.len = b.cR.mem.length) :
    let b' := (initiatorRunO cfg C c creds (n, b)).2.2
    b'.prk = b.prk ∨
    ∃ o, (initiatorRun { cfg with message4 := false } C c creds b.cR.mem b.prk.length (quiet n)).1 = .ok o ∧
      o.prkOut = some b'.prk := by
  intro b'
  rcases hr : initiatorRunO cfg C c creds (n, b) with ⟨r, n', b''⟩
  have hb' : b' = b'' := by show (initiatorRunO cfg C c creds (n, b)).2.2 = _; rw [hr]
  rw [hb']
  rcases initiatorRunO_cases hb hr with h | ⟨m1, suite, h1, m2, q, s, o, hq, l2, e1, e2, hb, _⟩
  · exact .inl h.1
  · rcases ho : o.prkOut with _ | k
    · left; rw [hb, ho]; rfl
    · right
      refine ⟨_, initiator_quiet hq l2 e1 e2, ?_⟩
      rw [hb, ho]; rfl

/-- C71, initiator, after a run that returned ok: the C_R array starts with the C_R of the run and has its
length, and PRK_out is the key of the run if there is one. -/
theorem C71_buffers_initiator (cfg : ECfg) (C : ECrypto) (c : ICtx) (creds : List Cred) (n n' : Net)
    (b b' : IBufs) (v : IOut) (hb : b.cR.len = b.cR.mem.length)
    (hr : initiatorRunO cfg C c creds (n, b) = (.ok v, n', b')) :
    b'.cR = ⟨v.cR ++ b.cR.mem.drop v.cR.length, v.cR.length⟩ ∧ b'.prk = v.prkOut.getD b.prk := by
  rcases initiatorRunO_cases hb hr with h | ⟨m1, suite, h1, m2, q, s, o, hq, l2, e1, e2, hb, hv⟩
  · exact absurd rfl (h.2 v)
  · have := hv v rfl
    subst this
    subst hb
    unfold storePrk
    split
    · exact ⟨rfl, by rw [‹o.prkOut = _›]; rfl⟩
    · exact ⟨rfl, by rw [‹o.prkOut = _›]; rfl⟩

/-- C71 for `edhoc_responder_run` and `edhoc_initiator_run`, which have no arrays for connection
identifiers and key: whatever they return, PRK_out is untouched or the key of an authenticated run. -/
theorem C71_prk_plain (cfg : ECfg) (C : ECrypto) (n : Net) (prk junk : Bytes) (creds : List Cred) :
    (∀ c : RCtx, (responderRunPlain cfg C c creds junk (n, prk)).2.2 = prk ∨
      ∃ o, (responderRun { cfg with message4 := false } C c creds junk.length prk.length (quiet n)).1 = .ok o ∧
        (responderRunPlain cfg C c creds junk (n, prk)).2.2 = o.prkOut) ∧
    (∀ c : ICtx, (initiatorRunPlain cfg C c creds junk (n, prk)).2.2 = prk ∨
      ∃ o, (initiatorRun { cfg with message4 := false } C c creds junk prk.length (quiet n)).1 = .ok o ∧
        o.prkOut = some (initiatorRunPlain cfg C c creds junk (n, prk)).2.2) :=
  ⟨fun c => C71_prk_responder cfg C c creds n ⟨⟨junk, junk.length⟩, prk, none⟩,
   fun c => C71_prk_initiator cfg C c creds n ⟨⟨junk, junk.length⟩, prk⟩ rfl⟩

/-! ### Examples and counterexamples -/

/-- the caller's arrays of the examples -/
def outB (pkLen : Nat) : RBufs :=
  ⟨⟨List.replicate 10 0xEE, 10⟩, List.replicate 32 0xEE, some ⟨List.replicate pkLen 0xEE, pkLen⟩⟩
def outI : IBufs := ⟨⟨List.replicate 10 0xEE, 10⟩, List.replicate 32 0xEE⟩

/-- messages 1, 2 and 3 of an honest run with method `m` -/
def outM1 (m : Int) : Bytes := ((msg1Gen {} toyE (toyI m)).getD ([], ⟨0, .ccm64, 8, .p256, .es256, .ccm64⟩, [])).1
def outM2 (m : Int) : Bytes := ((responderRunO {} toyE toyR toyCredsI (netOf [outM1 m], outB 32)).2.1.sent.getD 0 [])
def outM3 (m : Int) : Bytes :=
  ((initiatorRunO {} toyE (toyI m) toyCredsR (netOf [outM2 m], outI)).2.1.sent.getD 1 [])

/-- an honest run with signatures: both buffers hold the same key, C_R and C_I arrive, and so does the
initiator's public key -/
example : (initiatorRunO {} toyE (toyI 0) toyCredsR (netOf [outM2 0], outI)).1.isOk = true ∧
    (responderRunO {} toyE toyR toyCredsI (netOf [outM1 0, outM3 0], outB 40)).1.isOk = true ∧
    (initiatorRunO {} toyE (toyI 0) toyCredsR (netOf [outM2 0], outI)).2.2.prk =
      (responderRunO {} toyE toyR toyCredsI (netOf [outM1 0, outM3 0], outB 40)).2.2.prk ∧
    (initiatorRunO {} toyE (toyI 0) toyCredsR (netOf [outM2 0], outI)).2.2.prk ≠ outI.prk ∧
    (initiatorRunO {} toyE (toyI 0) toyCredsR (netOf [outM2 0], outI)).2.2.cR =
      ⟨[0xcc, 0x27] ++ List.replicate 8 0xEE, 2⟩ ∧
    (responderRunO {} toyE toyR toyCredsI (netOf [outM1 0, outM3 0], outB 40)).2.2.cI =
      ⟨[0xaa, 0xbb] ++ List.replicate 8 0xEE, 2⟩ ∧
    (responderRunO {} toyE toyR toyCredsI (netOf [outM1 0, outM3 0], outB 40)).2.2.pk =
      some ⟨List.replicate 32 3 ++ List.replicate 8 0xEE, 32⟩ := by
  decide +kernel

/-- PRK_out can be written although the run fails: here the EAD callback refuses after message_3 was
verified (the second alternative of C71_prk_responder) -/
example : (responderRunO {} toyE toyR toyCredsI
      ({ netOf [outM1 0, outM3 0] with eadq := [none, some .wrong_parameter] }, outB 32)).1 = .err .wrong_parameter ∧
    (responderRunO {} toyE toyR toyCredsI
      ({ netOf [outM1 0, outM3 0] with eadq := [none, some .wrong_parameter] }, outB 32)).2.2.prk ≠
      List.replicate 32 0xEE := by
  decide +kernel

/-- message_3 with the identifier of the initiator and a wrong signature -/
def outForged : Bytes :=
  let st := ((msg2Gen {} toyE toyR (outM1 0) 10 []).getD
    ([], ⟨⟨0, .ccm64, 8, .p256, .es256, .ccm64⟩, true, [], [], [], []⟩)).2
  cborBstr ((ctxtEncrypt toyE .c3 st.suite ((edhocKdf {} toyE st.prk3e2m 3 st.th3 16).getD [])
    ((edhocKdf {} toyE st.prk3e2m 4 st.th3 13).getD []) st.th3
    ([0x2b] ++ cborBstr (List.replicate 64 0)) 1000).getD [])

/-- "The arrays are only written by a successful run" is false of the public key: the code exports the key
belonging to the received identifier *before* it verifies the signature (responder.c:284-298).  Anyone who
runs message_1 and message_2 with the responder and knows an identifier makes it export that key; the run
returns an error. -/
theorem C71_false_pk_before_verification :
    (responderRunO {} toyE toyR toyCredsI (netOf [outM1 0, outForged], outB 32)).1.isOk = false ∧
    (responderRunO {} toyE toyR toyCredsI (netOf [outM1 0, outForged], outB 32)).2.2.pk =
      some ⟨List.replicate 32 3, 32⟩ ∧
    (responderRunO {} toyE toyR toyCredsI (netOf [outM1 0, outForged], outB 32)).2.2.prk =
      List.replicate 32 0xEE := by
  decide +kernel

/-- ... and false of C_I and C_R, which are written as soon as they are parsed: message_1 is not
authenticated at all, and for the initiator a message_2 of an unknown responder is enough. -/
theorem C71_false_cx_before_verification :
    (responderRunO {} toyE toyR toyCredsI (netOf [outM1 0], outB 32)).1.isOk = false ∧
    (responderRunO {} toyE toyR toyCredsI (netOf [outM1 0], outB 32)).2.2.cI =
      ⟨[0xaa, 0xbb] ++ List.replicate 8 0xEE, 2⟩ ∧
    (initiatorRunO {} toyE (toyI 0) [] (netOf [outM2 0], outI)).1.isOk = false ∧
    (initiatorRunO {} toyE (toyI 0) [] (netOf [outM2 0], outI)).2.2.cR =
      ⟨[0xcc, 0x27] ++ List.replicate 8 0xEE, 2⟩ := by
  decide +kernel

/-- A key array that is too small: the failure of the copy is ignored (responder.c:286), the run returns
ok, the array is not written and its length is set to more than its buffer has - who reads it by its
length reads beyond the buffer. -/
theorem C71_false_pk_length :
    (responderRunO {} toyE toyR toyCredsI (netOf [outM1 0, outM3 0], outB 16)).1.isOk = true ∧
    (responderRunO {} toyE toyR toyCredsI (netOf [outM1 0, outM3 0], outB 16)).2.2.pk =
      some ⟨List.replicate 16 0xEE, 32⟩ := by
  decide +kernel

/-- With static DH the run returns ok and the "public key of the initiator" is empty. -/
theorem C71_false_pk_static_dh :
    (responderRunO {} toyE toyR toyCredsI (netOf [outM1 3, outM3 3], outB 32)).1.isOk = true ∧
    (responderRunO {} toyE toyR toyCredsI (netOf [outM1 3, outM3 3], outB 32)).2.2.pk =
      some ⟨List.replicate 32 0xEE, 0⟩ := by
  decide +kernel

end Verif.Edhoc
