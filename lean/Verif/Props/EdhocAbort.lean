import Verif.Props.EdhocCodec
/-
C44: an error in any step aborts the run.
-/
namespace Verif.Edhoc
open Verif

theorem M.bind_err' {σ α β : Type} {m : M σ α} {f : α → M σ β} {s s' : σ} {e : Err} (h : m s = (.err e, s')) :
    (m >>= f) s = (.err e, s') := by
  rw [M.run_bind, h]
theorem M.bind_ok' {σ α β : Type} {m : M σ α} {f : α → M σ β} {s s' : σ} {a : α} (h : m s = (.ok a, s')) :
    (m >>= f) s = f a s' := by
  rw [M.run_bind, h]
theorem M.lift_err' {σ α β : Type} {x : R α} {f : α → M σ β} {s : σ} {e : Err} (h : x = .err e) :
    ((M.lift x : M σ α) >>= f) s = (.err e, s) := by subst h; rfl
theorem M.lift_ok' {σ α β : Type} {x : R α} {f : α → M σ β} {s : σ} {a : α} (h : x = .ok a) :
    ((M.lift x : M σ α) >>= f) s = f a s := by subst h; rfl

/-- C44, responder: whatever step fails first - receiving message_1, creating message_2, the EAD callback,
sending, receiving or processing message_3, the EAD callback, and with MESSAGE_4 creating and sending
message_4 - its error is the result, and the state of the network is the one in which the step failed, so
nothing is sent (or received, or given to the EAD callback) afterwards. -/
theorem C44_responder (cfg : ECfg) (C : ECrypto) (c : RCtx) (creds : List Cred) (cICap L : Nat) (n : Net) :
    let run := responderRun cfg C c creds cICap L n
    (∀ e n1, netRx cfg.msgMaxSize n = (.err e, n1) → run = (.err e, n1)) ∧
    ∀ m1 n1, netRx cfg.msgMaxSize n = (.ok m1, n1) →
      let g2 := msg2Gen cfg C c m1 cICap (List.replicate cfg.eadSize 0)
      (∀ e, g2 = .err e → run = (.err e, n1)) ∧
      ∀ m2 rs, g2 = .ok (m2, rs) →
        (∀ e n2, netEad rs.ead n1 = (.err e, n2) → run = (.err e, n2)) ∧
        ∀ n2, netEad rs.ead n1 = (.ok (), n2) →
          (∀ e n3, netTx m2 n2 = (.err e, n3) → run = (.err e, n3)) ∧
          ∀ n3, netTx m2 n2 = (.ok (), n3) →
            (∀ e n4, netRx cfg.msgMaxSize n3 = (.err e, n4) → run = (.err e, n4)) ∧
            ∀ m3 n4, netRx cfg.msgMaxSize n3 = (.ok m3, n4) →
              let p3 := msg3Process cfg C c creds rs m3 L
              (∀ e, p3 = .err e → run = (.err e, n4)) ∧
              ∀ o, p3 = .ok o →
                (∀ e n5, netEad o.ead n4 = (.err e, n5) → run = (.err e, n5)) ∧
                ∀ n5, netEad o.ead n4 = (.ok (), n5) →
                  (cfg.message4 = false → run = (.ok ⟨rs.cI, o.prkOut, o.pk, o.th4, o.prk4e3m⟩, n5)) ∧
                  (cfg.message4 = true →
                    let g4 := msg4Gen cfg C c.ead4 rs.suite o.prk4e3m o.th4 m3.length
                    (∀ e, g4 = .err e → run = (.err e, n5)) ∧
                    ∀ m4, g4 = .ok m4 →
                      (∀ e n6, netTx m4 n5 = (.err e, n6) → run = (.err e, n6)) ∧
                      ∀ n6, netTx m4 n5 = (.ok (), n6) →
                        run = (.ok ⟨rs.cI, o.prkOut, o.pk, o.th4, o.prk4e3m⟩, n6)) := by
  intro run
  simp only [run, responderRun]
  refine ⟨fun e n1 h => M.bind_err' h, fun m1 n1 h1 => ?_⟩
  rw [M.bind_ok' h1]
  refine ⟨fun e h => M.lift_err' h, fun m2 rs h2 => ?_⟩
  rw [M.lift_ok' h2]
  refine ⟨fun e n2 h => M.bind_err' h, fun n2 h3 => ?_⟩
  rw [M.bind_ok' h3]
  refine ⟨fun e n3 h => M.bind_err' h, fun n3 h4 => ?_⟩
  rw [M.bind_ok' h4]
  refine ⟨fun e n4 h => M.bind_err' h, fun m3 n4 h5 => ?_⟩
  rw [M.bind_ok' h5]
  refine ⟨fun e h => M.lift_err' h, fun o h6 => ?_⟩
  rw [M.lift_ok' h6]
  refine ⟨fun e n5 h => M.bind_err' h, fun n5 h7 => ?_⟩
  rw [M.bind_ok' h7]
  refine ⟨fun h => by rw [h]; rfl, fun h => ?_⟩
  rw [h, if_pos rfl]
  unfold responderMsg4
  refine ⟨fun e h => M.bind_err' (M.lift_err' h), fun m4 h8 => ⟨fun e n6 h => ?_, fun n6 h => ?_⟩⟩
  · exact M.bind_err' (by rw [M.lift_ok' h8]; exact h)
  · rw [M.bind_ok' (s' := n6) (a := ()) (by rw [M.lift_ok' h8]; exact h)]; rfl

/-- C44, initiator: the same for all its steps up to message_3, except the errors that occur while message_3,
TH_4 and PRK_out are created from an accepted message_2 (they are ignored: `C44_false`).  What is missing from
the full claim is exactly that. -/
theorem C44_initiator_partial (cfg : ECfg) (C : ECrypto) (c : ICtx) (creds : List Cred) (crBuf : Bytes) (L : Nat) (n : Net) :
    let run := initiatorRun cfg C c creds crBuf L n
    let g1 := msg1Gen cfg C c
    (∀ e, g1 = .err e → run = (.err e, n)) ∧
    ∀ m1 suite h1, g1 = .ok (m1, suite, h1) →
      (∀ e n1, netTx m1 n = (.err e, n1) → run = (.err e, n1)) ∧
      ∀ n1, netTx m1 n = (.ok (), n1) →
        (∀ e n2, netRx cfg.msgMaxSize n1 = (.err e, n2) → run = (.err e, n2)) ∧
        ∀ m2 n2, netRx cfg.msgMaxSize n1 = (.ok m2, n2) →
          let a := authType c.method (false, false)
          let p2 := msg2Process cfg C c creds suite h1 m2 a.1 a.2 crBuf (List.replicate cfg.eadSize 0)
          (∀ e, p2 = .err e → run = (.err e, n2)) ∧
          ∀ s o, p2 = .ok s → msg3OnlyGen cfg C c suite a.1 s m2 L = .ok o →
            (∀ e n3, netEad s.ead n2 = (.err e, n3) → run = (.err e, n3)) ∧
            ∀ n3, netEad s.ead n2 = (.ok (), n3) →
              (∀ e n4, netTx o.msg n3 = (.err e, n4) → run = (.err e, n4)) ∧
              ∀ n4, netTx o.msg n3 = (.ok (), n4) →
                (cfg.message4 = false → run = (.ok ⟨s.cR, o.prkOut, o.th4, s.prk4e3m⟩, n4)) ∧
                (cfg.message4 = true →
                  (∀ e n5, netRx cfg.msgMaxSize n4 = (.err e, n5) → run = (.err e, n5)) ∧
                  ∀ m4 n5, netRx cfg.msgMaxSize n4 = (.ok m4, n5) →
                    let p4 := msg4Process cfg C suite s.prk4e3m o.th4 m4 s.ead.length
                    (∀ e, p4 = .err e → run = (.err e, n5)) ∧
                    ∀ ead4, p4 = .ok ead4 →
                      (∀ e n6, netEad ead4 n5 = (.err e, n6) → run = (.err e, n6)) ∧
                      ∀ n6, netEad ead4 n5 = (.ok (), n6) →
                        run = (.ok ⟨s.cR, o.prkOut, o.th4, s.prk4e3m⟩, n6)) := by
  intro run
  simp only [run, initiatorRun]
  refine ⟨fun e h => M.lift_err' h, fun m1 suite hs h1 => ?_⟩
  rw [M.lift_ok' h1]
  refine ⟨fun e n1 h => M.bind_err' h, fun n1 h2 => ?_⟩
  rw [M.bind_ok' h2]
  refine ⟨fun e n2 h => M.bind_err' h, fun m2 n2 h3 => ?_⟩
  rw [M.bind_ok' h3]
  refine ⟨fun e h => M.lift_err' ?_, fun s o h4 h5 => ?_⟩
  · unfold msg3Gen
    simp only
    rw [h]; rfl
  have h6 : msg3Gen cfg C c creds suite hs m2 crBuf (List.replicate cfg.eadSize 0) L = .ok (s, o) := by
    unfold msg3Gen
    simp only
    rw [h4, R.ok_bind, h5]; rfl
  rw [M.lift_ok' h6]
  refine ⟨fun e n3 h => M.bind_err' h, fun n3 h7 => ?_⟩
  rw [M.bind_ok' h7]
  refine ⟨fun e n4 h => M.bind_err' h, fun n4 h8 => ?_⟩
  rw [M.bind_ok' h8]
  refine ⟨fun h => by rw [h]; rfl, fun h => ?_⟩
  rw [h, if_pos rfl]
  unfold initiatorMsg4
  refine ⟨fun e n5 h => M.bind_err' (M.bind_err' h), fun m4 n5 h9 => ?_⟩
  refine ⟨fun e h => M.bind_err' (by rw [M.bind_ok' h9]; exact M.lift_err' h), fun ead4 h10 => ⟨fun e n6 h => ?_, fun n6 h => ?_⟩⟩
  · exact M.bind_err' (by rw [M.bind_ok' h9, M.lift_ok' h10]; exact h)
  · rw [M.bind_ok' (s' := n6) (a := ()) (by rw [M.bind_ok' h9, M.lift_ok' h10]; exact h)]; rfl

/-- C44 is false of the code: if creating message_3 fails in any way (after message_2 was accepted), the
initiator gives message_2 itself to `tx` and returns ok; PRK_out is not written. -/
theorem C44_false (cfg : ECfg) (C : ECrypto) (c : ICtx) (creds : List Cred) (crBuf : Bytes) (L : Nat) (n n1 n2 n3 n4 : Net)
    {m1 h1 m2 : Bytes} {suite : Suite} {s : IState} {e : Err} (hm4 : cfg.message4 = false)
    (a1 : msg1Gen cfg C c = .ok (m1, suite, h1)) (a2 : netTx m1 n = (.ok (), n1))
    (a3 : netRx cfg.msgMaxSize n1 = (.ok m2, n2))
    (a4 : msg2Process cfg C c creds suite h1 m2 (authType c.method (false, false)).1 (authType c.method (false, false)).2
      crBuf (List.replicate cfg.eadSize 0) = .ok s)
    (a5 : msg3Build cfg C c suite (authType c.method (false, false)).1 s m2.length = .err e)
    (a6 : netEad s.ead n2 = (.ok (), n3)) (a7 : netTx m2 n3 = (.ok (), n4)) :
    initiatorRun cfg C c creds crBuf L n = (.ok ⟨s.cR, none, List.replicate 32 0, s.prk4e3m⟩, n4) := by
  have h := C44_initiator_partial cfg C c creds crBuf L n
  have ho : msg3OnlyGen cfg C c suite (authType c.method (false, false)).1 s m2 L = .ok ⟨m2, List.replicate 32 0, none⟩ := by
    unfold msg3OnlyGen; rw [a5]
  exact ((((((h.2 _ _ _ a1).2 _ a2).2 _ _ a3).2 _ _ a4 ho).2 _ a6).2 _ a7).1 hm4

/-- message_2 of the example responder for the example initiator -/
def exMsg2 (method : Int) (r : RCtx) : Bytes :=
  ((msg2Gen {} toyE r (((msg1Gen {} toyE (toyI method)).getD ⟨[], ⟨0, .ccm64, 8, .x25519, .eddsa, .ccm64⟩, []⟩).1) 10 []).getD
    ⟨[], ⟨⟨0, .ccm64, 8, .x25519, .eddsa, .ccm64⟩, false, [], [], [], []⟩⟩).1

/-- C44: this happens in a run of two honest parties, method 1 (signature of the initiator, static DH key of the
responder): the initiator returns ok, the second message it sends is message_2. -/
theorem C44_false_run :
    ∃ o n', initiatorRun {} toyE (toyI 1) toyCredsR (List.replicate 8 0) 32 (netOf [exMsg2 1 toyR]) = (.ok o, n') ∧
      o.prkOut = none ∧ n'.sent.getLast? = some (exMsg2 1 toyR) := by
  have h : (initiatorRun {} toyE (toyI 1) toyCredsR (List.replicate 8 0) 32 (netOf [exMsg2 1 toyR])).1.isOk = true := by
    decide +kernel
  refine ⟨((initiatorRun {} toyE (toyI 1) toyCredsR (List.replicate 8 0) 32 (netOf [exMsg2 1 toyR])).1).getD ⟨[], none, [], []⟩,
    (initiatorRun {} toyE (toyI 1) toyCredsR (List.replicate 8 0) 32 (netOf [exMsg2 1 toyR])).2, ?_, ?_, ?_⟩
  · exact Prod.ext (R.eq_getD _ h) rfl
  · decide +kernel
  · decide +kernel

/-- a failing step exists for both runs: no message arrives -/
example : (responderRun {} toyE toyR toyCredsI 10 32 (netOf [])).1 = .err .transport_deinitialized := by decide +kernel
example : (responderRun {} toyE toyR toyCredsI 10 32 (netOf [[0xff]])).1 = .err .unexpected_result_from_ext_lib := by decide +kernel

end Verif.Edhoc
