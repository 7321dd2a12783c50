import Verif.Props.EdhocCallbacks
/-
C89: how often an EDHOC run calls the application, and with how much.
-/
namespace Verif.Edhoc
open Verif Verif.Cbor

/-- The computation reads at most `rx` messages, each answer of `rx` once and in order, sends at most `tx` messages, none longer
than `size`, and calls `ead_process` at most `ead` times. -/
def Uses {α : Type} (m : M Net α) (rx tx ead size : Nat) : Prop :=
  ∀ n, ∃ i sent eads, i ≤ rx ∧ (m n).2.rxq = n.rxq.drop i ∧
    (m n).2.sent = n.sent ++ sent ∧ sent.length ≤ tx ∧ (∀ x ∈ sent, x.length ≤ size) ∧
    (m n).2.eads = n.eads ++ eads ∧ eads.length ≤ ead

theorem Uses.bind {α β : Type} {m : M Net α} {f : α → M Net β} {a b c a' b' c' size : Nat} (h1 : Uses m a b c size)
    (h2 : ∀ n x n', m n = (.ok x, n') → Uses (f x) a' b' c' size) : Uses (m >>= f) (a + a') (b + b') (c + c') size := by
  intro n
  obtain ⟨i, s, e, k1, k2, k3, k4, k5, k6, k7⟩ := h1 n
  cases hm : m n with
  | mk r n' =>
    rw [hm] at k2 k3 k6
    dsimp only at k2 k3 k6
    cases r with
    | err x => rw [M.bind_err' hm]; exact ⟨i, s, e, by omega, k2, k3, by omega, k5, k6, by omega⟩
    | ub =>
      have hb : ((m >>= f) n).2 = n' := by
        show (M.bind m f n).2 = n'
        unfold M.bind; rw [hm]
      rw [hb]; exact ⟨i, s, e, by omega, k2, k3, by omega, k5, k6, by omega⟩
    | ok x =>
      rw [M.bind_ok' hm]
      obtain ⟨i', s', e', l1, l2, l3, l4, l5, l6, l7⟩ := h2 n x n' hm n'
      refine ⟨i + i', s ++ s', e ++ e', by omega, by rw [l2, k2, List.drop_drop], by rw [l3, k3, List.append_assoc],
        by rw [List.length_append]; omega, ?_, by rw [l6, k6, List.append_assoc], by rw [List.length_append]; omega⟩
      intro y hy
      rcases List.mem_append.1 hy with h | h
      · exact k5 y h
      · exact l5 y h

theorem Uses.lift {α : Type} {x : R α} {size : Nat} : Uses (M.lift x : M Net α) 0 0 0 size :=
  fun n => ⟨0, [], [], by omega, rfl, (List.append_nil _).symm, by simp, by simp, (List.append_nil _).symm, by simp⟩

theorem Uses.pure {α : Type} {x : α} {size : Nat} : Uses (pure x : M Net α) 0 0 0 size :=
  fun n => ⟨0, [], [], by omega, rfl, (List.append_nil _).symm, by simp, by simp, (List.append_nil _).symm, by simp⟩

theorem Uses.tx {m : Bytes} {size : Nat} (h : m.length ≤ size) : Uses (netTx m) 0 1 0 size := by
  intro n
  obtain ⟨n', b | ⟨e, b⟩, s, d, r⟩ := netTx_cases m n <;> rw [b] <;>
    exact ⟨0, [m], [], by omega, r, s, by simp, by simpa using h, by rw [d]; simp, by simp⟩

theorem Uses.ead {m : Bytes} {size : Nat} : Uses (netEad m) 0 0 1 size := by
  intro n
  obtain ⟨n', b | ⟨e, b⟩, s, d, r⟩ := netEad_cases m n <;> rw [b] <;>
    exact ⟨0, [], [m], by omega, r, by rw [s]; simp, by simp, by simp, d, by simp⟩

theorem Uses.rx {cap size : Nat} : Uses (netRx cap) 1 0 0 size := by
  intro n
  unfold netRx
  cases hq : n.rxq with
  | nil => exact ⟨0, [], [], by omega, by simp [hq], (List.append_nil _).symm, by simp, by simp, (List.append_nil _).symm, by simp⟩
  | cons a q =>
    cases a with
    | inl e => exact ⟨1, [], [], by omega, rfl, (List.append_nil _).symm, by simp, by simp, (List.append_nil _).symm, by simp⟩
    | inr m =>
      dsimp only
      split <;> exact ⟨1, [], [], by omega, rfl, (List.append_nil _).symm, by simp, by simp, (List.append_nil _).symm, by simp⟩

theorem netRx_le {cap : Nat} {n n' : Net} {m : Bytes} (h : netRx cap n = (.ok m, n')) : m.length ≤ cap := by
  unfold netRx at h
  split at h
  · cases h
  · cases h
  · split at h
    · rename_i hl
      simp only [Prod.mk.injEq, R.ok.injEq] at h
      rw [← h.1]; exact hl
    · cases h

theorem lift_val {α : Type} {x : R α} {a : α} {n n' : Net} (h : (M.lift x : M Net α) n = (.ok a, n')) : x = .ok a := by
  unfold M.lift at h
  exact (Prod.mk.inj h).1

/-- message_1 fits MSG_MAX_SIZE -/
theorem msg1Gen_le {cfg : ECfg} {C : ECrypto} {c : ICtx} {m : Bytes} {s : Suite} {h : Bytes} (hg : msg1Gen cfg C c = .ok (m, s, h)) :
    m.length ≤ cfg.msgMaxSize := by
  unfold msg1Gen at hg
  obtain ⟨a, -, hg⟩ := R.bind_eq_ok.1 hg
  obtain ⟨b, -, hg⟩ := R.bind_eq_ok.1 hg
  obtain ⟨m', h3, hg⟩ := R.bind_eq_ok.1 hg
  obtain ⟨su, -, hg⟩ := R.bind_eq_ok.1 hg
  simp only [R.pure_eq, R.ok.injEq, Prod.mk.injEq] at hg
  rw [← hg.1]
  exact (cborOut_ok.1 h3).1 ▸ (cborOut_ok.1 h3).2

/-- message_3 is not longer than the received message_2 -/
theorem msg3OnlyGen_le {cfg : ECfg} {C : ECrypto} {c : ICtx} {suite : Suite} {sI : Bool} {s : IState} {m2 : Bytes} {L : Nat} {o : M3Out}
    (h : msg3OnlyGen cfg C c suite sI s m2 L = .ok o) : o.msg.length ≤ m2.length := by
  have hb : ∀ {m3 p3}, msg3Build cfg C c suite sI s m2.length = .ok (m3, p3) → m3.length ≤ m2.length := by
    intro m3 p3 h
    unfold msg3Build at h
    dsimp only at h
    obtain ⟨_, -, h⟩ := R.bind_eq_ok.1 h
    obtain ⟨_, -, h⟩ := R.bind_eq_ok.1 h
    obtain ⟨_, -, h⟩ := R.bind_eq_ok.1 h
    obtain ⟨⟨c3, q3⟩, -, h⟩ := R.bind_eq_ok.1 h
    obtain ⟨m, h5, h⟩ := R.bind_eq_ok.1 h
    simp only [R.pure_eq, R.ok.injEq, Prod.mk.injEq] at h
    rw [← h.1]
    exact (cborOut_ok.1 h5).1 ▸ (cborOut_ok.1 h5).2
  unfold msg3OnlyGen at h
  split at h
  · cases h
  · simp only [R.ok.injEq] at h; rw [← h]; exact Nat.le_refl _
  · rename_i m3 p3 hx
    have := hb hx
    split at h
    · cases h
    · simp only [R.ok.injEq] at h; rw [← h]; exact this
    · split at h
      · cases h
      · simp only [R.ok.injEq] at h; rw [← h]; exact this
      · simp only [R.ok.injEq] at h; rw [← h]; exact this

theorem msg3Gen_le {cfg : ECfg} {C : ECrypto} {c : ICtx} {creds : List Cred} {suite : Suite} {h1 m2 crBuf ead : Bytes} {L : Nat}
    {s : IState} {o : M3Out} (h : msg3Gen cfg C c creds suite h1 m2 crBuf ead L = .ok (s, o)) : o.msg.length ≤ m2.length := by
  unfold msg3Gen at h
  obtain ⟨st', -, h⟩ := R.bind_eq_ok.1 h
  obtain ⟨o', a4, h⟩ := R.bind_eq_ok.1 h
  simp only [R.pure_eq, R.ok.injEq, Prod.mk.injEq] at h
  rw [← h.2]
  exact msg3OnlyGen_le a4

theorem msg2Gen_le {cfg : ECfg} {C : ECrypto} {c : RCtx} {m1 : Bytes} {cICap : Nat} {ead m2 : Bytes} {rs : RState}
    (h : msg2Gen cfg C c m1 cICap ead = .ok (m2, rs)) : m2.length ≤ cfg.msgMaxSize := by
  unfold msg2Gen at h
  obtain ⟨p, -, h⟩ := R.bind_eq_ok.1 h
  split at h
  · cases h
  unfold msg2Build at h
  obtain ⟨suite, -, h⟩ := R.bind_eq_ok.1 h
  dsimp only at h
  obtain ⟨_, -, h⟩ := R.bind_eq_ok.1 h
  obtain ⟨_, -, h⟩ := R.bind_eq_ok.1 h
  obtain ⟨_, -, h⟩ := R.bind_eq_ok.1 h
  obtain ⟨⟨c2, p2⟩, -, h⟩ := R.bind_eq_ok.1 h
  obtain ⟨m, h6, h⟩ := R.bind_eq_ok.1 h
  obtain ⟨_, -, h⟩ := R.bind_eq_ok.1 h
  simp only [R.pure_eq, R.ok.injEq, Prod.mk.injEq] at h
  rw [← h.1]
  unfold msg2Encode at h6
  obtain ⟨_, -, h6⟩ := R.bind_eq_ok.1 h6
  exact (encodeBstr_ok.1 h6).1 ▸ (encodeBstr_ok.1 h6).2

theorem msg4Gen_le {cfg : ECfg} {C : ECrypto} {ead4 : Bytes} {suite : Suite} {prk th4 m4 : Bytes} {cap : Nat}
    (h : msg4Gen cfg C ead4 suite prk th4 cap = .ok m4) : m4.length ≤ cap := by
  unfold msg4Gen at h
  obtain ⟨⟨c4, q⟩, -, h⟩ := R.bind_eq_ok.1 h
  exact (encodeBstr_ok.1 h).1 ▸ (encodeBstr_ok.1 h).2

/-- **C89**, initiator: whatever is received and whatever the callbacks answer, one run takes at most one message from `rx` (two
with MESSAGE_4), calls `tx` at most twice, each time with at most MSG_MAX_SIZE bytes, and `ead_process` at most once (twice
with MESSAGE_4). -/
theorem C89_initiator (cfg : ECfg) (C : ECrypto) (c : ICtx) (creds : List Cred) (crBuf : Bytes) (L : Nat) :
    Uses (initiatorRun cfg C c creds crBuf L) (if cfg.message4 then 2 else 1) 2 (if cfg.message4 then 2 else 1) cfg.msgMaxSize := by
  have h4 : ∀ (suite : Suite) (s : IState) (o : M3Out), Uses (initiatorMsg4 cfg C suite s o) 1 0 1 cfg.msgMaxSize := fun suite s o =>
    Uses.bind (a' := 0) (b' := 0) (c' := 1) Uses.rx fun _ _ _ _ => Uses.bind (a := 0) (b := 0) (c := 0) Uses.lift fun _ _ _ _ => Uses.ead
  have key : Uses (initiatorRun cfg C c creds crBuf L) (0 + (0 + (1 + (0 + (0 + (0 + if cfg.message4 then 1 else 0))))))
      (0 + (1 + (0 + (0 + (0 + (1 + 0)))))) (0 + (0 + (0 + (0 + (1 + (0 + if cfg.message4 then 1 else 0)))))) cfg.msgMaxSize := by
    unfold initiatorRun
    refine Uses.bind Uses.lift fun n x n' hx => ?_
    obtain ⟨m1, suite, h1⟩ := x
    refine Uses.bind (Uses.tx (msg1Gen_le (lift_val hx))) fun _ _ _ _ => ?_
    refine Uses.bind Uses.rx fun _ m2 _ hr => ?_
    refine Uses.bind Uses.lift fun _ x _ hx => ?_
    obtain ⟨s, o⟩ := x
    refine Uses.bind Uses.ead fun _ _ _ _ => ?_
    refine Uses.bind (Uses.tx (Nat.le_trans (msg3Gen_le (lift_val hx)) (netRx_le hr))) fun _ _ _ _ => ?_
    cases cfg.message4 with
    | false => exact Uses.pure
    | true => exact Uses.bind (a' := 0) (b' := 0) (c' := 0) (h4 _ _ _) fun _ _ _ _ => Uses.pure
  have e : ∀ b : Bool, (0 + (0 + (1 + (0 + (0 + (0 + if b then 1 else 0)))))) = (if b then 2 else 1) := by decide
  have e' : ∀ b : Bool, (0 + (0 + (0 + (0 + (1 + (0 + if b then 1 else 0)))))) = (if b then 2 else 1) := by decide
  rw [e, e'] at key
  exact key

/-- **C89**, responder: one run takes at most two messages from `rx`, calls `tx` at most once (twice with MESSAGE_4), each time
with at most MSG_MAX_SIZE bytes, and `ead_process` at most twice. -/
theorem C89_responder (cfg : ECfg) (C : ECrypto) (c : RCtx) (creds : List Cred) (cICap L : Nat) :
    Uses (responderRun cfg C c creds cICap L) 2 (if cfg.message4 then 2 else 1) 2 cfg.msgMaxSize := by
  have key : Uses (responderRun cfg C c creds cICap L) (1 + (0 + (0 + (0 + (1 + (0 + (0 + 0)))))))
      (0 + (0 + (0 + (1 + (0 + (0 + (0 + if cfg.message4 then 1 else 0))))))) (0 + (0 + (1 + (0 + (0 + (0 + (1 + 0))))))) cfg.msgMaxSize := by
    unfold responderRun
    refine Uses.bind Uses.rx fun _ m1 _ _ => ?_
    refine Uses.bind Uses.lift fun _ x _ hx => ?_
    obtain ⟨m2, rs⟩ := x
    refine Uses.bind Uses.ead fun _ _ _ _ => ?_
    refine Uses.bind (Uses.tx (msg2Gen_le (lift_val hx))) fun _ _ _ _ => ?_
    refine Uses.bind Uses.rx fun _ m3 _ hr => ?_
    refine Uses.bind Uses.lift fun _ o _ _ => ?_
    refine Uses.bind Uses.ead fun _ _ _ _ => ?_
    cases cfg.message4 with
    | false => exact Uses.pure
    | true =>
      refine Uses.bind (a := 0) (b := 1) (c := 0) (a' := 0) (b' := 0) (c' := 0) ?_ fun _ _ _ _ => Uses.pure
      unfold responderMsg4
      exact Uses.bind (a := 0) (b := 0) (c := 0) Uses.lift fun _ m4 _ h4 =>
        Uses.tx (Nat.le_trans (msg4Gen_le (lift_val h4)) (netRx_le hr))
  have e : ∀ b : Bool, (0 + (0 + (0 + (1 + (0 + (0 + (0 + if b then 1 else 0))))))) = (if b then 2 else 1) := by decide
  rw [e] at key
  exact key

/-- **C89** A second message is never longer than the message it answers: message_3 (or what is sent in its place) than the
received message_2, message_4 than the received message_3. -/
theorem C89_answers (cfg : ECfg) (C : ECrypto) (n : Net) (a b : Bytes) :
    (∀ c creds crBuf L, (initiatorRun cfg C c creds crBuf L n).2.sent = n.sent ++ [a, b] →
      ∃ m2, n.rxq.head? = some (.inr m2) ∧ b.length ≤ m2.length) ∧
    (∀ c creds cICap L, (responderRun cfg C c creds cICap L n).2.sent = n.sent ++ [a, b] →
      ∃ m1 m3 q, n.rxq = .inr m1 :: .inr m3 :: q ∧ b.length ≤ m3.length) := by
  constructor
  · intro c creds crBuf L h
    obtain ⟨n', hn, ht⟩ := init_trace cfg C c creds crBuf L n
    rw [hn] at h
    rcases ht with ⟨t1, -⟩ | ⟨m1, suite, h1, a1, ⟨t1, -⟩ | ⟨m2, q, st, hq, a2, o, a3, ⟨t1, -⟩ | ⟨t1, -⟩⟩⟩
    · rw [t1] at h; simp at h
    · rw [t1] at h; simp at h
    · rw [t1] at h; simp at h
    · rw [t1] at h
      simp only [List.append_cancel_left_eq, List.cons.injEq, and_true] at h
      exact ⟨m2, by rw [hq]; rfl, h.2 ▸ msg3OnlyGen_le a3⟩
  · intro c creds cICap L h
    obtain ⟨n', hn, ht⟩ := resp_trace cfg C c creds cICap L n
    rw [hn] at h
    rcases ht with ⟨t1, -⟩ | ⟨m1, q, m2, rs, hq, a1, ⟨t1, -⟩ | ⟨t1, -⟩ | ⟨m3, q', o, hq', a2, -, t1 | ⟨-, m4, a4, t1⟩⟩⟩
    · rw [t1] at h; simp at h
    · rw [t1] at h; simp at h
    · rw [t1] at h; simp at h
    · rw [t1] at h; simp at h
    · rw [t1] at h
      simp only [List.append_cancel_left_eq, List.cons.injEq, and_true] at h
      exact ⟨m1, m3, q', by rw [hq, hq'], h.2 ▸ msg4Gen_le a4⟩

/-- the bounds are reached: an honest run, with further messages waiting -/
example : (fun n : Net => n.rxq.length = 1 ∧ n.sent.length = 2 ∧ n.eads.length = 1)
      (initiatorRun {} toyE (toyI 0) toyCredsR (List.replicate 10 0) 32 (netOf [exP2, exP2])).2 ∧
    (fun n : Net => n.rxq.length = 1 ∧ n.sent.length = 1 ∧ n.eads.length = 2)
      (responderRun {} toyE toyR toyCredsI 10 32 (netOf [exP1, exP3, exP3])).2 := by decide +kernel

/-- `C89_answers`: message_3 is sent after message_2 of the same length -/
example : ∃ a b, (initiatorRun {} toyE (toyI 0) toyCredsR (List.replicate 10 0) 32 (netOf [exP2])).2.sent = (netOf [exP2]).sent ++ [a, b] ∧
    b.length ≤ exP2.length :=
  ⟨exP1, exP3, by decide +kernel, by decide +kernel⟩

end Verif.Edhoc
