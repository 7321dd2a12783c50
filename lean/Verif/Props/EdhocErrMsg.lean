import Verif.Props.EdhocWire
import Verif.Props.EdhocCallbacks
/-
C84: error messages of EDHOC (RFC 9528, 6).
-/
namespace Verif.Edhoc
open Verif Verif.Cbor Verif.EdhocGrammar

/-! ### specification -/

/-- RFC 9528, 6: error = (ERR_CODE : int, ERR_INFO : any).  What follows ERR_CODE is left open. -/
def IsError (s : Bool) (b : Bytes) : Prop := ∃ code w info, IsItem s (.int code) w ∧ b = w ++ info

/-- RFC 9528, 6.2 - 6.4: the registered error messages that are errors: 1 and a text, 2 and SUITES_R (one suite or a
list of any length), 3 and `true` -/
inductive IsRegistered (s : Bool) : Bytes → Prop
  | unspecified {w x v : Bytes} : IsItem s (.int 1) w → IsItem s (.tstr v) x → IsRegistered s (w ++ x)
  | wrongSuite {w x : Bytes} (su : List Int ⊕ Int) : IsItem s (.int 2) w → IsItem s (suites su) x → IsRegistered s (w ++ x)
  | unknownCred {w : Bytes} : IsItem s (.int 3) w → IsRegistered s (w ++ [0xf5])

theorem IsRegistered.isError {s : Bool} {b : Bytes} (h : IsRegistered s b) : IsError s b := by
  cases h with
  | unspecified hw _ => exact ⟨_, _, _, hw, rfl⟩
  | wrongSuite _ hw _ => exact ⟨_, _, _, hw, rfl⟩
  | unknownCred hw => exact ⟨_, _, _, hw, rfl⟩

/-! ### an encoding is not the beginning of another one -/

theorem int_prefix {s : Bool} {i j : Int} {x y a b : Bytes} (hx : IsItem s (.int i) x) (hy : IsItem s (.int j) y)
    (h : x ++ a = y ++ b) : i = j ∧ a = b := by
  have hd : ∀ {i : Int} {x a : Bytes}, IsItem s (.int i) x →
      zHead s (x ++ a) = some (if 0 ≤ i then 0 else 1, if 0 ≤ i then i.toNat else (-1 - i).toNat, a) := by
    intro i x a hx
    unfold Item.int at hx
    split at hx
    · rename_i hi
      rw [if_pos hi, if_pos hi]
      exact zHead_iff.2 ⟨by omega, x, hx, rfl⟩
    · rename_i hi
      rw [if_neg hi, if_neg hi]
      exact zHead_iff.2 ⟨by omega, x, hx, rfl⟩
  have h1 := hd (a := a) hx
  have h2 := hd (a := b) hy
  rw [h] at h1
  obtain ⟨e1, e2, e3⟩ := head_unique h1 h2
  refine ⟨?_, e3⟩
  by_cases hi : 0 ≤ i <;> by_cases hj : 0 ≤ j <;> simp only [hi, hj, if_true, if_false] at e1 e2 <;> omega

theorem ints_prefix {s : Bool} : ∀ {l m : List Int} {x y a b : Bytes}, IsSeq s (l.map .int) x → IsSeq s (m.map .int) y →
    l.length = m.length → x ++ a = y ++ b → a = b
  | [], [], x, y, a, b, hx, hy, _, h => by
    simp only [List.map_nil, isSeq_nil] at hx hy
    subst hx; subst hy
    exact h
  | i :: l, j :: m, x, y, a, b, hx, hy, hl, h => by
    simp only [List.map_cons, isSeq_cons] at hx hy
    obtain ⟨x1, x2, hx1, hx2, rfl⟩ := hx
    obtain ⟨y1, y2, hy1, hy2, rfl⟩ := hy
    simp only [List.append_assoc] at h
    exact ints_prefix hx2 hy2 (by simpa using hl) (int_prefix hx1 hy1 h).2

theorem suites_prefix {s : Bool} {u v : List Int ⊕ Int} {x y a b : Bytes} (hx : IsItem s (suites u) x)
    (hy : IsItem s (suites v) y) (h : x ++ a = y ++ b) : a = b := by
  cases u with
  | inr i =>
    cases v with
    | inr j => exact (int_prefix hx hy h).2
    | inl m =>
      obtain ⟨k, p, q, e, hk⟩ := int_head (l := a) hx
      obtain ⟨p', q', e'⟩ := item_head (l := b) (by simp [suites]) hy
      rw [← h, e] at e'
      simp only [suites, majorOf, Option.some.injEq, Prod.mk.injEq] at e'
      omega
  | inl l =>
    cases v with
    | inr j =>
      obtain ⟨k, p, q, e, hk⟩ := int_head (l := b) hy
      obtain ⟨p', q', e'⟩ := item_head (l := a) (by simp [suites]) hx
      rw [h, e] at e'
      simp only [suites, majorOf, Option.some.injEq, Prod.mk.injEq] at e'
      omega
    | inl m =>
      simp only [suites, IsItem] at hx hy
      obtain ⟨g, t, hg, ht, rfl⟩ := hx
      obtain ⟨g', t', hg', ht', rfl⟩ := hy
      simp only [List.append_assoc] at h
      have e1 := (zHead_iff (l := t ++ a)).2 ⟨by omega, g, hg, rfl⟩
      have e2 := (zHead_iff (l := t' ++ b)).2 ⟨by omega, g', hg', rfl⟩
      rw [h] at e1
      obtain ⟨-, d1, d2⟩ := head_unique e1 e2
      simp only [List.length_map] at d1
      exact ints_prefix ht ht' d1 d2

theorem item_ne_nil {s : Bool} {v x : Bytes} (h : IsItem s (.bstr v) x) : x ≠ [] := by
  simp only [IsItem] at h
  obtain ⟨h, hh, rfl⟩ := h
  unfold IsHead at hh
  rcases hh with ⟨-, rfl⟩ | ⟨_, _, _, _, -, -, -, -, rfl⟩ <;> simp

/-- an error message is no byte string, whatever follows -/
theorem IsError.not_bstr {s : Bool} {b : Bytes} (h : IsError s b) (v : Bytes) : ¬ OneBstr s v b := by
  rintro ⟨x, t, hx, rfl⟩
  obtain ⟨code, w, info, hw, he⟩ := h
  obtain ⟨m, p, q, e, hm⟩ := int_head (l := info) hw
  obtain ⟨p', q', e'⟩ := item_head (l := t) (by simp) hx
  rw [he, e] at e'
  simp only [majorOf, Option.some.injEq, Prod.mk.injEq] at e'
  omega

theorem IsError.decodeBstr {cfg : ECfg} {b : Bytes} (h : IsError cfg.strictCbor b) (cap : Nat) :
    Edhoc.decodeBstr cfg b cap = .err .unexpected_result_from_ext_lib := by
  unfold Edhoc.decodeBstr
  cases hz : zBstr cfg.strictCbor b with
  | none => rfl
  | some p =>
    obtain ⟨x, hx, hb⟩ := zBstr_iff.1 hz
    exact absurd ⟨x, p.2, hx, hb⟩ (h.not_bstr p.1)

/-- a registered error message is no message_1 -/
theorem IsRegistered.not_message_1 {s : Bool} {b : Bytes} (h : IsRegistered s b) (method : Int) (su : List Int ⊕ Int)
    (gX : Bytes) (cI : Int ⊕ Bytes) (ead : Option Bytes) : ¬ Message1 s method su gX cI ead b := by
  rintro ⟨-, -, -, w0, r, hs, he, -⟩
  simp only [isSeq_cons, isSeq_nil] at hs
  obtain ⟨x1, y1, h1, ⟨x2, y2, h2, ⟨x3, y3, h3, ⟨x4, y4, h4, h5, rfl⟩, rfl⟩, rfl⟩, rfl⟩ := hs
  cases h with
  | unspecified hw hx =>
    rename_i w x v
    simp only [List.append_assoc] at he
    have hd := (int_prefix hw h1 he).2
    obtain ⟨p, q, e⟩ := item_head (l := []) (by simp) hx
    rw [List.append_nil, hd] at e
    cases su with
    | inl l =>
      obtain ⟨p', q', e'⟩ := item_head (l := x3 ++ (x4 ++ (y4 ++ r))) (by simp [suites]) h2
      rw [e] at e'
      simp [suites, majorOf] at e'
    | inr i =>
      obtain ⟨m, p', q', e', hm⟩ := int_head (l := x3 ++ (x4 ++ (y4 ++ r))) h2
      rw [e] at e'
      simp only [majorOf, Option.some.injEq, Prod.mk.injEq] at e'
      omega
  | wrongSuite su' hw hx =>
    simp only [List.append_assoc] at he
    have hd := (int_prefix hw h1 he).2
    have := suites_prefix hx h2 (a := []) (by rw [List.append_nil]; exact hd)
    have hn := item_ne_nil h3
    cases x3 with
    | nil => exact hn rfl
    | cons _ _ => cases this
  | unknownCred hw =>
    simp only [List.append_assoc] at he
    have hd := (int_prefix hw h1 he).2
    have hz : zHead s [0xf5] = some (7, 21, []) := by cases s <;> decide +kernel
    rw [hd] at hz
    cases su with
    | inl l =>
      obtain ⟨p', q', e'⟩ := item_head (l := x3 ++ (x4 ++ (y4 ++ r))) (by simp [suites]) h2
      rw [hz] at e'
      simp [suites, majorOf] at e'
    | inr i =>
      obtain ⟨m, p', q', e', hm⟩ := int_head (l := x3 ++ (x4 ++ (y4 ++ r))) h2
      rw [hz] at e'
      simp only [Option.some.injEq, Prod.mk.injEq] at e'
      omega

/-! ### what the sides do with one -/

/-- the codes with which an error message is refused -/
def Refusal (e : Err) : Prop := e = .unexpected_result_from_ext_lib ∨ e = .buffer_to_small

theorem netRx_head {cap : Nat} {n : Net} {m : Bytes} {q : List (Err ⊕ Bytes)} (h : n.rxq = .inr m :: q) :
    netRx cap n = (if m.length ≤ cap then .ok m else .err .buffer_to_small, { n with rxq := q }) := by
  unfold netRx
  rw [h]
  dsimp only
  split <;> rfl

/-- C84, initiator: an error message (of any kind) in place of message_2 ends the run with an error: nothing is given to
`tx` after message_1, nothing to `ead_process`. -/
theorem C84_message_2 {cfg : ECfg} {C : ECrypto} {c : ICtx} {creds : List Cred} {crBuf m1 h1 m : Bytes} {L : Nat} {n : Net}
    {suite : Suite} {q : List (Err ⊕ Bytes)} (hg : msg1Gen cfg C c = .ok (m1, suite, h1)) (hq : n.rxq = .inr m :: q)
    (hm : IsError cfg.strictCbor m) :
    ∃ e n', initiatorRun cfg C c creds crBuf L n = (.err e, n') ∧ n'.sent = n.sent ++ [m1] ∧ n'.eads = n.eads ∧
      (n.txq.head? = some (some e) ∨ Refusal e) := by
  have hc := (C44_initiator_partial cfg C c creds crBuf L n).2 _ _ _ hg
  obtain ⟨n1, b1 | ⟨e, b1⟩, s1, d1, r1⟩ := netTx_cases m1 n
  case inr =>
    refine ⟨e, n1, hc.1 _ _ b1, s1, d1, .inl ?_⟩
    unfold netTx at b1
    split at b1
    · rename_i e' q' hq'
      simp only [Prod.mk.injEq, R.err.injEq] at b1
      rw [hq', b1.1]; rfl
    · cases b1
  have hrx := netRx_head (cap := cfg.msgMaxSize) (r1.trans hq)
  by_cases hl : m.length ≤ cfg.msgMaxSize
  case neg =>
    rw [if_neg hl] at hrx
    exact ⟨_, _, (hc.2 _ b1).1 _ _ hrx, s1, d1, .inr (.inr rfl)⟩
  rw [if_pos hl] at hrx
  have hp : ∃ e, Refusal e ∧ msg2Process cfg C c creds suite h1 m (authType c.method (false, false)).1
      (authType c.method (false, false)).2 crBuf (List.replicate cfg.eadSize 0) = .err e := by
    unfold msg2Process checkBufferSize
    split
    · exact ⟨_, .inr rfl, rfl⟩
    · refine ⟨_, .inl rfl, ?_⟩
      rw [R.ok_bind]
      unfold msg2Parse
      rw [hm.decodeBstr]; rfl
  obtain ⟨e, he, hp⟩ := hp
  exact ⟨e, _, ((hc.2 _ b1).2 _ _ hrx).1 _ hp, s1, d1, .inr he⟩

/-- C84, responder: the same for an error message in place of message_3: nothing is given to `tx` after message_2,
nothing to `ead_process` after EAD_1. -/
theorem C84_message_3 {cfg : ECfg} {C : ECrypto} {c : RCtx} {creds : List Cred} {cICap L : Nat} {n : Net} {m1 m2 m : Bytes}
    {rs : RState} {q : List (Err ⊕ Bytes)} (hq : n.rxq = .inr m1 :: .inr m :: q) (hl1 : m1.length ≤ cfg.msgMaxSize)
    (hg : msg2Gen cfg C c m1 cICap (List.replicate cfg.eadSize 0) = .ok (m2, rs)) (hm : IsError cfg.strictCbor m) :
    ∃ e n', responderRun cfg C c creds cICap L n = (.err e, n') ∧ n'.eads = n.eads ++ [rs.ead] ∧
      (n.eadq.head? = some (some e) ∧ n'.sent = n.sent ∨
        n'.sent = n.sent ++ [m2] ∧ (n.txq.head? = some (some e) ∨ Refusal e)) := by
  have hc := C44_responder cfg C c creds cICap L n
  have hrx := netRx_head (cap := cfg.msgMaxSize) hq
  rw [if_pos hl1] at hrx
  have hc := ((hc.2 _ _ hrx).2 _ _ hg)
  generalize hn1 : ({ n with rxq := .inr m :: q } : Net) = n1 at hc hrx
  have x1 : n1.sent = n.sent ∧ n1.eads = n.eads ∧ n1.txq = n.txq ∧ n1.eadq = n.eadq ∧ n1.rxq = .inr m :: q := by
    subst hn1; exact ⟨rfl, rfl, rfl, rfl, rfl⟩
  obtain ⟨x1, x2, x3, x4, x5⟩ := x1
  cases b2 : netEad rs.ead n1 with
  | mk r2 n2 =>
  have hb2 := b2
  unfold netEad at b2
  split at b2
  · rename_i e q' hq'
    simp only [Prod.mk.injEq] at b2
    obtain ⟨rfl, rfl⟩ := b2
    refine ⟨e, _, hc.1 _ _ hb2, by rw [x2], .inl ⟨?_, x1⟩⟩
    rw [← x4, hq']; rfl
  · simp only [Prod.mk.injEq] at b2
    obtain ⟨rfl, rfl⟩ := b2
    have hc := hc.2 _ hb2
    generalize hn2 : ({ n1 with eadq := n1.eadq.tail, eads := n1.eads ++ [rs.ead] } : Net) = n2 at hc hb2
    have y : n2.sent = n.sent ∧ n2.eads = n.eads ++ [rs.ead] ∧ n2.txq = n.txq ∧ n2.rxq = .inr m :: q := by
      subst hn2; exact ⟨x1, by rw [x2], x3, x5⟩
    obtain ⟨y1, y2, y3, y4⟩ := y
    cases b3 : netTx m2 n2 with
    | mk r3 n3 =>
    have hb3 := b3
    unfold netTx at b3
    split at b3
    · rename_i e q' hq'
      simp only [Prod.mk.injEq] at b3
      obtain ⟨rfl, rfl⟩ := b3
      refine ⟨e, _, hc.1 _ _ hb3, y2, .inr ⟨by rw [y1], .inl ?_⟩⟩
      rw [← y3, hq']; rfl
    · simp only [Prod.mk.injEq] at b3
      obtain ⟨rfl, rfl⟩ := b3
      have hc := hc.2 _ hb3
      generalize hn3 : ({ n2 with txq := n2.txq.tail, sent := n2.sent ++ [m2] } : Net) = n3 at hc hb3
      have z : n3.sent = n.sent ++ [m2] ∧ n3.eads = n.eads ++ [rs.ead] ∧ n3.rxq = .inr m :: q := by
        subst hn3; exact ⟨by rw [← y1], y2, y4⟩
      obtain ⟨z1, z2, z3⟩ := z
      have hrx2 := netRx_head (cap := cfg.msgMaxSize) z3
      by_cases hl : m.length ≤ cfg.msgMaxSize
      case neg =>
        rw [if_neg hl] at hrx2
        exact ⟨_, _, hc.1 _ _ hrx2, z2, .inr ⟨z1, .inr (.inr rfl)⟩⟩
      rw [if_pos hl] at hrx2
      have hp : ∃ e, Refusal e ∧ msg3Process cfg C c creds rs m L = .err e := by
        unfold msg3Process checkBufferSize
        split
        · exact ⟨_, .inr rfl, rfl⟩
        · refine ⟨_, .inl rfl, ?_⟩
          rw [R.ok_bind, hm.decodeBstr]; rfl
      obtain ⟨e, he, hp⟩ := hp
      exact ⟨e, _, (hc.2 _ _ hrx2).1 _ hp, z2, .inr ⟨z1, .inr he⟩⟩

/-- C84, initiator with MESSAGE_4: an error message in place of message_4 (which RFC 9528 allows: the responder may refuse
message_3) is never taken for the confirmation: the run does not return ok, and `ead_process` is given no EAD_4. -/
theorem C84_message_4 {cfg : ECfg} {C : ECrypto} {c : ICtx} {creds : List Cred} {crBuf m2 m : Bytes} {L : Nat} {n : Net}
    {q : List (Err ⊕ Bytes)} (h4 : cfg.message4 = true) (hq : n.rxq = .inr m2 :: .inr m :: q) (hm : IsError cfg.strictCbor m) :
    (initiatorRun cfg C c creds crBuf L n).1.isOk = false ∧
      ((initiatorRun cfg C c creds crBuf L n).2.eads.length ≤ n.eads.length + 1) := by
  have hp : ∀ suite prk th4 cap, msg4Process cfg C suite prk th4 m cap = .err .unexpected_result_from_ext_lib := by
    intro suite prk th4 cap
    unfold msg4Process
    rw [hm.decodeBstr]; rfl
  constructor
  · cases hr : initiatorRun cfg C c creds crBuf L n with
    | mk r n' =>
    cases r with
    | err e => rfl
    | ub => rfl
    | ok o =>
    exfalso
    unfold initiatorRun at hr
    obtain ⟨⟨m1, suite, h1⟩, n1, e1, hr⟩ := M.bind_eq_ok.1 hr
    simp only [M.run_lift, Prod.mk.injEq] at e1
    obtain ⟨e1, rfl⟩ := e1
    obtain ⟨_, n2, e2, hr⟩ := M.bind_eq_ok.1 hr
    obtain ⟨m2', n3, e3, hr⟩ := M.bind_eq_ok.1 hr
    obtain ⟨⟨st, o3⟩, n4, e4, hr⟩ := M.bind_eq_ok.1 hr
    simp only [M.run_lift, Prod.mk.injEq] at e4
    obtain ⟨e4, rfl⟩ := e4
    obtain ⟨_, n5, e5, hr⟩ := M.bind_eq_ok.1 hr
    obtain ⟨_, n6, e6, hr⟩ := M.bind_eq_ok.1 hr
    rw [if_pos h4] at hr
    obtain ⟨_, n7, e7, hr⟩ := M.bind_eq_ok.1 hr
    clear hr
    unfold initiatorMsg4 at e7
    obtain ⟨m4, n8, e8, e7⟩ := M.bind_eq_ok.1 e7
    obtain ⟨ead4, n9, e9, e7⟩ := M.bind_eq_ok.1 e7
    simp only [M.run_lift, Prod.mk.injEq] at e9
    obtain ⟨e9, rfl⟩ := e9
    have a2 : n2.rxq = n.rxq := by
      obtain ⟨k, b1 | ⟨e, b1⟩, -, -, r1⟩ := netTx_cases m1 n
      · rw [e2] at b1; simp only [Prod.mk.injEq] at b1; rw [b1.2]; exact r1
      · rw [e2] at b1; cases b1
    have a3 : n2.rxq = .inr m2' :: n3.rxq := by
      obtain ⟨k, ⟨m', b, hb⟩ | ⟨e, b⟩, -, -⟩ := netRx_cases cfg.msgMaxSize n2
      · rw [e3] at b; simp only [Prod.mk.injEq, R.ok.injEq] at b; rw [b.1, b.2]; exact hb
      · rw [e3] at b; cases b
    have a5 : n5.rxq = n3.rxq := by
      obtain ⟨k, b1 | ⟨e, b1⟩, -, -, r1⟩ := netEad_cases st.ead n3
      · rw [e5] at b1; simp only [Prod.mk.injEq] at b1; rw [b1.2]; exact r1
      · rw [e5] at b1; cases b1
    have a6 : n6.rxq = n5.rxq := by
      obtain ⟨k, b1 | ⟨e, b1⟩, -, -, r1⟩ := netTx_cases o3.msg n5
      · rw [e6] at b1; simp only [Prod.mk.injEq] at b1; rw [b1.2]; exact r1
      · rw [e6] at b1; cases b1
    have a8 : n6.rxq = .inr m4 :: n8.rxq := by
      obtain ⟨k, ⟨m', b, hb⟩ | ⟨e, b⟩, -, -⟩ := netRx_cases cfg.msgMaxSize n6
      · rw [e8] at b; simp only [Prod.mk.injEq, R.ok.injEq] at b; rw [b.1, b.2]; exact hb
      · rw [e8] at b; cases b
    rw [a2, hq] at a3
    simp only [List.cons.injEq] at a3
    rw [a6, a5, ← a3.2] at a8
    simp only [List.cons.injEq, Sum.inr.injEq] at a8
    rw [← a8.1, hp] at e9
    cases e9
  · obtain ⟨n', hn, ht⟩ := init_trace cfg C c creds crBuf L n
    rw [hn]
    rcases ht with ⟨-, t⟩ | ⟨m1, suite, h1, -, ⟨-, t⟩ | ⟨m2', q', st, hq', -, o, -, ⟨-, t⟩ | ⟨-, t | ⟨-, m4, q'', ead4, hq'', a4, t⟩⟩⟩⟩
    · rw [t]; omega
    · rw [t]; omega
    · rw [t]; simp
    · rw [t]; simp
    · exfalso
      rw [hq] at hq'
      simp only [List.cons.injEq] at hq'
      rw [hq''] at hq'
      simp only [List.cons.injEq, Sum.inr.injEq] at hq'
      rw [← hq'.2.1, hp] at a4
      cases a4

/-- C84, responder: an error message (of the registered kinds, complete) in place of message_1 is refused: nothing is sent
and nothing given to `ead_process`. -/
theorem C84_message_1 {cfg : ECfg} {C : ECrypto} {c : RCtx} {creds : List Cred} {cICap L : Nat} {n : Net} {m : Bytes}
    {q : List (Err ⊕ Bytes)} (hq : n.rxq = .inr m :: q) (hm : IsRegistered cfg.strictCbor m) :
    ∃ e n', responderRun cfg C c creds cICap L n = (.err e, n') ∧ n'.sent = n.sent ∧ n'.eads = n.eads ∧ Refusal e := by
  have hc := C44_responder cfg C c creds cICap L n
  have hrx := netRx_head (cap := cfg.msgMaxSize) hq
  by_cases hl : m.length ≤ cfg.msgMaxSize
  case neg =>
    rw [if_neg hl] at hrx
    exact ⟨_, _, hc.1 _ _ hrx, rfl, rfl, .inr rfl⟩
  rw [if_pos hl] at hrx
  have hd : decMsg1 cfg.strictCbor m = none := by
    cases hd : decMsg1 cfg.strictCbor m with
    | none => rfl
    | some p => exact absurd (decMsg1_iff.1 hd) (hm.not_message_1 _ _ _ _ _)
  have hp : msg2Gen cfg C c m cICap (List.replicate cfg.eadSize 0) = .err .unexpected_result_from_ext_lib := by
    unfold msg2Gen msg1Parse
    rw [hd]; rfl
  exact ⟨_, _, (hc.2 _ _ hrx).1 _ hp, rfl, rfl, .inl rfl⟩

/-! ### what is false -/

theorem cborBstr_not_error {s : Bool} {b : Bytes} : ¬ IsError s (cborBstr b) := by
  rintro ⟨code, w, info, hw, he⟩
  have h1 : ∃ x t, cborBstr b = x :: t ∧ 64 ≤ x.toNat := by
    unfold cborBstr cborHead
    split
    · exact ⟨_, _, rfl, by rw [byte_toNat_lt] <;> omega⟩
    · split
      · exact ⟨_, _, rfl, by decide⟩
      · split
        · exact ⟨_, _, rfl, by decide⟩
        · split
          · exact ⟨_, _, rfl, by decide⟩
          · exact ⟨_, _, rfl, by decide⟩
  obtain ⟨x, t, hx, hb⟩ := h1
  have h2 : ∃ m v, m ≤ 1 ∧ IsHead s m v w := by
    unfold Item.int at hw
    split at hw
    · exact ⟨0, _, by omega, hw⟩
    · exact ⟨1, _, by omega, hw⟩
  obtain ⟨m, v, hm, hh⟩ := h2
  have h3 : ∃ y t, w = y :: t ∧ y.toNat < 64 := by
    unfold IsHead at hh
    rcases hh with ⟨hv, rfl⟩ | ⟨ai, k, least, a, hmem, -, -, -, rfl⟩
    · exact ⟨_, _, rfl, by rw [byte_toNat_lt] <;> omega⟩
    · refine ⟨_, _, rfl, ?_⟩
      have : ai ≤ 27 := by
        simp only [widths, List.mem_cons, Prod.mk.injEq, List.not_mem_nil, or_false] at hmem
        rcases hmem with h | h | h | h <;> omega
      rw [byte_toNat_lt] <;> omega
  obtain ⟨y, t', rfl, hy⟩ := h3
  rw [hx] at he
  simp only [List.cons_append, List.cons.injEq] at he
  rw [he.1] at hb
  omega

theorem encodeBstr_not_error {s : Bool} {b m : Bytes} {cap : Nat} (h : encodeBstr b cap = .ok m) : ¬ IsError s m := by
  unfold encodeBstr at h
  rw [(cborOut_ok.1 h).1]
  exact cborBstr_not_error

/-- C84 is false of the code, part 1: the peer is never told.  Whatever happens in a run of the responder, none of the
messages it gives to `tx` is an error message. -/
theorem C84_false_responder (cfg : ECfg) (C : ECrypto) (c : RCtx) (creds : List Cred) (cICap L : Nat) (n : Net) (s : Bool) :
    ∃ l, (responderRun cfg C c creds cICap L n).2.sent = n.sent ++ l ∧ ∀ m ∈ l, ¬ IsError s m := by
  have g2 : ∀ {m1 m2 : Bytes} {rs : RState}, msg2Gen cfg C c m1 cICap (List.replicate cfg.eadSize 0) = .ok (m2, rs) →
      ¬ IsError s m2 := by
    intro m1 m2 rs h
    unfold msg2Gen at h
    obtain ⟨p, -, h⟩ := R.bind_eq_ok.1 h
    split at h
    · cases h
    unfold msg2Build at h
    obtain ⟨suite, -, h⟩ := R.bind_eq_ok.1 h
    dsimp only at h
    obtain ⟨th2, -, h⟩ := R.bind_eq_ok.1 h
    obtain ⟨gxy, -, h⟩ := R.bind_eq_ok.1 h
    obtain ⟨prk3, -, h⟩ := R.bind_eq_ok.1 h
    obtain ⟨⟨c2, p2⟩, -, h⟩ := R.bind_eq_ok.1 h
    obtain ⟨msg, hm, h⟩ := R.bind_eq_ok.1 h
    obtain ⟨th3, -, h⟩ := R.bind_eq_ok.1 h
    simp only [R.pure_eq, R.ok.injEq, Prod.mk.injEq] at h
    rw [← h.1]
    unfold msg2Encode at hm
    obtain ⟨-, -, hm⟩ := R.bind_eq_ok.1 hm
    exact encodeBstr_not_error hm
  obtain ⟨n', hn, ht⟩ := resp_trace cfg C c creds cICap L n
  rw [hn]
  rcases ht with ⟨t, -⟩ | ⟨m1, q, m2, rs, -, a, ⟨t, -⟩ | ⟨t, -⟩ | ⟨m3, q', o, -, -, -, t | ⟨-, m4, b, t⟩⟩⟩
  · exact ⟨[], by rw [t, List.append_nil], by simp⟩
  · exact ⟨[], by rw [t, List.append_nil], by simp⟩
  · exact ⟨[m2], t, by simpa using g2 a⟩
  · exact ⟨[m2], t, by simpa using g2 a⟩
  · refine ⟨[m2, m4], t, ?_⟩
    have : ¬ IsError s m4 := by
      unfold msg4Gen at b
      obtain ⟨⟨c4, p4⟩, -, b⟩ := R.bind_eq_ok.1 b
      exact encodeBstr_not_error b
    simpa using ⟨g2 a, this⟩

/-- C84 is false of the code, part 1, initiator: nothing it gives to `tx` after message_1 is an error message. -/
theorem C84_false_initiator (cfg : ECfg) (C : ECrypto) (c : ICtx) (creds : List Cred) (crBuf : Bytes) (L : Nat) (n : Net) :
    ∃ l, (initiatorRun cfg C c creds crBuf L n).2.sent = n.sent ++ l ∧ ∀ m ∈ l.tail, ¬ IsError cfg.strictCbor m := by
  obtain ⟨n', hn, ht⟩ := init_trace cfg C c creds crBuf L n
  rw [hn]
  rcases ht with ⟨t, -⟩ | ⟨m1, suite, h1, -, ⟨t, -⟩ | ⟨m2, q, st, -, a2, o, a3, ⟨t, -⟩ | ⟨t, -⟩⟩⟩
  · exact ⟨[], by rw [t, List.append_nil], by simp⟩
  · exact ⟨[m1], t, by simp⟩
  · exact ⟨[m1], t, by simp⟩
  · refine ⟨[m1, o.msg], t, ?_⟩
    have h2 : ¬ IsError cfg.strictCbor m2 := by
      unfold msg2Process at a2
      obtain ⟨-, -, a2⟩ := R.bind_eq_ok.1 a2
      obtain ⟨⟨gY, c2⟩, hp, -⟩ := R.bind_eq_ok.1 a2
      intro he
      exact he.not_bstr _ (C63_message_2.1 hp).1
    have h3 : ∀ {m3 p3 : Bytes}, msg3Build cfg C c suite (authType c.method (false, false)).1 st m2.length = .ok (m3, p3) →
        ¬ IsError cfg.strictCbor m3 := by
      intro m3 p3 h
      unfold msg3Build at h
      dsimp only at h
      obtain ⟨-, -, h⟩ := R.bind_eq_ok.1 h
      obtain ⟨-, -, h⟩ := R.bind_eq_ok.1 h
      obtain ⟨sm, -, h⟩ := R.bind_eq_ok.1 h
      obtain ⟨⟨c3, p⟩, -, h⟩ := R.bind_eq_ok.1 h
      obtain ⟨m, hm, h⟩ := R.bind_eq_ok.1 h
      simp only [R.pure_eq, R.ok.injEq, Prod.mk.injEq] at h
      rw [← h.1]
      exact encodeBstr_not_error hm
    have : ¬ IsError cfg.strictCbor o.msg := by
      unfold msg3OnlyGen at a3
      split at a3
      · cases a3
      · simp only [R.ok.injEq] at a3
        rw [← a3]; exact h2
      · rename_i m3 p3 hb
        have := h3 hb
        split at a3
        · cases a3
        · simp only [R.ok.injEq] at a3
          rw [← a3]; exact this
        · split at a3
          · cases a3
          · simp only [R.ok.injEq] at a3
            rw [← a3]; exact this
          · simp only [R.ok.injEq] at a3
            rw [← a3]; exact this
    simpa using this

/-- C84 is false of the code, part 2: when the responder returns `error_message_sent` because it supports no suite, it has
sent nothing. -/
theorem C84_false_sent {cfg : ECfg} {C : ECrypto} {c : RCtx} {creds : List Cred} {cICap L : Nat} {n : Net} {m1 : Bytes}
    {p : Parsed1} {q : List (Err ⊕ Bytes)} (hq : n.rxq = .inr m1 :: q) (hl : m1.length ≤ cfg.msgMaxSize)
    (hp : msg1Parse cfg m1 cICap (List.replicate cfg.eadSize 0) = .ok p) (hs : c.suitesR = []) :
    ∃ n', responderRun cfg C c creds cICap L n = (.err .error_message_sent, n') ∧ n'.sent = n.sent := by
  have hrx := netRx_head (cap := cfg.msgMaxSize) hq
  rw [if_pos hl] at hrx
  have hg : msg2Gen cfg C c m1 cICap (List.replicate cfg.eadSize 0) = .err .error_message_sent := by
    unfold msg2Gen
    rw [hp, R.ok_bind, hs]; rfl
  exact ⟨_, ((C44_responder cfg C c creds cICap L n).2 _ _ hrx).1 _ hg, rfl⟩

/-- C84 is false of the code, part 3: `error_message_received` is never returned for an error message
(`C84_message_1` to `C84_message_3` list the codes); it is what the responder returns for a message_3 that is a byte string
shorter than the tag, which is no error message. -/
theorem C84_false_received {cfg : ECfg} {C : ECrypto} {c : RCtx} {creds : List Cred} {rs : RState} {m v : Bytes} {L : Nat}
    {k : Bytes × Bytes} {aad : Bytes} (hv : OneBstr cfg.strictCbor v m) (hl : v.length < rs.suite.aead.tagLen)
    (h1 : m.length ≤ cfg.ciphertext3Size) (hk : keyGen cfg C .c3 rs.prk3e2m rs.th3 v.length = .ok k)
    (ha : assocData rs.th3 = .ok aad) :
    msg3Process cfg C c creds rs m L = .err .error_message_received ∧ ¬ IsError cfg.strictCbor m := by
  refine ⟨?_, fun h => h.not_bstr v hv⟩
  have hm : v.length ≤ m.length := by
    obtain ⟨x, t, hx, rfl⟩ := hv
    simp only [IsItem] at hx
    obtain ⟨g, -, rfl⟩ := hx
    simp only [List.length_append]; omega
  unfold msg3Process checkBufferSize
  rw [if_neg (by omega), R.ok_bind, decodeBstr_iff.2 ⟨hv, hm⟩, R.ok_bind, if_neg (by omega), R.ok_bind]
  unfold ctxtDecrypt
  obtain ⟨key, iv⟩ := k
  rw [hk, R.ok_bind]
  dsimp only
  rw [ha, R.ok_bind]
  rw [if_neg (by simp), if_pos hl]
  rfl

/-! ### examples -/

/-- the error message "wrong selected cipher suite", supported: 2 and 3 -/
def exWrongSuite : Bytes := [0x02, 0x82, 0x02, 0x03]
/-- the error message "unspecified error", "no" -/
def exUnspecified : Bytes := [0x01, 0x62, 0x6e, 0x6f]

/-- these are error messages -/
theorem ex_errors : IsRegistered false exWrongSuite ∧ IsRegistered false exUnspecified ∧ IsRegistered false [0x03, 0xf5] := by
  have i : ∀ k : Nat, k < 24 → IsItem false (.int k) [byte k] := by
    intro k hk
    have : Item.int (k : Int) = .uint k := by unfold Item.int; simp
    rw [this]
    exact .inl ⟨hk, by simp⟩
  refine ⟨?_, ?_, ?_⟩
  · refine IsRegistered.wrongSuite (w := [0x02]) (x := [0x82, 0x02, 0x03]) (.inl [2, 3]) (i 2 (by omega)) ?_
    exact ⟨[0x82], [0x02, 0x03], .inl ⟨by simp, rfl⟩, ⟨[0x02], [0x03], i 2 (by omega), ⟨[0x03], [], i 3 (by omega), rfl, rfl⟩, rfl⟩, rfl⟩
  · exact IsRegistered.unspecified (w := [0x01]) (x := [0x62, 0x6e, 0x6f]) (v := [0x6e, 0x6f]) (i 1 (by omega))
      ⟨[0x62], .inl ⟨by simp, rfl⟩, rfl⟩
  · exact IsRegistered.unknownCred (w := [0x03]) (i 3 (by omega))

/-- runs in which the peer answers with an error message -/
example : (initiatorRun {} toyE (toyI 0) toyCredsR (List.replicate 8 0) 32 (netOf [exWrongSuite])).1 = .err .buffer_to_small ∧
    (initiatorRun {} toyE (toyI 0) toyCredsR (List.replicate 8 0) 32 (netOf [exWrongSuite])).2.sent.length = 1 ∧
    (responderRun {} toyE toyR toyCredsI 10 32 (netOf [exUnspecified])).1 = .err .unexpected_result_from_ext_lib := by
  decide +kernel

/-- a responder that supports no suite -/
example : (responderRun {} toyE { toyR with suitesR := [] } toyCredsI 10 32
    (netOf [((msg1Gen {} toyE (toyI 0)).getD ⟨[], ⟨0, .ccm64, 8, .x25519, .eddsa, .ccm64⟩, []⟩).1])).1 =
      .err .error_message_sent := by decide +kernel

/-- `error_message_received` for a message_3 of one byte -/
example : (responderRun {} toyE toyR toyCredsI 10 32
    (netOf [((msg1Gen {} toyE (toyI 0)).getD ⟨[], ⟨0, .ccm64, 8, .x25519, .eddsa, .ccm64⟩, []⟩).1, [0x41, 0x00]])).1 =
      .err .error_message_received := by decide +kernel

/-- an error message in place of message_3 -/
example : (responderRun {} toyE toyR toyCredsI 10 32
    (netOf [((msg1Gen {} toyE (toyI 0)).getD ⟨[], ⟨0, .ccm64, 8, .x25519, .eddsa, .ccm64⟩, []⟩).1, exUnspecified])).1 =
      .err .unexpected_result_from_ext_lib := by decide +kernel

end Verif.Edhoc
