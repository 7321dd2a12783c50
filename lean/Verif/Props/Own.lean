import Verif.Model.CtxMem
import Verif.Props.Nvm
import Verif.Props.Send
import Verif.Props.OscoreKeys
/-
C78 (a context does not depend on the memory of its parameters), C79 (contexts do not disturb each
other): the `struct context` objects of one program.
-/
namespace Verif.Own

/-! ## Memory -/

@[simp] theorem Mem.set_same (m : Mem) (o : Obj) (b : Bytes) : m.set o b o = b := by simp [Mem.set]
theorem Mem.set_other (m : Mem) {o x : Obj} (b : Bytes) (h : x ≠ o) : m.set o b x = m x := by
  simp [Mem.set, h]
theorem Mem.put_other (m : Mem) {o x : Obj} (b : Bytes) (h : x ≠ o) : m.put o b x = m x :=
  Mem.set_other m _ h
theorem Mem.put_read (m : Mem) (o : Obj) (b : Bytes) : Ref.read (m.put o b) ⟨o, b.length⟩ = b := by
  simp [Ref.read, Mem.put]
theorem read_congr {m m' : Mem} {r : Ref} (h : m' r.obj = m r.obj) : r.read m' = r.read m := by
  simp [Ref.read, h]

/-! ## Specification -/

/-- The references of a context initialised by `oscore_context_init`: keys, Common IV, recipient ID,
nonce and Echo value lie inside the object itself, the sender ID and the ID Context in the caller's
memory. -/
structure Owned (k : Nat) (o : CtxObj) : Prop where
  commonIv : o.commonIv.obj = .inside k .commonIv
  senderKey : o.senderKey.obj = .inside k .senderKey
  recipientKey : o.recipientKey.obj = .inside k .recipientKey
  recipientId : o.recipientId.obj = .inside k .recipientId
  nonce : o.nonce.obj = .inside k .nonce
  echoVal : o.echoVal.obj = .inside k .echo
  senderId : ∃ a, o.senderId.obj = .caller a
  idContext : ∃ b, o.idContext.obj = .caller b

/-- every initialised context of the program is `Owned` -/
def Good (s : Prog) : Prop := ∀ k o, s.ctx k = some o → Owned k o

/-- the byte strings of the parameters lie in the caller's memory -/
def ParamRefs.Callers (p : ParamRefs) : Prop :=
  (∃ a, p.masterSecret.obj = .caller a) ∧ (∃ a, p.masterSalt.obj = .caller a) ∧
  (∃ a, p.senderId.obj = .caller a) ∧ (∃ a, p.recipientId.obj = .caller a) ∧
  (∃ a, p.idContext.obj = .caller a)

/-- the program passes its own buffers as parameters and does not copy a `struct context` -/
def Ev.Plain : Ev → Prop
  | .init _ p _ => p.Callers
  | .copy _ _ => False
  | _ => True

/-- the event leaves alone: context `k` (it is not initialised again) and the caller's objects its
sender ID and ID Context lie in -/
def Ev.Spares (k : Nat) (o : CtxObj) : Ev → Prop
  | .init j _ _ => j ≠ k
  | .write n _ => o.senderId.obj ≠ .caller n ∧ o.idContext.obj ≠ .caller n
  | _ => True

/-- sender ID, recipient ID and ID Context are the same -/
def SameIds (c c' : Ctx) : Prop :=
  c.senderId = c'.senderId ∧ c.recipientId = c'.recipientId ∧ c.idContext = c'.idContext

/-- at this moment a call on another context cannot touch the storage cell of context `k`: it is
fresh, or its identifiers differ -/
def Ev.Apart (s : Prog) (k : Nat) : Ev → Prop
  | .call j _ => j = k ∨ ∀ o oj, s.ctx k = some o → s.ctx j = some oj →
      oj.fresh = true ∨ ¬SameIds (view oj s.mem) (view o s.mem)
  | _ => True

/-- the calls of a history made with context `k` -/
def callsOf (k : Nat) : List Ev → List Op
  | [] => []
  | .call j op :: h => if j = k then op :: callsOf k h else callsOf k h
  | _ :: h => callsOf k h

/-- the results of a history of calls on one context that is alone in the world -/
def alone (cfg : Cfg) (C : Crypto) : World → List Op → List (R Bytes)
  | _, [] => []
  | w, op :: h => (Verif.step cfg C w op).1 :: alone cfg C (Verif.step cfg C w op).2 h

/-! ## Initialisation -/

theorem read_put_inside {m : Mem} {r : Ref} {k : Nat} {b : Buf} {v : Bytes}
    (h : ∃ a, r.obj = .caller a) : r.read (m.put (.inside k b) v) = r.read m := by
  obtain ⟨a, ha⟩ := h
  exact read_congr (Mem.put_other _ _ (by rw [ha]; simp))

theorem vals_put_inside {m : Mem} {p : ParamRefs} {k : Nat} {b : Buf} {v : Bytes} (h : p.Callers) :
    p.vals (m.put (.inside k b) v) = p.vals m := by
  obtain ⟨h1, h2, h3, h4, h5⟩ := h
  simp only [ParamRefs.vals, read_put_inside h1, read_put_inside h2, read_put_inside h3,
    read_put_inside h4, read_put_inside h5]


theorem derive_len {cfg : Cfg} {C : Crypto} (hC : C.Lawful) (hinfo : 50 ≤ cfg.infoMax) {p : InitParams}
    {id x : Bytes} {ty : DeriveType} (h : derive cfg C p id ty = .ok x) : x.length = deriveLen ty := by
  rw [derive_ok hC hinfo h]
  exact C37_length hC _ _ _

/-- what `oscore_context_init` does to the object, next to the value-level function: same error, or an
object whose references are its own buffers and the caller's, and denote the values -/
theorem initObj_spec {cfg : Cfg} {C : Crypto} (hC : C.Lawful) (hinfo : 50 ≤ cfg.infoMax) (m : Mem) (k : Nat)
    (p : ParamRefs) (rd : NvmKey → R Nat) (hp : p.Callers)
    (hlen : (p.recipientId.read m).length = p.recipientId.len) :
    (∀ x, (∀ b, x ≠ .inside k b) → (initObj cfg C k p rd m).2 x = m x) ∧
    match contextInit cfg C (p.vals m)
        (rd ((p.vals m).senderId, (p.vals m).recipientId, (p.vals m).idContext))
        ((m (.inside k .nonce)).take 13) ((m (.inside k .echo)).take 12) with
    | .ok c => ∃ o, (initObj cfg C k p rd m).1 = .ok o ∧ view o (initObj cfg C k p rd m).2 = c ∧ Owned k o ∧
        o.senderId = p.senderId ∧ o.idContext = p.idContext
    | .err e => (initObj cfg C k p rd m).1 = .err e
    | .ub => (initObj cfg C k p rd m).1 = .ub := by
  have hS := hp.2.2.1
  have hR := hp.2.2.2.1
  have hI := hp.2.2.2.2
  unfold contextInit initObj
  have e1 : (p.vals m).aeadAlg = p.aeadAlg := rfl
  have e2 : (p.vals m).hkdf = p.hkdf := rfl
  rw [e1, e2]
  by_cases h1 : p.aeadAlg ≠ 10
  · rw [if_pos h1, if_pos h1]; exact ⟨fun _ _ => rfl, rfl⟩
  rw [if_neg h1, if_neg h1]
  by_cases h2 : p.hkdf ≠ -10
  · rw [if_pos h2, if_pos h2]; exact ⟨fun _ _ => rfl, rfl⟩
  rw [if_neg h2, if_neg h2]
  simp only [M.bind_get]
  cases hiv : derive cfg C (p.vals m) [] .iv with
  | err e => exact ⟨fun _ _ => rfl, rfl⟩
  | ub => exact ⟨fun _ _ => rfl, rfl⟩
  | ok iv =>
  simp only [M.bind_lift_ok, M.bind_modify, M.bind_get, R.ok_bind]
  have e3 : (p.vals m).recipientId = p.recipientId.read m := rfl
  rw [e3, hlen]
  by_cases h3 : p.recipientId.len > 8
  · rw [if_pos h3, if_pos h3]
    exact ⟨fun x hx => Mem.put_other _ _ (hx _), rfl⟩
  rw [if_neg h3, if_neg h3]
  simp only [M.bind_modify, M.bind_get]
  simp only [vals_put_inside hp, read_put_inside hR]
  rw [← hlen]
  simp only [Mem.put_read]
  have o1 : ∀ x, (∀ b, x ≠ .inside k b) → ((m.put (.inside k .commonIv) iv).put (.inside k .recipientId)
      (p.recipientId.read m)) x = m x := fun x hx => by
    rw [Mem.put_other _ _ (hx _), Mem.put_other _ _ (hx _)]
  cases hrk : derive cfg C (p.vals m) (p.recipientId.read m) .key with
  | err e => exact ⟨o1, rfl⟩
  | ub => exact ⟨o1, rfl⟩
  | ok rk =>
  simp only [M.bind_lift_ok, M.bind_modify, M.bind_get, R.ok_bind]
  simp only [vals_put_inside hp, read_put_inside hS, read_put_inside hI]
  have e4 : ∀ v, Ref.read (((m.put (.inside k .commonIv) iv).put (.inside k .recipientId)
      (p.recipientId.read m)).put (.inside k .recipientKey) v)
      ⟨.inside k .recipientId, (p.recipientId.read m).length⟩ = p.recipientId.read m := fun v => by
    rw [read_congr (Mem.put_other _ _ (by simp)), Mem.put_read]
  rw [e4]
  have o2 : ∀ x, (∀ b, x ≠ .inside k b) → (((m.put (.inside k .commonIv) iv).put (.inside k .recipientId)
      (p.recipientId.read m)).put (.inside k .recipientKey) rk) x = m x := fun x hx => by
    rw [Mem.put_other _ _ (hx _), o1 x hx]
  have e5 : (p.vals m).senderId = p.senderId.read m := rfl
  have e6 : (p.vals m).idContext = p.idContext.read m := rfl
  have e7 : (p.vals m).fresh = p.fresh := rfl
  rw [e5, e6, e7]
  cases hssn : ssnInit cfg (rd (p.senderId.read m, p.recipientId.read m, p.idContext.read m)) p.fresh with
  | err e => exact ⟨o2, rfl⟩
  | ub => exact ⟨o2, rfl⟩
  | ok ssn =>
  simp only [M.bind_lift_ok, R.ok_bind]
  cases hsk : derive cfg C (p.vals m) (p.senderId.read m) .key with
  | err e => exact ⟨o2, rfl⟩
  | ub => exact ⟨o2, rfl⟩
  | ok sk =>
  simp only [M.bind_lift_ok, M.bind_modify, R.ok_bind]
  refine ⟨fun x hx => ?_, _, rfl, ?_, ?_, rfl, rfl⟩
  · show Mem.put _ _ _ x = _
    rw [Mem.put_other _ _ (hx _), o2 x hx]
  · have l1 := derive_len hC hinfo hiv
    have l2 := derive_len hC hinfo hrk
    have l3 := derive_len hC hinfo hsk
    simp only [deriveLen] at l1 l2 l3
    simp only [view, M.run_pure, read_put_inside hS, read_put_inside hI, Ctx.mk.injEq, true_and, and_true]
    refine ⟨?_, ?_, ?_, ?_, ?_, ?_⟩
    · rw [read_congr (Mem.put_other _ _ (by simp)), read_congr (Mem.put_other _ _ (by simp)),
        read_congr (Mem.put_other _ _ (by simp)), ← l1, Mem.put_read]
    · rw [← l3, Mem.put_read]
    · rw [read_congr (Mem.put_other _ _ (by simp)), e4]
    · rw [read_congr (Mem.put_other _ _ (by simp)), ← l2, Mem.put_read]
    · simp [Ref.read, Mem.put, Mem.set]
    · simp [Ref.read, Mem.put, Mem.set]
  · exact ⟨rfl, rfl, rfl, rfl, rfl, rfl, hS, hI⟩


/-! ## One event -/

theorem Prog.run_cons (cfg : Cfg) (C : Crypto) (s : Prog) (e : Ev) (h : List Ev) :
    s.run cfg C (e :: h) = (s.step cfg C e).2.run cfg C h := rfl

/-- what `.init` does to the program -/
theorem step_init {cfg : Cfg} {C : Crypto} (s : Prog) (k : Nat) (p : ParamRefs) (nvmR : Option Err) :
    ((s.step cfg C (.init k p nvmR)).2.mem = (initObj cfg C k p (readNvm s nvmR) s.mem).2) ∧
    ((s.step cfg C (.init k p nvmR)).2.nvm = s.nvm) ∧ ((s.step cfg C (.init k p nvmR)).2.log = s.log) ∧
    (∀ j, j ≠ k → (s.step cfg C (.init k p nvmR)).2.ctx j = s.ctx j) ∧
    (∀ o, (s.step cfg C (.init k p nvmR)).2.ctx k = some o ↔
      (initObj cfg C k p (readNvm s nvmR) s.mem).1 = .ok o) ∧
    (s.step cfg C (.init k p nvmR)).1 =
      (match (initObj cfg C k p (readNvm s nvmR) s.mem).1 with
        | .ok _ => .ok [] | .err e => .err e | .ub => .ub) := by
  unfold Prog.step
  dsimp only
  rcases initObj cfg C k p (readNvm s nvmR) s.mem with ⟨r, m⟩
  cases r with
  | ok o => simp +contextual [upd, eq_comm]
  | err e => simp +contextual [upd]
  | ub => simp +contextual [upd]

theorem step_call_none {cfg : Cfg} {C : Crypto} {s : Prog} {k : Nat} (op : Op) (hk : s.ctx k = none) :
    s.step cfg C (.call k op) = (.ub, s) := by simp only [Prog.step, hk]

theorem step_call_some {cfg : Cfg} {C : Crypto} {s : Prog} {k : Nat} {o : CtxObj} (op : Op)
    (hk : s.ctx k = some o) :
    s.step cfg C (.call k op) = ((Verif.step cfg C (s.world k o) op).1,
      { mem := storeMem s.mem o (Verif.step cfg C (s.world k o) op).2.ctx
        ctx := upd s.ctx k (some (storeObj o (Verif.step cfg C (s.world k o) op).2.ctx))
        nvm := upd s.nvm (nvmKeyOf (s.world k o).ctx) (Verif.step cfg C (s.world k o) op).2.nvm
        log := upd s.log k (Verif.step cfg C (s.world k o) op).2.log }) := by simp only [Prog.step, hk]

theorem put_read_other {m : Mem} {r : Ref} {o : Obj} {b : Bytes} (h : r.obj ≠ o) : r.read (m.put o b) = r.read m :=
  read_congr (Mem.put_other _ _ h)

/-- the view of an owned object depends only on its own buffers and its two caller objects -/
theorem view_congr {k : Nat} {o : CtxObj} {m m' : Mem} (ho : Owned k o)
    (hin : ∀ b, m' (.inside k b) = m (.inside k b)) (hs : m' o.senderId.obj = m o.senderId.obj)
    (hi : m' o.idContext.obj = m o.idContext.obj) : view o m' = view o m := by
  unfold view
  rw [read_congr (r := o.idContext) hi, read_congr (r := o.senderId) hs,
    read_congr (m' := m') (m := m) (r := o.commonIv) (by rw [ho.commonIv, hin]),
    read_congr (m' := m') (m := m) (r := o.senderKey) (by rw [ho.senderKey, hin]),
    read_congr (m' := m') (m := m) (r := o.recipientId) (by rw [ho.recipientId, hin]),
    read_congr (m' := m') (m := m) (r := o.recipientKey) (by rw [ho.recipientKey, hin]),
    read_congr (m' := m') (m := m) (r := o.nonce) (by rw [ho.nonce, hin]),
    read_congr (m' := m') (m := m) (r := o.echoVal) (by rw [ho.echoVal, hin])]

/-- after the results of a call were stored, the object denotes exactly the new context -/
theorem view_store {k : Nat} {o : CtxObj} {m : Mem} {c : Ctx} (ho : Owned k o) (hc : SameIdentity (view o m) c) :
    view (storeObj o c) (storeMem m o c) = c := by
  obtain ⟨a, ha⟩ := ho.senderId
  obtain ⟨b, hb⟩ := ho.idContext
  cases c
  obtain ⟨h1, h2, h3, h4, h5, h6, h7⟩ := hc
  simp only [view] at h1 h2 h3 h4 h5 h6 h7
  subst h1 h2 h3 h4 h5 h6 h7
  simp only [view, storeObj, storeMem, Ctx.mk.injEq, true_and, and_true]
  have hn := ho.nonce
  have he := ho.echoVal
  refine ⟨?_, ?_, ?_, ?_, ?_, ?_, ?_, ?_⟩
  · rw [put_read_other (by rw [he, hb]; simp), put_read_other (by rw [hn, hb]; simp)]
  · rw [put_read_other (by rw [he, ho.commonIv]; simp), put_read_other (by rw [hn, ho.commonIv]; simp)]
  · rw [put_read_other (by rw [he, ha]; simp), put_read_other (by rw [hn, ha]; simp)]
  · rw [put_read_other (by rw [he, ho.senderKey]; simp), put_read_other (by rw [hn, ho.senderKey]; simp)]
  · rw [put_read_other (by rw [he, ho.recipientId]; simp), put_read_other (by rw [hn, ho.recipientId]; simp)]
  · rw [put_read_other (by rw [he, ho.recipientKey]; simp), put_read_other (by rw [hn, ho.recipientKey]; simp)]
  · rw [put_read_other (by simp [he, hn]), Mem.put_read]
  · rw [Mem.put_read]

theorem owned_store {k : Nat} {o : CtxObj} {c : Ctx} (ho : Owned k o) : Owned k (storeObj o c) :=
  ⟨ho.commonIv, ho.senderKey, ho.recipientKey, ho.recipientId, ho.nonce, ho.echoVal, ho.senderId, ho.idContext⟩

theorem storeMem_other {j : Nat} {oj : CtxObj} {m : Mem} {c : Ctx} (hj : Owned j oj) {x : Obj}
    (hx : ∀ b, x ≠ .inside j b) : storeMem m oj c x = m x := by
  unfold storeMem
  rw [Mem.put_other _ _ (by rw [hj.echoVal]; exact hx _), Mem.put_other _ _ (by rw [hj.nonce]; exact hx _)]

theorem initObj_other {cfg : Cfg} {C : Crypto} (k : Nat) (p : ParamRefs) (rd : NvmKey → R Nat) (m : Mem) (x : Obj)
    (hx : ∀ b, x ≠ .inside k b) : (initObj cfg C k p rd m).2 x = m x := by
  unfold initObj
  split
  · rfl
  split
  · rfl
  simp only [M.bind_get]
  cases derive cfg C (p.vals m) [] .iv with
  | err e => rfl
  | ub => rfl
  | ok iv =>
  simp only [M.bind_lift_ok, M.bind_modify, M.bind_get]
  split
  · exact Mem.put_other _ _ (hx _)
  simp only [M.bind_modify, M.bind_get]
  have o1 : ((m.put (.inside k .commonIv) iv).put (.inside k .recipientId)
      (p.recipientId.read (m.put (.inside k .commonIv) iv))) x = m x := by
    rw [Mem.put_other _ _ (hx _), Mem.put_other _ _ (hx _)]
  generalize ((m.put (.inside k .commonIv) iv).put (.inside k .recipientId)
      (p.recipientId.read (m.put (.inside k .commonIv) iv))) = m1 at o1 ⊢
  cases derive cfg C (p.vals m1) (Ref.read m1 ⟨.inside k .recipientId, p.recipientId.len⟩) .key with
  | err e => exact o1
  | ub => exact o1
  | ok rk =>
  simp only [M.bind_lift_ok, M.bind_modify, M.bind_get]
  have o2 : (m1.put (.inside k .recipientKey) rk) x = m x := by
    rw [Mem.put_other _ _ (hx _), o1]
  generalize (m1.put (.inside k .recipientKey) rk) = m2 at o2 ⊢
  cases ssnInit cfg (rd (p.senderId.read m2, Ref.read m2 ⟨.inside k .recipientId, p.recipientId.len⟩,
      p.idContext.read m2)) p.fresh with
  | err e => exact o2
  | ub => exact o2
  | ok ssn =>
  simp only [M.bind_lift_ok]
  cases derive cfg C (p.vals m2) (p.senderId.read m2) .key with
  | err e => exact o2
  | ub => exact o2
  | ok sk =>
  simp only [M.bind_lift_ok, M.bind_modify]
  show Mem.put _ _ _ x = _
  rw [Mem.put_other _ _ (hx _), o2]

theorem initObj_owned {cfg : Cfg} {C : Crypto} {k : Nat} {p : ParamRefs} {rd : NvmKey → R Nat} {m : Mem}
    {o : CtxObj} (hp : p.Callers) (h : (initObj cfg C k p rd m).1 = .ok o) :
    Owned k o ∧ o.senderId = p.senderId ∧ o.idContext = p.idContext := by
  have h' : initObj cfg C k p rd m = (.ok o, (initObj cfg C k p rd m).2) := Prod.ext h rfl
  unfold initObj at h'
  split at h'
  · cases h'
  split at h'
  · cases h'
  obtain ⟨_, _, _, h'⟩ := M.bind_eq_ok.1 h'
  obtain ⟨_, _, _, h'⟩ := M.bind_eq_ok.1 h'
  obtain ⟨_, _, _, h'⟩ := M.bind_eq_ok.1 h'
  obtain ⟨_, _, _, h'⟩ := M.bind_eq_ok.1 h'
  split at h'
  · cases h'
  obtain ⟨_, _, _, h'⟩ := M.bind_eq_ok.1 h'
  obtain ⟨_, _, _, h'⟩ := M.bind_eq_ok.1 h'
  obtain ⟨_, _, _, h'⟩ := M.bind_eq_ok.1 h'
  obtain ⟨_, _, _, h'⟩ := M.bind_eq_ok.1 h'
  obtain ⟨_, _, _, h'⟩ := M.bind_eq_ok.1 h'
  obtain ⟨_, _, _, h'⟩ := M.bind_eq_ok.1 h'
  obtain ⟨_, _, _, h'⟩ := M.bind_eq_ok.1 h'
  obtain ⟨_, _, _, h'⟩ := M.bind_eq_ok.1 h'
  simp only [M.run_pure, Prod.mk.injEq, R.ok.injEq] at h'
  obtain ⟨rfl, _⟩ := h'
  exact ⟨⟨rfl, rfl, rfl, rfl, rfl, rfl, hp.2.2.1, hp.2.2.2.2⟩, rfl, rfl⟩

theorem good_step {cfg : Cfg} {C : Crypto} {s : Prog} {e : Ev} (hs : Good s) (he : e.Plain) :
    Good (s.step cfg C e).2 := by
  intro j oj hj
  cases e with
  | init k p nvmR =>
    obtain ⟨_, _, _, h4, h5, _⟩ := step_init (cfg := cfg) (C := C) s k p nvmR
    by_cases hk : j = k
    · subst hk
      exact (initObj_owned he ((h5 oj).1 hj)).1
    · rw [h4 j hk] at hj; exact hs j oj hj
  | write n b => exact hs j oj hj
  | copy a b => exact he.elim
  | call k op =>
    cases hk : s.ctx k with
    | none => rw [step_call_none op hk] at hj; exact hs j oj hj
    | some o =>
      rw [step_call_some op hk] at hj
      simp only [upd] at hj
      split at hj
      · rename_i hjk
        subst hjk
        cases hj
        exact owned_store (hs _ _ hk)
      · exact hs j oj hj

/-- a call on another context, a write elsewhere, another initialisation: the world of `k` stays -/
theorem step_other {cfg : Cfg} {C : Crypto} {s : Prog} {k : Nat} {o : CtxObj} {e : Ev} (hs : Good s)
    (hk : s.ctx k = some o) (he : e.Plain) (hsp : e.Spares k o) (hap : e.Apart s k)
    (hne : ∀ op, e ≠ .call k op) :
    (s.step cfg C e).2.ctx k = some o ∧ (s.step cfg C e).2.world k o = s.world k o := by
  have ho := hs k o hk
  obtain ⟨a, ha⟩ := ho.senderId
  obtain ⟨b, hb⟩ := ho.idContext
  cases e with
  | init j p nvmR =>
    have hj : j ≠ k := hsp
    obtain ⟨h1, h2, h3, h4, _, _⟩ := step_init (cfg := cfg) (C := C) s j p nvmR
    refine ⟨by rw [h4 k (Ne.symm hj)]; exact hk, ?_⟩
    unfold Prog.world
    rw [h1, h2, h3, view_congr ho (fun b => initObj_other _ _ _ _ _ (by simp [Ne.symm hj]))
      (initObj_other _ _ _ _ _ (by simp [ha])) (initObj_other _ _ _ _ _ (by simp [hb]))]
  | write n v =>
    refine ⟨hk, ?_⟩
    unfold Prog.world
    simp only [Prog.step]
    rw [view_congr (m := s.mem) ho (fun b => Mem.set_other _ _ (by simp)) (Mem.set_other _ _ hsp.1)
      (Mem.set_other _ _ hsp.2)]
  | copy x y => exact he.elim
  | call j op =>
    have hj : j ≠ k := fun h => hne op (by rw [h])
    cases hoj : s.ctx j with
    | none => rw [step_call_none op hoj]; exact ⟨hk, rfl⟩
    | some oj =>
      have howj := hs j oj hoj
      rw [step_call_some op hoj]
      refine ⟨by simp [upd, Ne.symm hj, hk], ?_⟩
      have hv : view o (storeMem s.mem oj (Verif.step cfg C (s.world j oj) op).2.ctx) = view o s.mem :=
        view_congr ho (fun b => storeMem_other howj (by simp [Ne.symm hj])) (storeMem_other howj (by simp [ha]))
          (storeMem_other howj (by simp [hb]))
      unfold Prog.world at hv ⊢
      simp only [hv, World.mk.injEq, true_and]
      refine ⟨?_, by simp [upd, Ne.symm hj]⟩
      simp only [upd]
      split
      · rename_i heq
        rcases hap.resolve_left hj o oj hk hoj with hf | hd
        · have := C34_fresh_never_writes cfg C (s.world j oj) [op] hf
          rw [Verif.run_cons, Verif.run_nil] at this
          unfold Prog.world at this
          rw [this, heq]
        · refine absurd ?_ hd
          simp only [nvmKeyOf, Prod.mk.injEq] at heq
          exact ⟨heq.1.symm, heq.2.1.symm, heq.2.2.symm⟩
      · rfl

/-- a call on `k` itself -/
theorem step_own {cfg : Cfg} {C : Crypto} {s : Prog} {k : Nat} {o : CtxObj} (op : Op) (hs : Good s)
    (hk : s.ctx k = some o) :
    (s.step cfg C (.call k op)).1 = (Verif.step cfg C (s.world k o) op).1 ∧
    ∃ o', (s.step cfg C (.call k op)).2.ctx k = some o' ∧ o'.senderId = o.senderId ∧ o'.idContext = o.idContext ∧
      (s.step cfg C (.call k op)).2.world k o' = (Verif.step cfg C (s.world k o) op).2 := by
  have ho := hs k o hk
  have hid := step_identity cfg C (s.world k o) op
  rw [step_call_some op hk]
  refine ⟨rfl, storeObj o (Verif.step cfg C (s.world k o) op).2.ctx, by simp [upd], rfl, rfl, ?_⟩
  have hv := view_store (m := s.mem) ho (c := (Verif.step cfg C (s.world k o) op).2.ctx) hid
  simp only [Prog.world] at *
  simp only [hv]
  have hkey : nvmKeyOf (Verif.step cfg C ⟨view o s.mem, s.nvm (nvmKeyOf (view o s.mem)), s.log k⟩ op).2.ctx =
      nvmKeyOf (view o s.mem) := by
    have hgen : ∀ c c' : Ctx, SameIdentity c c' → nvmKeyOf c' = nvmKeyOf c := fun c c' h => by
      unfold nvmKeyOf; rw [h.senderId, h.recipientId, h.idContext]
    exact hgen _ _ hid
  rw [hkey]
  simp [upd]

/-- **C79** Any number of contexts in one program, each initialised in its own `struct context` and never copied.
Whatever the program does in between (initialise other contexts, call `coap2oscore`/`oscore2coap` on them with any
packet, overwrite any of its own objects except those that hold the sender ID and the ID Context of `k`), the
calls on `k` return exactly what they would return if `k` were alone, and leave `k`, its stored sequence number and
its encryptions as if it were alone, as long as no other non-fresh context with the same identifiers is used. -/
theorem C79_contexts {cfg : Cfg} {C : Crypto} {s : Prog} {k : Nat} {o : CtxObj} (hs : Good s) (hk : s.ctx k = some o)
    (h : List Ev) (hp : ∀ e ∈ h, e.Plain ∧ e.Spares k o)
    (ha : ∀ pre e post, h = pre ++ e :: post → e.Apart (s.run cfg C pre) k) :
    s.results cfg C k h = alone cfg C (s.world k o) (callsOf k h) ∧
    Good (s.run cfg C h) ∧
    ∃ o', (s.run cfg C h).ctx k = some o' ∧ o'.senderId = o.senderId ∧ o'.idContext = o.idContext ∧
      (s.run cfg C h).world k o' = Verif.run cfg C (s.world k o) (callsOf k h) := by
  induction h generalizing s o with
  | nil => exact ⟨rfl, hs, o, hk, rfl, rfl, rfl⟩
  | cons e h ih =>
    obtain ⟨hpe, hse⟩ := hp e (by simp)
    have hg := good_step (cfg := cfg) (C := C) hs hpe
    have ha' : ∀ pre e' post, h = pre ++ e' :: post → e'.Apart ((s.step cfg C e).2.run cfg C pre) k :=
      fun pre e' post hh => ha (e :: pre) e' post (by rw [hh]; rfl)
    by_cases hc : ∃ op, e = .call k op
    · obtain ⟨op, rfl⟩ := hc
      obtain ⟨h1, o', h2, h3, h4, h5⟩ := step_own (cfg := cfg) (C := C) op hs hk
      have hp' : ∀ e ∈ h, e.Plain ∧ e.Spares k o' := fun e he => by
        obtain ⟨q1, q2⟩ := hp e (List.mem_cons_of_mem _ he)
        refine ⟨q1, ?_⟩
        cases e with
        | write n b => unfold Ev.Spares; rw [h3, h4]; exact q2
        | init j p n => exact q2
        | call j op => trivial
        | copy a b => trivial
      obtain ⟨i1, i2, o'', i3, i4, i5, i6⟩ := ih hg h2 hp' ha'
      refine ⟨?_, i2, o'', i3, i4.trans h3, i5.trans h4, ?_⟩
      · simp only [Prog.results, callsOf, if_true, alone, i1, h1, h5, List.singleton_append]
      · rw [Prog.run_cons, i6, h5]; simp only [callsOf, if_true, Verif.run_cons]
    · have hne : ∀ op, e ≠ .call k op := fun op he => hc ⟨op, he⟩
      obtain ⟨h1, h2⟩ := step_other (cfg := cfg) (C := C) hs hk hpe hse (ha [] e h rfl) hne
      obtain ⟨i1, i2, o'', i3, i4, i5, i6⟩ :=
        ih hg h1 (fun e he => hp e (List.mem_cons_of_mem _ he)) ha'
      have hcalls : callsOf k (e :: h) = callsOf k h := by
        cases e with
        | call j op =>
          have : j ≠ k := fun hj => hne op (by rw [hj])
          simp only [callsOf, if_neg this]
        | init j p n => rfl
        | write n b => rfl
        | copy a b => rfl
      refine ⟨?_, i2, o'', i3, i4, i5, ?_⟩
      · rw [hcalls, ← h2, ← i1]
        cases e with
        | call j op =>
          have : j ≠ k := fun hj => hne op (by rw [hj])
          simp only [Prog.results, if_neg this, List.nil_append]
        | init j p n => rfl
        | write n b => rfl
        | copy a b => rfl
      · rw [Prog.run_cons, i6, h2, hcalls]


/-- **C79** (what it means for the nonces) Whatever is done with the other contexts, no two messages protected with
`k` under an own Partial IV have the same nonce. -/
theorem C79_nonces {cfg : Cfg} {C : Crypto} {s : Prog} {k : Nat} {o : CtxObj} (hs : Good s) (hk : s.ctx k = some o)
    (hl : s.log k = []) (h : List Ev) (hp : ∀ e ∈ h, e.Plain ∧ e.Spares k o)
    (ha : ∀ pre e post, h = pre ++ e :: post → e.Apart (s.run cfg C pre) k) :
    (((s.run cfg C h).log k).filter (fun e => e.newSsn.isSome)).Pairwise (fun a b => a.nonce ≠ b.nonce) := by
  obtain ⟨_, _, o', _, _, _, hw⟩ := C79_contexts hs hk h hp ha
  have := C11_new_piv_partial cfg C (s.world k o) (callsOf k h) hl
  rw [← hw] at this
  exact this

/-! ## C78 -/

/-- **Specification.** what `nvm_read_ssn` answers when `n` is stored: its error, or the number -/
def nvmAnswer (nvmR : Option Err) (n : Nat) : R Nat := match nvmR with | some e => .err e | none => .ok n

theorem readNvm_eq (s : Prog) (nvmR : Option Err) (key : NvmKey) : readNvm s nvmR key = nvmAnswer nvmR (s.nvm key) := rfl

/-- **C78** (the moment of the call) `oscore_context_init` on context `k` does what the value-level function does
with the bytes the parameters denote at that moment; the stored number is looked up under the identifiers only. -/
theorem C78_init {cfg : Cfg} {C : Crypto} (hC : C.Lawful) (hinfo : 50 ≤ cfg.infoMax) (s : Prog) (k : Nat)
    (p : ParamRefs) (nvmR : Option Err) (hs : Good s) (hp : p.Callers)
    (hlen : (p.recipientId.read s.mem).length = p.recipientId.len) :
    Good (s.step cfg C (.init k p nvmR)).2 ∧
    match contextInit cfg C (p.vals s.mem)
        (nvmAnswer nvmR (s.nvm ((p.vals s.mem).senderId, (p.vals s.mem).recipientId, (p.vals s.mem).idContext)))
        ((s.mem (.inside k .nonce)).take 13) ((s.mem (.inside k .echo)).take 12) with
    | .ok c => (s.step cfg C (.init k p nvmR)).1 = .ok [] ∧
        ∃ o, (s.step cfg C (.init k p nvmR)).2.ctx k = some o ∧ o.senderId = p.senderId ∧ o.idContext = p.idContext ∧
          (s.step cfg C (.init k p nvmR)).2.world k o = ⟨c, s.nvm (nvmKeyOf c), s.log k⟩
    | .err e => (s.step cfg C (.init k p nvmR)).1 = .err e ∧ (s.step cfg C (.init k p nvmR)).2.ctx k = none
    | .ub => (s.step cfg C (.init k p nvmR)).1 = .ub := by
  refine ⟨good_step hs hp, ?_⟩
  obtain ⟨_, hm⟩ := initObj_spec hC hinfo s.mem k p (readNvm s nvmR) hp hlen
  obtain ⟨h1, h2, h3, _, h5, h6⟩ := step_init (cfg := cfg) (C := C) s k p nvmR
  rw [readNvm_eq] at hm
  generalize contextInit cfg C (p.vals s.mem) _ _ _ = r at hm ⊢
  cases r with
  | err e =>
    simp only at hm ⊢
    refine ⟨by rw [h6, hm], ?_⟩
    cases hc : (s.step cfg C (.init k p nvmR)).2.ctx k with
    | none => rfl
    | some o => rw [(h5 o).1 hc] at hm; cases hm
  | ub => simp only at hm ⊢; rw [h6, hm]
  | ok c =>
    obtain ⟨o, q1, q2, _, q4, q5⟩ := hm
    refine ⟨by rw [h6, q1], o, (h5 o).2 q1, q4, q5, ?_⟩
    unfold Prog.world
    rw [h1, h2, h3, q2]

/-- the event does not write to the objects the sender ID and the ID Context of these parameters lie in, and does
not initialise context `k` again -/
def Ev.Leaves (k : Nat) (p : ParamRefs) : Ev → Prop
  | .init j _ _ => j ≠ k
  | .write n _ => p.senderId.obj ≠ .caller n ∧ p.idContext.obj ≠ .caller n
  | _ => True

/-- **C78** (partial) Once `oscore_context_init` has returned, the program may overwrite or free the buffers of
master secret, master salt and recipient ID: for every later history the calls on the context return what they
would with the values the parameters had at the time of the initialisation.

`_partial`: the buffers of the sender ID and of the ID Context must stay as they are as long as the context is used,
and the `struct context` must not be copied: `C78_false_sender_id`, `C78_false_id_context`, `C78_false_copy`. -/
theorem C78_partial {cfg : Cfg} {C : Crypto} (hC : C.Lawful) (hinfo : 50 ≤ cfg.infoMax) (s : Prog) (k : Nat)
    (p : ParamRefs) (nvmR : Option Err) (hs : Good s) (hp : p.Callers)
    (hlen : (p.recipientId.read s.mem).length = p.recipientId.len) (c : Ctx)
    (hc : contextInit cfg C (p.vals s.mem)
        (nvmAnswer nvmR (s.nvm ((p.vals s.mem).senderId, (p.vals s.mem).recipientId, (p.vals s.mem).idContext)))
        ((s.mem (.inside k .nonce)).take 13) ((s.mem (.inside k .echo)).take 12) = .ok c)
    (h : List Ev) (hh : ∀ e ∈ h, e.Plain ∧ e.Leaves k p)
    (ha : ∀ pre e post, h = pre ++ e :: post →
      e.Apart ((s.step cfg C (.init k p nvmR)).2.run cfg C pre) k) :
    (s.step cfg C (.init k p nvmR)).2.results cfg C k h =
      alone cfg C ⟨c, s.nvm (nvmKeyOf c), s.log k⟩ (callsOf k h) ∧
    ∃ o', ((s.step cfg C (.init k p nvmR)).2.run cfg C h).ctx k = some o' ∧
      ((s.step cfg C (.init k p nvmR)).2.run cfg C h).world k o' =
        Verif.run cfg C ⟨c, s.nvm (nvmKeyOf c), s.log k⟩ (callsOf k h) := by
  obtain ⟨hg, hm⟩ := C78_init hC hinfo s k p nvmR hs hp hlen
  rw [hc] at hm
  obtain ⟨_, o, h1, h2, h3, h4⟩ := hm
  obtain ⟨i1, _, o', i3, _, _, i6⟩ := C79_contexts hg h1 h (fun e he => by
    obtain ⟨q1, q2⟩ := hh e he
    refine ⟨q1, ?_⟩
    cases e with
    | write n b => unfold Ev.Spares; rw [h2, h3]; exact q2
    | init j p n => exact q2
    | call j op => trivial
    | copy a b => trivial) ha
  rw [h4] at i1 i6
  exact ⟨i1, o', i3, i6⟩

/-! ## Fresh contexts only -/

/-- the event initialises no context with stored sequence numbers -/
def Ev.OnlyFresh : Ev → Prop
  | .init _ p _ => p.fresh = true
  | _ => True

def AllFresh (s : Prog) : Prop := ∀ k o, s.ctx k = some o → o.fresh = true

theorem initObj_fresh {cfg : Cfg} {C : Crypto} {k : Nat} {p : ParamRefs} {rd : NvmKey → R Nat} {m : Mem}
    {o : CtxObj} (h : (initObj cfg C k p rd m).1 = .ok o) : o.fresh = p.fresh := by
  have h' : initObj cfg C k p rd m = (.ok o, (initObj cfg C k p rd m).2) := Prod.ext h rfl
  unfold initObj at h'
  split at h'
  · cases h'
  split at h'
  · cases h'
  obtain ⟨_, _, _, h'⟩ := M.bind_eq_ok.1 h'
  obtain ⟨_, _, _, h'⟩ := M.bind_eq_ok.1 h'
  obtain ⟨_, _, _, h'⟩ := M.bind_eq_ok.1 h'
  obtain ⟨_, _, _, h'⟩ := M.bind_eq_ok.1 h'
  split at h'
  · cases h'
  obtain ⟨_, _, _, h'⟩ := M.bind_eq_ok.1 h'
  obtain ⟨_, _, _, h'⟩ := M.bind_eq_ok.1 h'
  obtain ⟨_, _, _, h'⟩ := M.bind_eq_ok.1 h'
  obtain ⟨_, _, _, h'⟩ := M.bind_eq_ok.1 h'
  obtain ⟨_, _, _, h'⟩ := M.bind_eq_ok.1 h'
  obtain ⟨_, _, _, h'⟩ := M.bind_eq_ok.1 h'
  obtain ⟨_, _, _, h'⟩ := M.bind_eq_ok.1 h'
  obtain ⟨_, _, _, h'⟩ := M.bind_eq_ok.1 h'
  simp only [M.run_pure, Prod.mk.injEq, R.ok.injEq] at h'
  obtain ⟨rfl, _⟩ := h'
  rfl

theorem allFresh_step {cfg : Cfg} {C : Crypto} {s : Prog} {e : Ev} (hs : AllFresh s) (he : e.OnlyFresh) :
    AllFresh (s.step cfg C e).2 := by
  intro j oj hj
  cases e with
  | init k p nvmR =>
    obtain ⟨_, _, _, h4, h5, _⟩ := step_init (cfg := cfg) (C := C) s k p nvmR
    by_cases hk : j = k
    · subst hk
      rw [initObj_fresh ((h5 oj).1 hj)]; exact he
    · rw [h4 j hk] at hj; exact hs j oj hj
  | write n b => exact hs j oj hj
  | copy a b =>
    simp only [Prog.step, upd] at hj
    split at hj
    · exact hs _ _ hj
    · exact hs _ _ hj
  | call k op =>
    cases hk : s.ctx k with
    | none => rw [step_call_none op hk] at hj; exact hs j oj hj
    | some o =>
      rw [step_call_some op hk] at hj
      simp only [upd] at hj
      split at hj
      · cases hj
        show o.fresh = true
        exact hs k o hk
      · exact hs j oj hj

theorem apart_of_fresh {cfg : Cfg} {C : Crypto} {s : Prog} (k : Nat) (hs : AllFresh s) (h : List Ev)
    (he : ∀ e ∈ h, e.OnlyFresh) : ∀ pre e post, h = pre ++ e :: post → e.Apart (s.run cfg C pre) k := by
  induction h generalizing s with
  | nil => intro pre e post hh; simp at hh
  | cons a h ih =>
    intro pre e post hh
    cases pre with
    | nil =>
      cases e with
      | call j op => exact .inr fun o oj _ hj => .inl (hs _ _ hj)
      | init j p n => trivial
      | write n b => trivial
      | copy x y => trivial
    | cons b pre =>
      simp only [List.cons_append, List.cons.injEq] at hh
      obtain ⟨rfl, hh⟩ := hh
      exact ih (allFresh_step hs (he a (by simp))) (fun e hm => he e (List.mem_cons_of_mem _ hm)) pre e post hh

/-- **C79** (contexts with fresh master secrets) A program that initialises its contexts only with fresh master
secrets (e.g. from EDHOC): no condition on the identifiers is needed. -/
theorem C79_fresh {cfg : Cfg} {C : Crypto} {s : Prog} {k : Nat} {o : CtxObj} (hs : Good s) (hf : AllFresh s)
    (hk : s.ctx k = some o) (h : List Ev) (hp : ∀ e ∈ h, e.Plain ∧ e.Spares k o ∧ e.OnlyFresh) :
    s.results cfg C k h = alone cfg C (s.world k o) (callsOf k h) ∧
    ∃ o', (s.run cfg C h).ctx k = some o' ∧
      (s.run cfg C h).world k o' = Verif.run cfg C (s.world k o) (callsOf k h) := by
  obtain ⟨h1, _, o', h3, _, _, h6⟩ := C79_contexts hs hk h (fun e he => ⟨(hp e he).1, (hp e he).2.1⟩)
    (apart_of_fresh k hf h (fun e he => (hp e he).2.2))
  exact ⟨h1, o', h3, h6⟩

/-! ## Examples and counterexamples -/

/-- memory of an example program: 0 master secret, 1 salt, 2 client ID, 3 server ID, 4 ID Context (one byte, or none), 5 another
master secret -/
def exMem : Mem := fun x => match x with
  | .caller 0 => exSecret | .caller 1 => [0x9e] | .caller 2 => [0x0C] | .caller 3 => [0x05]
  | .caller 4 => [0x37] | .caller 5 => [9, 9, 9, 9]
  | _ => []

def exProg : Prog := { mem := exMem, ctx := fun _ => none, nvm := fun _ => 0, log := fun _ => [] }

/-- parameters of the client, with the master secret in caller object `n` -/
def exP (n len : Nat) (fresh : Bool) : ParamRefs :=
  { masterSecret := ⟨.caller n, len⟩, masterSalt := ⟨.caller 1, 1⟩, senderId := ⟨.caller 2, 1⟩
    recipientId := ⟨.caller 3, 1⟩, idContext := ⟨.caller 4, 0⟩, fresh := fresh }

/-- parameters of the server, in the same program -/
def exQ (fresh : Bool) : ParamRefs :=
  { masterSecret := ⟨.caller 0, exSecret.length⟩, masterSalt := ⟨.caller 1, 1⟩, senderId := ⟨.caller 3, 1⟩
    recipientId := ⟨.caller 2, 1⟩, idContext := ⟨.caller 4, 0⟩, fresh := fresh }

/-- two encryptions under the same key with the same nonce and different plaintexts -/
def Reused (l l' : List EncCall) : Prop := ∃ a ∈ l, ∃ b ∈ l', a.key = b.key ∧ a.nonce = b.nonce ∧ a.pt ≠ b.pt

instance (l l' : List EncCall) : Decidable (Reused l l') := inferInstanceAs (Decidable (∃ a ∈ l, _))

/-- small storage interval, so that the examples stay short -/
def exCfgK : Cfg := { windowSize := 4, kStore := 2, fStore := 1 }

/-- **C78 is false** (sender ID): the buffer the sender ID was passed in is used for something else after the
initialisation.  The next request carries the new contents as its KID, and the server refuses it; without the write
the server accepts the same request. -/
theorem C78_false_sender_id :
    let s := (exProg.step exCfg toyCrypto (.init 0 (exP 0 exSecret.length true) none)).2
    let bad := ((s.run exCfg toyCrypto [.write 2 [0x77]]).step exCfg toyCrypto (.call 0 (.protect exGet 256 none))).1
    let good := (s.step exCfg toyCrypto (.call 0 (.protect exGet 256 none))).1
    (good >>= fun x => (oscore2coap exCfg toyCrypto x 256 exServer).1) = .ok exGet ∧
    bad.isOk = true ∧
    (bad >>= fun x => (oscore2coap exCfg toyCrypto x 256 exServer).1) =
      .err .oscore_kid_recipient_id_mismatch := by
  decide +kernel

/-- **C78 is false** (ID Context): the buffer of the ID Context is used for something else after the initialisation.
The sequence numbers are stored under the other identifier from then on; after a restart with the correct parameters
the context starts from the old stored number: two requests under the same key with the same nonce. -/
theorem C78_false_id_context :
    let p := { exP 0 exSecret.length false with idContext := ⟨.caller 4, 1⟩ }
    let send := fun m => Ev.call 0 (.protect m 256 none)
    let s := exProg.run exCfgK toyCrypto [.init 0 p none, .write 4 [0x77], send exGet, .write 4 [0x37],
      .init 0 p none, send exGet2]
    Reused (s.log 0) (s.log 0) := by
  decide +kernel

/-- **C78 is false** (copy): a `struct context` is copied and the original is initialised with another master
secret.  The copy's pointers lead into the original: it encrypts under the *new* key, with a nonce the original
uses too. -/
theorem C78_false_copy :
    let s := exProg.run exCfg toyCrypto [.init 0 (exP 0 exSecret.length true) none, .copy 0 1,
      .init 0 (exP 5 4 true) none, .call 0 (.protect exGet 256 none), .call 1 (.protect exGet2 256 none)]
    Reused (s.log 0) (s.log 1) := by
  decide +kernel

/-- **C79 without its condition is false** (storage): two contexts with the same identifiers and different master
secrets, both restarted with stored sequence numbers.  One sends five requests; the other sends one and thereby
lowers the stored number; after a restart the first reuses a number, i.e. key and nonce. -/
theorem C79_false_nvm :
    let send := fun k m => Ev.call k (.protect m 256 none)
    let s := exProg.run exCfgK toyCrypto [.init 0 (exP 0 exSecret.length false) none, .init 1 (exP 5 4 false) none,
      send 0 exGet, send 0 exGet, send 0 exGet, send 0 exGet, send 0 exGet, send 1 exGet,
      .init 0 (exP 0 exSecret.length false) none, send 0 exGet2]
    Reused (s.log 0) (s.log 0) := by
  decide +kernel

/-- non-vacuity of C78 and C79: a server context exists, a client context is initialised; the master secret is
wiped, the server and a third context are used, and the client sends two requests -/
def exTrace : List Ev := [.write 0 [], .write 5 [1], .call 1 (.protect exRsp 256 none), .call 0 (.protect exGet 256 none),
  .init 2 (exP 5 4 true) none, .call 2 (.protect exGet2 256 none), .call 0 (.protect exGet2 256 none)]

def exStart : Prog := (exProg.step exCfg toyCrypto (.init 1 (exQ true) none)).2

theorem exP_callers (n len : Nat) (f : Bool) : (exP n len f).Callers :=
  ⟨⟨_, rfl⟩, ⟨_, rfl⟩, ⟨_, rfl⟩, ⟨_, rfl⟩, ⟨_, rfl⟩⟩
theorem exQ_callers (f : Bool) : (exQ f).Callers := ⟨⟨_, rfl⟩, ⟨_, rfl⟩, ⟨_, rfl⟩, ⟨_, rfl⟩, ⟨_, rfl⟩⟩
theorem exProg_good : Good exProg := fun k o h => by cases h
theorem exStart_good : Good exStart := good_step exProg_good (exQ_callers true)

theorem exTrace_ok : ∀ e ∈ exTrace, e.Plain ∧ e.Leaves 0 (exP 0 exSecret.length true) := by
  intro e he
  simp only [exTrace, List.mem_cons, List.not_mem_nil, or_false] at he
  rcases he with rfl | rfl | rfl | rfl | rfl | rfl | rfl <;>
    first
      | exact ⟨trivial, by simp [Ev.Leaves, exP]⟩
      | exact ⟨exP_callers _ _ _, by simp [Ev.Leaves]⟩

example : ∀ e ∈ exTrace, e.OnlyFresh := by
  intro e he
  simp only [exTrace, List.mem_cons, List.not_mem_nil, or_false] at he
  rcases he with rfl | rfl | rfl | rfl | rfl | rfl | rfl <;> first | trivial | rfl

example : AllFresh exStart := allFresh_step (fun k o h => by cases h) rfl

/-- the hypotheses of C78 hold of the example, and its conclusion is about two real requests -/
example : 50 ≤ exCfg.infoMax ∧
    ((exP 0 exSecret.length true).recipientId.read exStart.mem).length = (exP 0 exSecret.length true).recipientId.len ∧
    (contextInit exCfg toyCrypto ((exP 0 exSecret.length true).vals exStart.mem) (.ok 0) [] []).isOk = true ∧
    ((exStart.step exCfg toyCrypto (.init 0 (exP 0 exSecret.length true) none)).2.results exCfg toyCrypto 0
      exTrace).map R.isOk = [true, true] := by decide +kernel

/-- non-fresh contexts with different identifiers are `Apart` -/
example : let s := exProg.run exCfgK toyCrypto [.init 0 (exP 0 exSecret.length false) none, .init 1 (exQ false) none]
    Ev.Apart s 0 (.call 1 (.protect exGet 256 none)) := by
  refine .inr fun o oj h0 h1 => .inr ?_
  intro h
  have hk : ∀ a b, (exProg.run exCfgK toyCrypto [.init 0 (exP 0 exSecret.length false) none,
      .init 1 (exQ false) none]).ctx 0 = some a →
    (exProg.run exCfgK toyCrypto [.init 0 (exP 0 exSecret.length false) none, .init 1 (exQ false) none]).ctx 1 = some b →
      a.senderId = ⟨.caller 2, 1⟩ ∧ b.senderId = ⟨.caller 3, 1⟩ := fun a b ha hb => by
    refine ⟨?_, ?_⟩
    · have : Option.map CtxObj.senderId (some a) = some ⟨.caller 2, 1⟩ := by rw [← ha]; decide +kernel
      simpa using this
    · have : Option.map CtxObj.senderId (some b) = some ⟨.caller 3, 1⟩ := by rw [← hb]; decide +kernel
      simpa using this
  obtain ⟨e1, e2⟩ := hk o oj h0 h1
  have := h.1
  simp only [view, e1, e2] at this
  revert this
  decide +kernel

end Verif.Own
