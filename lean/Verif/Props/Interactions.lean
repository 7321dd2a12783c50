import Verif.Props.EndToEnd
import Verif.Lemmas.FrameLemmas
/-
C29, C30, C33: the interaction table and the URI path.
-/
namespace Verif

/-- No two outstanding requests share a token or a (URI path, request type). -/
structure Distinct (t : Table) : Prop where
  token : ∀ (i j : Nat) (r s : Rec), t[i]? = some (some r) → t[j]? = some (some s) → r.token = s.token → i = j
  resource : ∀ (i j : Nat) (r s : Rec), t[i]? = some (some r) → t[j]? = some (some s) →
    r.uri = s.uri → r.reqType = s.reqType → i = j

/-- the outstanding request with this token -/
def Outstanding (t : Table) (token : Bytes) (r : Rec) : Prop := some r ∈ t ∧ r.token = token

theorem findTok_lt {t : Table} {token : Bytes} {r : Rec} (h : Outstanding t token r) :
    t.findTok token < t.length :=
  findIdx_lt_of_mem h.1 (by simp [h.2])

theorem findRes_get {t : Table} {uri : Bytes} {ty : MsgType} (h : t.findRes uri ty < t.length) :
    ∃ r, t[t.findRes uri ty]? = some (some r) ∧ r.uri = uri ∧ r.reqType = ty := by
  have hp := List.findIdx_getElem (w := h) (p := fun r : Option Rec => match r with
    | none => false
    | some r => r.reqType == ty && r.uri == uri)
  have he : t[t.findRes uri ty]? = some t[t.findRes uri ty] := List.getElem?_eq_getElem h
  cases hx : t[t.findRes uri ty] with
  | none =>
    have hx' : t[List.findIdx (fun r : Option Rec => match r with
      | none => false
      | some r => r.reqType == ty && r.uri == uri) t] = none := hx
    rw [hx'] at hp; cases hp
  | some r =>
    have hx' : t[List.findIdx (fun r : Option Rec => match r with
      | none => false
      | some r => r.reqType == ty && r.uri == uri) t] = some r := hx
    rw [hx'] at hp
    simp only [Bool.and_eq_true, beq_iff_eq] at hp
    exact ⟨r, by rw [he, hx], hp.2, hp.1⟩

theorem findFree_get {t : Table} (h : t.findFree < t.length) : t[t.findFree]? = some none := by
  have hp := List.findIdx_getElem (w := h) (p := fun r : Option Rec => r.isNone)
  have he : t[t.findFree]? = some t[t.findFree] := List.getElem?_eq_getElem h
  cases hx : t[t.findFree] with
  | none => rw [he, hx]
  | some r =>
    have hx' : t[List.findIdx (fun r : Option Rec => r.isNone) t] = some r := hx
    rw [hx'] at hp; cases hp

/-- **C29** (look-up) In a table without duplicate tokens, looking a token up returns exactly the
outstanding request with that token, and `oscore_interaction_not_found` if there is none. -/
theorem C29_get (t : Table) (token : Bytes) (htok : token.length ≤ 8) (hd : Distinct t) :
    (∀ r, Table.get t token = .ok r ↔ Outstanding t token r) ∧
    ((¬∃ r, Outstanding t token r) → Table.get t token = .err .oscore_interaction_not_found) := by
  unfold Table.get
  rw [if_neg (by omega)]
  by_cases h : t.findTok token < t.length
  · obtain ⟨s, hs, hst⟩ := findTok_get h
    rw [hs]
    simp only [R.ok.injEq]
    refine ⟨?_, ?_⟩
    · intro r
      constructor
      · rintro rfl; exact ⟨mem_iff_get.2 ⟨_, hs⟩, hst⟩
      · rintro ⟨hm, ht⟩
        obtain ⟨i, hi⟩ := mem_iff_get.1 hm
        have := hd.token _ _ _ _ hi hs (by rw [ht, hst])
        subst this
        rw [hi] at hs
        simpa using hs.symm
    · intro hno
      exact absurd ⟨s, mem_iff_get.2 ⟨_, hs⟩, hst⟩ hno
  · have hn : t[t.findTok token]? = none := List.getElem?_eq_none (by omega)
    rw [hn]
    simp only [reduceCtorEq, false_iff, implies_true, and_true]
    intro r hr
    exact h (findTok_lt hr)

/-- what a successful `set` does -/
theorem tableSet_ok {cfg : Cfg} {t t' : Table} {r : Rec} (h : t.set cfg r = .ok t') :
    ∃ slot, slot < t.length ∧ t' = List.set t slot (some r) ∧
      (t[slot]? = some none ∧ (∀ s, some s ∈ t → ¬(s.uri = r.uri ∧ s.reqType = r.reqType)) ∨
        ∃ s, t[slot]? = some (some s) ∧ s.uri = r.uri ∧ s.reqType = r.reqType) ∧
      (t.findTok r.token < t.length → t.findTok r.token = slot) := by
  have hl := tableSet_lens h
  unfold Table.set at h
  rw [if_neg hl] at h
  simp only at h
  generalize hs : (if t.findRes r.uri r.reqType ≥ t.length then t.findFree else t.findRes r.uri r.reqType) = slot at h
  split at h
  · cases h
  · rename_i hlt
    split at h
    · cases h
    · rename_i htok
      refine ⟨slot, by omega, (R.ok.inj h).symm, ?_, by intro hh; exact Decidable.byContradiction fun hne => htok ⟨hh, hne⟩⟩
      split at hs
      · rename_i hge
        subst hs
        refine .inl ⟨findFree_get (by omega), ?_⟩
        rintro s hm ⟨h1, h2⟩
        have : t.findRes r.uri r.reqType < t.length := findIdx_lt_of_mem hm (by simp [h1, h2])
        omega
      · subst hs
        exact .inr (findRes_get (by omega))

theorem set_get? {t : Table} {slot : Nat} {x y : Option Rec} {i : Nat} (hs : slot < t.length) :
    (List.set t slot x)[i]? = some y ↔ (i = slot ∧ y = x) ∨ (i ≠ slot ∧ t[i]? = some y) := by
  rw [List.getElem?_set]
  by_cases h : slot = i
  · subst h
    rw [if_pos rfl, if_pos hs]
    simp [eq_comm]
  · rw [if_neg h]
    constructor
    · intro hh; exact .inr ⟨fun e => h e.symm, hh⟩
    · rintro (⟨e, _⟩ | ⟨_, hh⟩)
      · exact absurd e.symm h
      · exact hh

theorem findTok_slot {t : Table} {token : Bytes} {slot : Nat} (hd : Distinct t)
    (h : t.findTok token < t.length → t.findTok token = slot) {i : Nat} {r : Rec}
    (hi : t[i]? = some (some r)) (ht : r.token = token) : i = slot := by
  have hlt := findTok_lt (t := t) (token := token) (r := r) ⟨mem_iff_get.2 ⟨i, hi⟩, ht⟩
  obtain ⟨s, hs, hst⟩ := findTok_get hlt
  have := hd.token _ _ _ _ hi hs (by rw [ht, hst])
  rw [this, h hlt]

/-- **C29** (storing) A successful store makes the new request outstanding, replaces at most the
request with the same (URI path, type), and keeps every other one; the table keeps its size and stays
free of duplicates. -/
theorem C29_set (cfg : Cfg) (t t' : Table) (r : Rec) (hd : Distinct t) (h : t.set cfg r = .ok t') :
    Distinct t' ∧ t'.length = t.length ∧
    (∀ s, some s ∈ t' ↔ s = r ∨ (some s ∈ t ∧ ¬(s.uri = r.uri ∧ s.reqType = r.reqType))) := by
  obtain ⟨slot, hlt, rfl, hcase, htok⟩ := tableSet_ok h
  have hres : ∀ i s, t[i]? = some (some s) → s.uri = r.uri → s.reqType = r.reqType → i = slot := by
    intro i s hi h1 h2
    rcases hcase with ⟨_, hno⟩ | ⟨s', hs', h1', h2'⟩
    · exact absurd ⟨h1, h2⟩ (hno s (mem_iff_get.2 ⟨i, hi⟩))
    · exact hd.resource _ _ _ _ hi hs' (by rw [h1, h1']) (by rw [h2, h2'])
  refine ⟨⟨?_, ?_⟩, by simp, ?_⟩
  · intro i j a b hi hj hab
    rw [set_get? hlt] at hi hj
    rcases hi with ⟨rfl, hi⟩ | ⟨hni, hi⟩ <;> rcases hj with ⟨rfl, hj⟩ | ⟨hnj, hj⟩
    · rfl
    · simp only [Option.some.injEq] at hi; subst hi
      exact absurd (findTok_slot hd htok hj hab.symm) hnj
    · simp only [Option.some.injEq] at hj; subst hj
      exact absurd (findTok_slot hd htok hi hab) hni
    · exact hd.token _ _ _ _ hi hj hab
  · intro i j a b hi hj h1 h2
    rw [set_get? hlt] at hi hj
    rcases hi with ⟨rfl, hi⟩ | ⟨hni, hi⟩ <;> rcases hj with ⟨rfl, hj⟩ | ⟨hnj, hj⟩
    · rfl
    · simp only [Option.some.injEq] at hi; subst hi
      exact absurd (hres _ _ hj h1.symm h2.symm) hnj
    · simp only [Option.some.injEq] at hj; subst hj
      exact absurd (hres _ _ hi h1 h2) hni
    · exact hd.resource _ _ _ _ hi hj h1 h2
  · intro s
    rw [mem_iff_get]
    constructor
    · rintro ⟨i, hi⟩
      rw [set_get? hlt] at hi
      rcases hi with ⟨_, hi⟩ | ⟨hne, hi⟩
      · exact .inl (by simpa using hi)
      · refine .inr ⟨mem_iff_get.2 ⟨i, hi⟩, ?_⟩
        rintro ⟨h1, h2⟩
        exact hne (hres i s hi h1 h2)
    · rintro (rfl | ⟨hm, hn⟩)
      · exact ⟨slot, (set_get? hlt).2 (.inl ⟨rfl, rfl⟩)⟩
      · obtain ⟨i, hi⟩ := mem_iff_get.1 hm
        refine ⟨i, (set_get? hlt).2 (.inr ⟨?_, hi⟩)⟩
        rintro rfl
        rcases hcase with ⟨h1, _⟩ | ⟨s', hs', h1', h2'⟩
        · rw [hi] at h1; cases h1
        · rw [hi] at hs'
          simp only [Option.some.injEq] at hs'
          subst hs'
          exact hn ⟨h1', h2'⟩

/-- **C29** (full table) When every slot is taken by requests for other resources, storing fails
with `oscore_max_interactions` (the table is not changed: no new one is returned). -/
theorem C29_full (cfg : Cfg) (t : Table) (r : Rec)
    (hl : r.token.length ≤ 8 ∧ r.uri.length ≤ cfg.uriMax ∧ r.piv.length ≤ 5 ∧ r.kid.length ≤ 8)
    (hfull : none ∉ t) (hres : ∀ s, some s ∈ t → ¬(s.uri = r.uri ∧ s.reqType = r.reqType)) :
    t.set cfg r = .err .oscore_max_interactions := by
  unfold Table.set
  rw [if_neg (by omega)]
  have h1 : t.findRes r.uri r.reqType = t.length := by
    unfold Table.findRes
    rw [List.findIdx_eq_length]
    intro x hx
    cases x with
    | none => rfl
    | some s =>
      have := hres s hx
      simp only [Bool.and_eq_false_iff, beq_eq_false_iff_ne, ne_eq]
      by_cases h : s.reqType = r.reqType
      · right; intro hu; exact this ⟨hu, h⟩
      · left; exact h
  have h2 : t.findFree = t.length := by
    unfold Table.findFree
    rw [List.findIdx_eq_length]
    intro x hx
    cases x with
    | none => exact absurd hx hfull
    | some s => rfl
  rw [h1, h2]
  simp

/-- **C29** (duplicate token) A token that is outstanding for another resource is refused. -/
theorem C29_duplicate_token (cfg : Cfg) (t : Table) (r s : Rec) (hd : Distinct t)
    (hs : Outstanding t r.token s) (hres : ¬(s.uri = r.uri ∧ s.reqType = r.reqType)) (t' : Table) :
    t.set cfg r ≠ .ok t' := by
  intro h
  obtain ⟨slot, hlt, _, hcase, htok⟩ := tableSet_ok h
  obtain ⟨i, hi⟩ := mem_iff_get.1 hs.1
  have := findTok_slot hd htok hi hs.2
  subst this
  rcases hcase with ⟨h1, _⟩ | ⟨s', hs', h1', h2'⟩
  · rw [hi] at h1; cases h1
  · rw [hi] at hs'
    simp only [Option.some.injEq] at hs'
    subst hs'
    exact hres ⟨h1', h2'⟩

/-- **C29** (removing) Removing a token succeeds iff it is outstanding; exactly that request
disappears. -/
theorem C29_remove (t : Table) (token : Bytes) (htok : token.length ≤ 8) (hd : Distinct t) :
    ((¬∃ r, Outstanding t token r) → Table.remove t token = .err .oscore_interaction_not_found) ∧
    ((∃ r, Outstanding t token r) → ∃ t', Table.remove t token = .ok t' ∧ Distinct t' ∧
      t'.length = t.length ∧ ∀ s, some s ∈ t' ↔ (some s ∈ t ∧ s.token ≠ token)) := by
  unfold Table.remove
  rw [if_neg (by omega)]
  refine ⟨?_, ?_⟩
  · intro hno
    rw [if_pos]
    rw [findTok_none]
    · exact Nat.le_refl _
    · intro r hr e; exact hno ⟨r, hr, e⟩
  · rintro ⟨r, hr⟩
    have hlt := findTok_lt hr
    rw [if_neg (by omega)]
    obtain ⟨s0, hs0, hst0⟩ := findTok_get hlt
    have huniq : ∀ i s, t[i]? = some (some s) → s.token = token → i = t.findTok token :=
      fun i s hi h => hd.token _ _ _ _ hi hs0 (by rw [h, hst0])
    refine ⟨_, rfl, ⟨?_, ?_⟩, by simp, ?_⟩
    · intro i j a b hi hj
      rw [set_get? hlt] at hi hj
      rcases hi with ⟨_, hi⟩ | ⟨_, hi⟩
      · cases hi
      · rcases hj with ⟨_, hj⟩ | ⟨_, hj⟩
        · cases hj
        · exact hd.token _ _ _ _ hi hj
    · intro i j a b hi hj
      rw [set_get? hlt] at hi hj
      rcases hi with ⟨_, hi⟩ | ⟨_, hi⟩
      · cases hi
      · rcases hj with ⟨_, hj⟩ | ⟨_, hj⟩
        · cases hj
        · exact hd.resource _ _ _ _ hi hj
    · intro s
      rw [mem_iff_get]
      constructor
      · rintro ⟨i, hi⟩
        rw [set_get? hlt] at hi
        rcases hi with ⟨_, hi⟩ | ⟨hne, hi⟩
        · cases hi
        · exact ⟨mem_iff_get.2 ⟨i, hi⟩, fun e => hne (huniq i s hi e)⟩
      · rintro ⟨hm, hn⟩
        obtain ⟨i, hi⟩ := mem_iff_get.1 hm
        refine ⟨i, (set_get? hlt).2 (.inr ⟨?_, hi⟩)⟩
        rintro rfl
        rw [hi] at hs0
        simp only [Option.some.injEq] at hs0
        subst hs0
        exact hn hst0

theorem distinct_init (n : Nat) : Distinct (Table.init n) := by
  constructor <;>
  · intro i j r s hi
    have : some r ∈ Table.init n := mem_iff_get.2 ⟨i, hi⟩
    unfold Table.init at this
    rw [List.mem_replicate] at this
    cases this.2

theorem updateWrapper_distinct {cfg : Cfg} {t t' : Table} {ty : MsgType} {token uri rp rk : Bytes}
    (hd : Distinct t) (h : updateWrapper cfg t ty token uri rp rk = .ok t') :
    Distinct t' ∧ t'.length = t.length := by
  unfold updateWrapper at h
  simp only at h
  generalize (if ty = .cancellation then MsgType.registration else ty) = k at h
  split at h
  · obtain ⟨a, ha, h⟩ := R.bind_eq_ok.1 h
    obtain ⟨b, hb, h⟩ := R.bind_eq_ok.1 h
    obtain ⟨c, hc, h⟩ := R.bind_eq_ok.1 h
    obtain ⟨d, hd', h⟩ := R.bind_eq_ok.1 h
    have := C29_set cfg _ _ _ hd h
    exact ⟨this.1, this.2.1⟩
  · split at h
    · have hl : token.length ≤ 8 := by
        unfold Table.remove at h
        split at h
        · cases h
        · omega
      have := C29_remove t token hl hd
      by_cases hex : ∃ r, Outstanding t token r
      · obtain ⟨t2, h2, h3, h4, _⟩ := this.2 hex
        rw [h2] at h
        obtain rfl := R.ok.inj h
        exact ⟨h3, h4⟩
      · rw [this.1 hex] at h; cases h
    · obtain rfl := R.ok.inj h
      exact ⟨hd, rfl⟩


theorem DecEffect.distinct {cfg C opt p c r c'} (h : DecEffect cfg C opt p c r c') (hd : Distinct c.inter) :
    Distinct c'.inter ∧ c'.inter.length = c.inter.length := by
  cases h with
  | unchanged _ => exact ⟨hd, rfl⟩
  | auth _ _ _ _ hres =>
    rcases hres with ⟨_, _, _, _, _, ht⟩ | ⟨_, ht⟩
    · exact updateWrapper_distinct hd ht
    · subst ht; exact ⟨hd, rfl⟩

theorem step_distinct (cfg : Cfg) (C : Crypto) (w : World) (op : Op) (hd : Distinct w.ctx.inter) :
    Distinct (step cfg C w op).2.ctx.inter ∧
      (step cfg C w op).2.ctx.inter.length = w.ctx.inter.length := by
  cases op with
  | protect inp cap nvmW =>
    have h := coap2oscore_effect cfg C nvmW inp cap w
    simp only [step]
    generalize (coap2oscore cfg C nvmW inp cap w).1 = r at h
    generalize (coap2oscore cfg C nvmW inp cap w).2 = w' at h
    cases h with
    | unchanged _ => exact ⟨hd, rfl⟩
    | emptyAck => exact ⟨hd, rfl⟩
    | enc _ _ _ _ _ _ _ henc =>
      cases henc with
      | unchanged _ => exact ⟨hd, rfl⟩
      | consumed _ _ => exact ⟨hd, rfl⟩
      | fresh _ _ _ _ _ _ _ _ hres =>
        rcases hres with ⟨_, _, _, ht⟩ | ⟨_, ht⟩
        · exact updateWrapper_distinct (t := w.ctx.inter) hd ht
        · subst ht; exact ⟨hd, rfl⟩
      | reuse _ _ _ _ _ hres =>
        rcases hres with ⟨_, _, _, ht⟩ | ⟨_, ht⟩
        · exact updateWrapper_distinct (t := w.ctx.inter) hd ht
        · subst ht; exact ⟨hd, rfl⟩
  | unprotect inp cap =>
    have h := oscore2coap_effect cfg C inp cap w.ctx
    simp only [step]
    generalize (oscore2coap cfg C inp cap w.ctx).1 = r at h
    generalize (oscore2coap cfg C inp cap w.ctx).2 = c' at h
    cases h with
    | unchanged _ => exact ⟨hd, rfl⟩
    | reqFail _ _ _ _ _ _ hdec => exact hdec.distinct hd
    | reqOk _ _ _ _ _ _ hdec ha =>
      rw [ha.frame.2.2.2.2]
      exact hdec.distinct hd
    | rspFail _ _ _ _ _ hdec => exact hdec.distinct hd
    | notifOk _ _ _ _ _ _ _ _ hdec => exact hdec.distinct hd
    | rspOk _ _ _ _ _ _ hdec => exact hdec.distinct hd

/-- **C29** (histories) After any history of calls on an initialised context the table has
`OSCORE_INTERACTIONS_COUNT` slots and no two outstanding requests share a token or a
(URI path, request type). -/
theorem C29_history (cfg : Cfg) (C : Crypto) (prm : InitParams) (nv : R Nat) (jn je : Bytes) (c : Ctx)
    (hinit : contextInit cfg C prm nv jn je = .ok c) (nvm : Nat) (log : List EncCall) (h : List Op) :
    Distinct (run cfg C ⟨c, nvm, log⟩ h).ctx.inter ∧
      (run cfg C ⟨c, nvm, log⟩ h).ctx.inter.length = cfg.interactions := by
  have h0 : c.inter = Table.init cfg.interactions := by
    unfold contextInit at hinit
    split at hinit
    · cases hinit
    · split at hinit
      · cases hinit
      · obtain ⟨iv, _, hinit⟩ := R.bind_eq_ok.1 hinit
        split at hinit
        · cases hinit
        · obtain ⟨rk, _, hinit⟩ := R.bind_eq_ok.1 hinit
          obtain ⟨ssn, _, hinit⟩ := R.bind_eq_ok.1 hinit
          obtain ⟨sk, _, hinit⟩ := R.bind_eq_ok.1 hinit
          have := R.ok.inj hinit
          rw [← this]
  refine run_induction (P := fun w => Distinct w.ctx.inter ∧ w.ctx.inter.length = cfg.interactions) ?_ ?_ h
  · intro w op ⟨h1, h2⟩
    have := step_distinct cfg C w op h1
    exact ⟨this.1, by rw [this.2, h2]⟩
  · simp only
    rw [h0]
    exact ⟨distinct_init _, by simp [Table.init]⟩

/-- a reachable table with two outstanding requests -/
example :
    Distinct (run exCfg toyCrypto ⟨exClient, 0, []⟩ [.protect exGet 256 none, .protect exGet2 256 none]).ctx.inter :=
  (C29_history exCfg toyCrypto (exClientParams true) (.ok 0) _ _ _ exClient_init 0 []
    [.protect exGet 256 none, .protect exGet2 256 none]).1

example :
    (run exCfg toyCrypto ⟨exClient, 0, []⟩ [.protect exGet 256 none, .protect exGet2 256 none]).ctx.inter.filterMap
      (fun r => r.map Rec.token) = [[0x4A], [0x4B]] := by
  decide +kernel

/-! ### C30 -/

theorem readWrapper_none {t : Table} {ty : MsgType} {token : Bytes} {pk : R (Bytes × Bytes)} (hd : Distinct t)
    (hno : ¬∃ r, Outstanding t token r) (hty : ty = .response ∨ ty = .notification) (x) :
    readWrapper t ty token pk ≠ .ok x := by
  unfold readWrapper
  rw [if_pos hty]
  intro h
  obtain ⟨r, hr, _⟩ := R.bind_eq_ok.1 h
  by_cases hl : token.length ≤ 8
  · exact hno ⟨r, ((C29_get t token hl hd).1 r).1 hr⟩
  · unfold Table.get at hr
    rw [if_pos (by omega)] at hr
    cases hr

/-- **C30** (sending) `coap2oscore` never returns `ok`, and never encrypts anything, for a response
whose token is not the token of an outstanding request. -/
theorem C30_protect (cfg : Cfg) (C : Crypto) (nvmW : Option Err) (inp : Bytes) (cap : Nat) (w : World)
    (p : Pkt) (hp : coapDeserialize inp = .ok p) (hrsp : isRequest p = false)
    (hd : Distinct w.ctx.inter) (hno : ¬∃ r, Outstanding w.ctx.inter p.token r) :
    (∀ b, (coap2oscore cfg C nvmW inp cap w).1 ≠ .ok b) ∧
    (coap2oscore cfg C nvmW inp cap w).2.log = w.log := by
  have hty := msgType_response hrsp
  have hack : ¬(p.type = 2 ∧ p.code = 0) := by
    rintro ⟨_, h0⟩
    unfold isRequest at hrsp
    rw [h0] at hrsp
    cases hrsp
  have h := coap2oscore_effect cfg C nvmW inp cap w
  generalize (coap2oscore cfg C nvmW inp cap w).1 = r at h
  generalize (coap2oscore cfg C nvmW inp cap w).2 = w' at h
  cases h with
  | unchanged hr => exact ⟨hr, rfl⟩
  | emptyAck _ hp' hack' =>
    rw [hp] at hp'; obtain rfl := R.ok.inj hp'
    exact absurd hack' hack
  | @enc p' s pt ev r w' _ hp' _ _ _ _ _ henc =>
    rw [hp] at hp'; obtain rfl := R.ok.inj hp'
    have key : (∀ x, r ≠ .ok x) ∧ w'.log = w.log := by
      cases henc with
      | unchanged hr => exact ⟨hr, rfl⟩
      | consumed hr _ => exact ⟨hr, rfl⟩
      | fresh _ _ _ _ _ hread => exact absurd hread (readWrapper_none (t := w.ctx.inter) hd hno hty _)
      | reuse _ _ hread => exact absurd hread (readWrapper_none (t := w.ctx.inter) hd hno hty _)
    refine ⟨?_, key.2⟩
    intro b hb
    obtain ⟨x, hx, _⟩ := R.bind_eq_ok.1 hb
    exact key.1 x hx

/-- **C30** (receiving) `oscore2coap` never returns `ok` for a response whose token is not the token
of an outstanding request, and leaves the context unchanged. -/
theorem C30_unprotect (cfg : Cfg) (C : Crypto) (inp : Bytes) (cap : Nat) (c : Ctx) (p : Pkt)
    (t : List (Opt × Bytes)) (hp : coapParse inp = .ok (p, t)) (hrsp : isRequest p = false)
    (hd : Distinct c.inter) (hno : ¬∃ r, Outstanding c.inter p.token r) :
    (∀ b, (oscore2coap cfg C inp cap c).1 ≠ .ok b) ∧ (oscore2coap cfg C inp cap c).2 = c := by
  have hty := msgType_response hrsp
  have hdec : ∀ {opt r c'}, DecEffect cfg C opt p c r c' → (∀ x, r ≠ .ok x) ∧ c' = c := by
    intro opt r c' h
    cases h with
    | unchanged hr => exact ⟨hr, rfl⟩
    | auth hread => exact absurd hread (readWrapper_none hd hno hty _)
  have h := oscore2coap_effect cfg C inp cap c
  generalize (oscore2coap cfg C inp cap c).1 = r at h
  generalize (oscore2coap cfg C inp cap c).2 = c' at h
  cases h with
  | unchanged hr => exact ⟨hr, rfl⟩
  | reqFail _ hp' _ hreq =>
    rw [hp] at hp'; obtain ⟨rfl, rfl⟩ := Prod.mk.inj (R.ok.inj hp')
    rw [hrsp] at hreq; cases hreq
  | reqOk _ hp' _ hreq =>
    rw [hp] at hp'; obtain ⟨rfl, rfl⟩ := Prod.mk.inj (R.ok.inj hp')
    rw [hrsp] at hreq; cases hreq
  | rspFail _ hp' _ _ _ hd' _ hr =>
    rw [hp] at hp'; obtain ⟨rfl, rfl⟩ := Prod.mk.inj (R.ok.inj hp')
    exact ⟨hr, (hdec hd').2⟩
  | notifOk _ hp' _ _ _ _ _ _ hd' =>
    rw [hp] at hp'; obtain ⟨rfl, rfl⟩ := Prod.mk.inj (R.ok.inj hp')
    exact absurd rfl ((hdec hd').1 _)
  | rspOk _ hp' _ _ _ _ hd' =>
    rw [hp] at hp'; obtain ⟨rfl, rfl⟩ := Prod.mk.inj (R.ok.inj hp')
    exact absurd rfl ((hdec hd').1 _)

/-- **C30** (error code) A well-formed OSCORE response (not a notification) for a token that is not
outstanding is answered with `oscore_interaction_not_found`. -/
theorem C30_unprotect_error (cfg : Cfg) (C : Crypto) (inp : Bytes) (cap : Nat) (c : Ctx) (p : Pkt)
    (t : List (Opt × Bytes)) (o : OscOpt) (hssn : c.ssn < 0x7FFFFF)
    (hp : coapParse inp = .ok (p, t)) (ho : oscoreOptionParser t = .ok o)
    (hrsp : isRequest p = false) (hobs : isObserve p.opts = false)
    (hsize : 8 ≤ p.payload.length ∧ p.payload.length ≤ cfg.maxPlaintext + 8 ∧ p.payload.length < 2 ^ 32)
    (hd : Distinct c.inter) (hno : ¬∃ r, Outstanding c.inter p.token r) :
    oscore2coap cfg C inp cap c = (.err .oscore_interaction_not_found, c) := by
  have hty := msgType_response hrsp
  have hget := (C29_get c.inter p.token ((coapParse_wf hp).1.token) hd).2 hno
  unfold oscore2coap
  rw [M.bind_get]
  have hfr : checkFreshness c = .ok () := by
    unfold checkFreshness ssnOverflow; rw [if_neg (by omega)]
  rw [hfr, M.bind_lift_ok, hp, M.bind_lift_ok]
  simp only
  rw [ho, M.bind_lift_ok]
  have hl : checkBufferSize cfg.maxPlaintext (sub32 p.payload.length 8) = .ok () := by
    rw [sub32_of_le hsize.1 hsize.2.2, checkBufferSize_ok]; omega
  rw [hl, M.bind_lift_ok, hrsp]
  simp only [Bool.false_eq_true, if_false]
  rw [M.run_bind]
  have hun : unprotectResponse cfg C o p c = (.err .oscore_interaction_not_found, c) := by
    unfold unprotectResponse
    rw [M.bind_get, hobs]
    simp only [Bool.false_eq_true, if_false]
    rw [M.run_bind]
    unfold decryptWrapper
    rw [M.bind_get]
    have hr : ∀ x, readWrapper c.inter (msgType p) p.token x = .err .oscore_interaction_not_found := by
      intro x
      unfold readWrapper
      rw [if_pos hty, hget]
      rfl
    rw [hr, M.bind_lift_err]
  rw [hun]

/-- **C30** (sending consumes) After `coap2oscore` protected a response without Observe, its token is
not outstanding any more; so by `C30_protect` a second response with the same token is refused. -/
theorem C30_protect_consumes (cfg : Cfg) (C : Crypto) (nvmW : Option Err) (inp b : Bytes) (cap : Nat)
    (w w' : World) (p : Pkt) (h : coap2oscore cfg C nvmW inp cap w = (.ok b, w'))
    (hp : coapDeserialize inp = .ok p) (hrsp : isRequest p = false) (hobs : isObserve p.opts = false)
    (hd : Distinct w.ctx.inter) : ¬∃ r, Outstanding w'.ctx.inter p.token r := by
  have hack : ¬(p.type = 2 ∧ p.code = 0) := by
    rintro ⟨_, h0⟩
    unfold isRequest at hrsp
    rw [h0] at hrsp
    cases hrsp
  obtain ⟨v, hv⟩ := protect_ok h hp hack
  have hmt : msgType p = .response := by
    rcases msgType_response hrsp with hm | hm
    · exact hm
    · unfold msgType at hm
      rw [hrsp] at hm
      cases hg : getObserveValue p.opts with
      | none => rw [hg] at hm; cases hm
      | some x =>
        exfalso
        unfold getObserveValue at hg
        obtain ⟨o, ho, _⟩ := Option.map_eq_some_iff.1 hg
        have h1 := List.find?_some ho
        have h2 := List.mem_of_find?_eq_some ho
        unfold isObserve at hobs
        rw [List.any_eq_false] at hobs
        exact hobs o h2 h1
  have hu := hv.upd
  rw [hmt] at hu
  unfold updateWrapper at hu
  simp only [reduceCtorEq, if_false, or_self, if_true] at hu
  rw [hv.inter']
  rintro ⟨r, hr⟩
  by_cases hex : ∃ r, Outstanding w.ctx.inter p.token r
  · obtain ⟨t2, h2, _, _, h4⟩ := (C29_remove w.ctx.inter p.token hv.range.token hd).2 hex
    rw [h2] at hu
    obtain rfl := R.ok.inj hu
    exact ((h4 r).1 hr.1).2 hr.2
  · rw [(C29_remove w.ctx.inter p.token hv.range.token hd).1 hex] at hu
    cases hu

/-- **C30** (receiving consumes) Whatever `oscore2coap` delivers is the serialisation of a CoAP
message `q`; if `q` is a response without Observe, the token of the packet is not outstanding any
more; so by `C30_unprotect` a second response with the same token is refused. -/
theorem C30_unprotect_consumes (cfg : Cfg) (C : Crypto) (inp b : Bytes) (cap : Nat) (c c' : Ctx)
    (p : Pkt) (t : List (Opt × Bytes)) (h : oscore2coap cfg C inp cap c = (.ok b, c'))
    (hp : coapParse inp = .ok (p, t)) (hd : Distinct c.inter) :
    ∃ q, b = encPkt q ∧
      (isRequest q = false → isObserve q.opts = false → ¬∃ r, Outstanding c'.inter p.token r) := by
  have hdec : ∀ {opt c1 out pt}, DecEffect cfg C opt p c (.ok (out, pt)) c1 →
      isRequest out = false → isObserve out.opts = false → ¬∃ r, Outstanding c1.inter p.token r := by
    intro opt c1 out pt h hrsp hobs
    generalize hr : (R.ok (out, pt) : R (Pkt × Bytes)) = r at h
    cases h with
    | unchanged hn => exact absurd hr.symm (hn _)
    | auth _ _ _ _ hres =>
      rcases hres with ⟨out', uri, h1, _, _, hu⟩ | ⟨h1, _⟩
      · rw [h1] at hr
        obtain ⟨rfl, rfl⟩ := Prod.mk.inj (R.ok.inj hr)
        have hmt : msgType out = .response := by
          rcases msgType_response hrsp with hm | hm
          · exact hm
          · unfold msgType at hm
            rw [hrsp] at hm
            cases hg : getObserveValue out.opts with
            | none => rw [hg] at hm; cases hm
            | some x =>
              exfalso
              unfold getObserveValue at hg
              obtain ⟨o, ho, _⟩ := Option.map_eq_some_iff.1 hg
              have h1 := List.find?_some ho
              have h2 := List.mem_of_find?_eq_some ho
              unfold isObserve at hobs
              rw [List.any_eq_false] at hobs
              exact hobs o h2 h1
        rw [hmt] at hu
        unfold updateWrapper at hu
        simp only [reduceCtorEq, if_false, or_self, if_true] at hu
        have htok := (coapParse_wf hp).1.token
        rintro ⟨r, hr⟩
        by_cases hex : ∃ r, Outstanding c.inter p.token r
        · obtain ⟨t2, h2, _, _, h4⟩ := (C29_remove c.inter p.token htok hd).2 hex
          rw [h2] at hu
          obtain rfl := R.ok.inj hu
          exact ((h4 r).1 hr.1).2 hr.2
        · rw [(C29_remove c.inter p.token htok hd).1 hex] at hu
          cases hu
      · exact absurd hr.symm (h1 _)
  have he := oscore2coap_effect cfg C inp cap c
  rw [h] at he
  simp only at he
  generalize hr : (R.ok b : R Bytes) = r at he
  cases he with
  | unchanged hn => exact absurd hr.symm (hn b)
  | reqFail _ _ _ _ _ _ _ _ hn => exact absurd hr.symm (hn b)
  | @reqOk p' t' o out pt c1 r2 _ _ hp' _ _ _ _ hd' ha =>
    rw [hp] at hp'; obtain ⟨rfl, rfl⟩ := Prod.mk.inj (R.ok.inj hp')
    obtain ⟨_, _, hs⟩ := R.bind_eq_ok.1 hr.symm
    refine ⟨out, (coapSerialize_ok.1 hs).1, ?_⟩
    intro h1 h2
    rw [ha.frame.2.2.2.2]
    exact hdec hd' h1 h2
  | rspFail _ _ _ _ _ _ _ hn => exact absurd hr.symm (hn b)
  | @notifOk p' t' o out pt c1 piv _ hp' _ _ _ _ _ _ hd' =>
    rw [hp] at hp'; obtain ⟨rfl, rfl⟩ := Prod.mk.inj (R.ok.inj hp')
    exact ⟨out, (coapSerialize_ok.1 hr.symm).1, fun h1 h2 => by
      have := hdec hd' h1 h2
      exact this⟩
  | @rspOk p' t' o opt out pt c1 _ hp' _ _ _ _ hd' =>
    rw [hp] at hp'; obtain ⟨rfl, rfl⟩ := Prod.mk.inj (R.ok.inj hp')
    exact ⟨out, (coapSerialize_ok.1 hr.symm).1, fun h1 h2 => hdec hd' h1 h2⟩

/-- the theorems apply: a server answers a request once; the second answer is refused -/
example :
    let req := sendOf exCfg (exW exClient) exGet
    let w1 := afterRecv exCfg (exW exServer) req
    let w2 := afterSend exCfg w1 exRsp
    (step exCfg toyCrypto w1 (.protect exRsp 256 none)).1.isOk = true ∧
    (step exCfg toyCrypto w2 (.protect exRsp 256 none)).1 = .err .oscore_interaction_not_found := by
  decide +kernel

/-! ### C33 -/

/-- the URI path as RFC 7252 writes it: segments separated by '/', "/" when there are none -/
def Spec.uriPath (opts : List Opt) : Bytes :=
  match (opts.filter (fun o => decide (o.num = 11))).map Opt.value with
  | [] => [0x2F]
  | segs => [0x2F].intercalate segs

/-- bytes needed while the path is built: every segment followed by '/' -/
def Spec.uriPathRoom (opts : List Opt) : Nat :=
  ((opts.filter (fun o => decide (o.num = 11))).map (fun o => o.value.length + 1)).sum

/-- segments each followed by '/' -/
def slashed (segs : List Bytes) : Bytes := (segs.map (fun s => s ++ [0x2F])).flatten

theorem uriPathLoop_eq (max : Nat) (cur : Bytes) (opts : List Opt) (hc : cur.length ≤ max) :
    uriPathLoop max cur opts =
      if cur.length + Spec.uriPathRoom opts ≤ max then
        .ok (cur ++ slashed ((opts.filter (fun o => decide (o.num = 11))).map Opt.value))
      else .err .buffer_to_small := by
  induction opts generalizing cur with
  | nil => simp [uriPathLoop, Spec.uriPathRoom, slashed, hc]
  | cons o os ih =>
    unfold uriPathLoop
    by_cases ho : o.num = optURI_PATH
    · rw [if_neg (by simp [ho])]
      have ho' : o.num = 11 := ho
      simp only [Spec.uriPathRoom, List.filter_cons, ho', decide_true, if_true, List.map_cons, List.sum_cons,
        slashed, List.flatten_cons]
      unfold bufferAppend
      by_cases h1 : o.value.length ≤ max - cur.length
      · rw [memcpyS_eq, if_pos h1]
        simp only [R.ok_bind, R.pure_eq]
        rw [memcpyS_eq]
        by_cases h2 : ([0x2F] : Bytes).length ≤ max - (cur ++ o.value).length
        · rw [if_pos h2]
          simp only [R.ok_bind]
          simp only [List.length_append, List.length_cons, List.length_nil] at h2
          rw [ih _ (by simp; omega)]
          simp only [Spec.uriPathRoom, slashed, List.length_append, List.length_cons, List.length_nil]
          have : (cur.length + o.value.length + (0 + 1) +
              ((os.filter (fun o => decide (o.num = 11))).map (fun o => o.value.length + 1)).sum ≤ max) ↔
              (cur.length + (o.value.length + 1 +
              ((os.filter (fun o => decide (o.num = 11))).map (fun o => o.value.length + 1)).sum) ≤ max) := by omega
          by_cases h3 : cur.length + (o.value.length + 1 +
              ((os.filter (fun o => decide (o.num = 11))).map (fun o => o.value.length + 1)).sum) ≤ max
          · rw [if_pos (this.2 h3), if_pos h3]; simp
          · rw [if_neg (fun hh => h3 (this.1 hh)), if_neg h3]
        · rw [if_neg h2]
          simp only [R.err_bind]
          simp only [List.length_append, List.length_cons, List.length_nil] at h2
          rw [if_neg (by omega)]
      · rw [memcpyS_eq, if_neg h1]
        simp only [R.err_bind]
        rw [if_neg (by omega)]
    · rw [if_pos ho, ih cur hc]
      have ho' : o.num ≠ 11 := ho
      have hf : (o :: os).filter (fun o => decide (o.num = 11)) = os.filter (fun o => decide (o.num = 11)) := by
        rw [List.filter_cons, if_neg (by simp [ho'])]
      unfold Spec.uriPathRoom
      rw [hf]

theorem slashed_dropLast (segs : List Bytes) (h : segs ≠ []) :
    (slashed segs).dropLast = [0x2F].intercalate segs := by
  induction segs with
  | nil => exact absurd rfl h
  | cons a l ih =>
    cases l with
    | nil => simp [slashed, List.intercalate]
    | cons b l =>
      have hne : slashed (b :: l) ≠ [] := by simp [slashed]
      have := ih (by simp)
      have e : slashed (a :: b :: l) = (a ++ [0x2F]) ++ slashed (b :: l) := by simp [slashed]
      rw [e, List.dropLast_append_of_ne_nil hne, this]
      simp [List.intercalate, List.intersperse]

theorem slashed_length (opts : List Opt) :
    (slashed ((opts.filter (fun o => decide (o.num = 11))).map Opt.value)).length = Spec.uriPathRoom opts := by
  unfold Spec.uriPathRoom
  induction opts.filter (fun o => decide (o.num = 11)) with
  | nil => rfl
  | cons o l ih =>
    simp only [slashed, List.map_cons, List.flatten_cons, List.length_append, List.length_cons, List.length_nil,
      List.sum_cons] at *
    rw [ih]

/-- **C33** With a buffer of `max > 0` bytes, the recorded URI path is the Uri-Path segments joined
with '/', "/" when there is none, provided the segments with one '/' each need fewer than `max`
bytes; `buffer_to_small` when they need more. -/
theorem C33_uri_path_partial (opts : List Opt) (max : Nat) (hmax : 0 < max) :
    (Spec.uriPathRoom opts < max → uriPathCreate opts max = .ok (Spec.uriPath opts)) ∧
    (max < Spec.uriPathRoom opts → uriPathCreate opts max = .err .buffer_to_small) := by
  unfold uriPathCreate
  rw [uriPathLoop_eq max [] opts (by simp)]
  simp only [List.length_nil, Nat.zero_add, List.nil_append]
  refine ⟨?_, ?_⟩
  · intro h
    rw [if_pos (by omega)]
    simp only [R.ok_bind]
    rw [slashed_length]
    have hl := slashed_length opts
    unfold Spec.uriPath
    cases hs : (opts.filter (fun o => decide (o.num = 11))).map Opt.value with
    | nil =>
      rw [hs] at hl
      have : Spec.uriPathRoom opts = 0 := by rw [← hl]; rfl
      rw [if_neg (by omega), if_neg (by omega)]
      rfl
    | cons a l =>
      rw [hs] at hl
      have hpos : 0 < Spec.uriPathRoom opts := by rw [← hl]; simp [slashed]; omega
      rw [if_pos hpos, if_neg (by omega), slashed_dropLast _ (by simp)]
      rfl
  · intro h
    rw [if_neg (by omega)]
    rfl

/-- **C33 fails in one case**: when the segments need exactly the size of the buffer, the terminating
zero byte is written one byte behind it (option.c:180). -/
theorem C33_false_exact_fit (opts : List Opt) (max : Nat) (h : Spec.uriPathRoom opts = max) :
    uriPathCreate opts max = .ub := by
  unfold uriPathCreate
  rw [uriPathLoop_eq max [] opts (by simp)]
  simp only [List.length_nil, Nat.zero_add, List.nil_append]
  rw [if_pos (by omega)]
  simp only [R.ok_bind]
  rw [slashed_length]
  split
  · rw [if_pos (by omega)]
  · rw [if_pos (by omega)]

example : Spec.uriPath [⟨11, [97, 98], 11⟩, ⟨0, [99], 11⟩, ⟨4, [1], 15⟩] = [97, 98, 0x2F, 99] ∧
    Spec.uriPathRoom [⟨11, [97, 98], 11⟩, ⟨0, [99], 11⟩, ⟨4, [1], 15⟩] = 5 := by decide +kernel
/-- a 29-byte segment overruns the default 30-byte buffer -/
example : Spec.uriPathRoom [⟨11, List.replicate 29 97, 11⟩] = ({} : Cfg).uriMax := by decide +kernel

end Verif
